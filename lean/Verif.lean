import Verif.Bits
import Verif.Deku
import Verif.Model.Types
import Verif.Model.Physical
import Verif.Model.Network
import Verif.Model.Data
import Verif.Model.Session
import Verif.Model.Interface
import Verif.Model.Query
import Verif.Model.File
import Verif.Model.Operation
import Verif.Model.Utils
import Verif.Model.Action
import Verif.Model.Command
import Verif.Model.Frame
import Verif.Model.Cli
import Verif.Spec.WF
import Verif.Lemmas.Core
import Verif.Lemmas.Types
import Verif.Lemmas.Leaf
import Verif.Lemmas.Leaf2
import Verif.Lemmas.Leaf3
import Verif.Lemmas.Ops
import Verif.Lemmas.Reader
import Verif.Lemmas.Safe
import Verif.Lemmas.Action
import Verif.Lemmas.Decode
import Verif.Lemmas.Command
import Verif.Lemmas.Entry
import Verif.Props.Output
import Verif.Props.CliOutput
import Verif.Props.Samples
import Verif.Props.Security
import Verif.Props.Sound
import Verif.Props.Roundtrip
import Verif.Lemmas.Align
import Verif.Lemmas.Total
import Verif.Props.Decoder
import Verif.Props.Ends
import Verif.Props.Normalise
import Verif.Spec.Wire
import Verif.Lemmas.Derived
import Verif.Props.Numbers
import Verif.Props.Accessors
import Verif.Spec.Layout
import Verif.Lemmas.Layout
import Verif.Lemmas.Layout2
import Verif.Props.Layout
import Verif.Props.Portability
import Verif.Lemmas.Reserved
import Verif.Props.Reserved
import Verif.Props.Fields
import Verif.Props.Files
import Verif.Props.Interfaces
import Verif.Props.Queries
import Verif.Spec.Frames
import Verif.Spec.Hopeless
import Verif.Lemmas.Frame
import Verif.Lemmas.Shift
import Verif.Lemmas.Limit
import Verif.Lemmas.Exact
import Verif.Props.Frames
import Verif.Props.Foreground
import Verif.Props.ReadArray
import Verif.Props.Checksum
import Verif.Props.Cli
import Verif.Props.TxStatus
import Verif.Spec.Accept
import Verif.Lemmas.Accept
import Verif.Lemmas.Accept2
import Verif.Lemmas.Accept3
import Verif.Lemmas.Accept4
import Verif.Lemmas.Accept5
import Verif.Lemmas.Accept6
import Verif.Props.Accept
import Verif.Spec.FrameLayout
import Verif.Props.FrameLayout
import Verif.Spec.FrameAccept
import Verif.Spec.Offset
import Verif.Lemmas.Accept7
import Verif.Lemmas.Limit2
import Verif.Props.FrameAccept
import Verif.Lemmas.Offset
import Verif.Props.Offset
import Verif.Model.Items
import Verif.Spec.Items
import Verif.Lemmas.Items
import Verif.Props.Items
import Verif.Lemmas.Survive
import Verif.Props.Survive
import Verif.Model.Default
import Verif.Lemmas.Default
import Verif.Props.Default
import Verif.Props.Build
import Verif.Model.Display
import Verif.Lemmas.Display
import Verif.Props.Display
import Verif.Model.SystemFile
import Verif.Lemmas.Whole
import Verif.Lemmas.Enough
import Verif.Props.SystemFile
import Verif.Lemmas.Hope
import Verif.Lemmas.Hope2
import Verif.Lemmas.Hope3
import Verif.Lemmas.Hope4
import Verif.Lemmas.Hope5
import Verif.Props.Hope
import Verif.Vectors
import Verif.Spec.Growing
import Verif.Lemmas.Growing
import Verif.Props.Growing
import Verif.Model.Ids
import Verif.Lemmas.Ids
import Verif.Props.Ids
import Verif.Props.Parts
import Verif.Lemmas.Late
import Verif.Props.Late
import Verif.Props.FrameUnique
import Verif.Model.Stream
import Verif.Spec.Stream
import Verif.Lemmas.Stream
import Verif.Lemmas.Source
import Verif.Props.Stream
import Verif.Model.Debug
import Verif.Lemmas.Debug
import Verif.Lemmas.Debug2
import Verif.Props.Debug
import Verif.Spec.Mirror
import Verif.Lemmas.Mirror
import Verif.Props.Mirror
import Verif.Spec.Spoil
import Verif.Lemmas.Spoil
import Verif.Props.Spoil
import Verif.Spec.Lost
import Verif.Props.HopeCommand
import Verif.Spec.Retag
import Verif.Props.Retag
import Verif.Props.Order
import Verif.Spec.LostFrame
import Verif.Lemmas.HopeFrame
import Verif.Props.HopeFrame
import Verif.Props.ChecksumAll
import Verif.Props.Panics
import Verif.Spec.LostBits
import Verif.Lemmas.Close
import Verif.Props.HopeAll
import Verif.Props.HopeShort
import Verif.Props.DefaultWire
import Verif.Spec.Size
import Verif.Props.Size
import Verif.Spec.Ignored
import Verif.Lemmas.Flip
import Verif.Lemmas.Flip2
import Verif.Lemmas.Flip3
import Verif.Lemmas.FlipSize
import Verif.Props.Flip
import Verif.Props.PassOn
import Verif.Props.Same
import Verif.Props.Compose
import Verif.Props.SameAction
import Verif.Props.CliShow
import Verif.Props.Secrets
import Verif.Props.FlipLarge
import Verif.Props.FlipAll
import Verif.Props.Alike
import Verif.Props.AlikeFrame
import Verif.Props.AlikeLarge
import Verif.Props.ShortestFrame
import Verif.Spec.Redirect
import Verif.Props.Redirect
import Verif.Props.Shortest
import Verif.Props.Messages
import Verif.Props.OtherBuild
import Verif.Props.SwapCommand
