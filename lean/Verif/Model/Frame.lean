import Verif.Model.Command

/-!
# `dash7/src/transport/mod.rs`, `network/network.rs`, `link/frame.rs`

The frames contain a `Command`, whose reader is hand-written; their readers are therefore functions
on the concrete reader.
-/

namespace Dash7

namespace Trans

/-- `/repo/dash7/src/transport/mod.rs:24-40` (`Control`): seven one-bit fields. -/
structure Control where
  isDialogStart : Bool
  hasListenTimeout : Bool
  hasExecutionDelayTimeout : Bool
  isAckRequested : Bool
  isAckNotVoid : Bool
  isAckRecordRequested : Bool
  hasAgc : Bool
  deriving DecidableEq, Repr

/-- `/repo/dash7/src/transport/mod.rs:24-40` (derived reader). -/
def Control.read : P Control := do
  let a ← P.flag
  let b ← P.flag
  let c ← P.flag
  let d ← P.flag
  let e ← P.flag
  let f ← P.flag
  let g ← P.flag
  P.pure ⟨a, b, c, d, e, f, g⟩

/-- `/repo/dash7/src/transport/mod.rs:24-40` (derived writer). -/
def Control.write (c : Control) : W :=
  W.seq [W.flag c.isDialogStart, W.flag c.hasListenTimeout, W.flag c.hasExecutionDelayTimeout,
    W.flag c.isAckRequested, W.flag c.isAckNotVoid, W.flag c.isAckRecordRequested,
    W.flag c.hasAgc]

/-- `/repo/dash7/src/transport/mod.rs:42-46` (`AckTemplate`). -/
structure AckTemplate where
  transactionIdStart : U8
  transactionIdStop : U8
  deriving DecidableEq, Repr

/-- `/repo/dash7/src/transport/mod.rs:42-46` (derived reader). -/
def AckTemplate.read : P AckTemplate := do
  let a ← P.u8
  let b ← P.u8
  P.pure ⟨a, b⟩

/-- `/repo/dash7/src/transport/mod.rs:42-46` (derived writer). -/
def AckTemplate.write (t : AckTemplate) : W :=
  W.seq [W.u8 t.transactionIdStart, W.u8 t.transactionIdStop]

/-- `/repo/dash7/src/transport/mod.rs:50-80`: the fields of `Frame` in front of the command. -/
structure Header where
  control : Control
  dialogId : U8
  transactionId : U8
  targetRxLevelI : Option U8
  listenTimeout : Option VarInt
  executionDelayTimeout : Option VarInt
  congestionTimeout : Option VarInt
  ackTemplate : Option AckTemplate
  deriving DecidableEq, Repr

/-- `/repo/dash7/src/transport/mod.rs:50-80` (derived reader, in front of the command). -/
def Header.read : P Header := do
  let c ← Control.read
  let d ← P.u8
  let t ← P.u8
  let rx ← P.cond c.hasAgc P.u8
  let l ← P.cond c.hasListenTimeout VarInt.read
  let e ← P.cond c.hasExecutionDelayTimeout VarInt.read
  let g ← P.cond (c.isAckRequested && c.isDialogStart) VarInt.read
  let a ← P.cond c.isAckNotVoid AckTemplate.read
  P.pure ⟨c, d, t, rx, l, e, g, a⟩

/-- `/repo/dash7/src/transport/mod.rs:50-80` (derived writer, in front of the command). -/
def Header.write (h : Header) : W :=
  W.seq [h.control.write, W.u8 h.dialogId, W.u8 h.transactionId, W.opt W.u8 h.targetRxLevelI,
    W.opt VarInt.write h.listenTimeout, W.opt VarInt.write h.executionDelayTimeout,
    W.opt VarInt.write h.congestionTimeout, W.opt AckTemplate.write h.ackTemplate]

/-- `/repo/dash7/src/transport/mod.rs:48-85` (`Frame`). -/
structure Frame where
  header : Header
  command : Command
  deriving DecidableEq, Repr

/-- `/repo/dash7/src/transport/mod.rs:48-85` (derived reader in context `command_length`). -/
def Frame.read (cfg : Cfg) (commandLength : U32) : R Frame := do
  let h ← Header.read.run
  let c ← Command.read cfg commandLength
  R.pure ⟨h, c⟩

/-- `/repo/dash7/src/transport/mod.rs:48-85` (derived writer). -/
def Frame.write (cfg : Cfg) (f : Frame) : W := W.seq [f.header.write, f.command.write cfg]

/-- `/repo/dash7/src/transport/mod.rs:48-49` (derived `TryFrom`, `ctx_default = "0"`). -/
def Frame.tryFrom (cfg : Cfg) (data : List U8) : Except Err Frame :=
  derivedTryFrom (Frame.read cfg 0) data

/-- `/repo/dash7/src/transport/mod.rs:48-49` (derived `from_bytes`, `ctx_default = "0"`). -/
def Frame.fromBytes (cfg : Cfg) (input : Rest) : Except Err (Rest × Frame) :=
  derivedFromBytes (Frame.read cfg 0) input

/-- `/repo/dash7/src/transport/mod.rs:48-49` (derived `to_bytes`). -/
def Frame.toBytes (cfg : Cfg) (f : Frame) : Except Err (List U8) := (f.write cfg).toBytes

end Trans

namespace Net

/-- `/repo/dash7/src/network/network.rs:7-18` (`Control`). -/
structure Control where
  hasNoOriginAccessId : Bool
  hasHopping : Bool
  originAddressType : AddressType
  nlsMethod : NlsMethod
  deriving DecidableEq, Repr

/-- `/repo/dash7/src/network/network.rs:7-18` (derived reader; one padding bit before the method). -/
def Control.read (cfg : Cfg) : P Control := do
  let a ← P.flag
  let b ← P.flag
  let t ← AddressType.read
  P.pad 1
  let m ← NlsMethod.read cfg
  P.pure ⟨a, b, t, m⟩

/-- `/repo/dash7/src/network/network.rs:7-18` (derived writer). -/
def Control.write (cfg : Cfg) (c : Control) : W :=
  W.seq [W.flag c.hasNoOriginAccessId, W.flag c.hasHopping, c.originAddressType.write, W.pad 1,
    c.nlsMethod.write cfg]

/-- `/repo/dash7/src/network/network.rs:20-28` (`HoppingControl`). -/
structure HoppingControl where
  hopCounter : Bool
  destinationAddressType : AddressType
  deriving DecidableEq, Repr

/-- `/repo/dash7/src/network/network.rs:20-28` (derived reader). -/
def HoppingControl.read : P HoppingControl := do
  P.pad 1
  let h ← P.flag
  let t ← AddressType.read
  P.pad 4
  P.pure ⟨h, t⟩

/-- `/repo/dash7/src/network/network.rs:20-28` (derived writer). -/
def HoppingControl.write (h : HoppingControl) : W :=
  W.seq [W.pad 1, W.flag h.hopCounter, h.destinationAddressType.write, W.pad 4]

/-- `/repo/dash7/src/network/network.rs:32-41`: the fields of `Frame` in front of the transport
frame. -/
structure Header where
  control : Control
  hoppingControl : Option HoppingControl
  originAccessClass : AccessClass
  originAccessAddress : Address
  deriving DecidableEq, Repr

/-- `/repo/dash7/src/network/network.rs:32-41` (derived reader). -/
def Header.read (cfg : Cfg) : P Header := do
  let c ← Control.read cfg
  let h ← P.cond c.hasHopping HoppingControl.read
  let ac ← AccessClass.read
  let a ← Address.read c.originAddressType
  P.pure ⟨c, h, ac, a⟩

/-- `/repo/dash7/src/network/network.rs:32-41` (derived writer). -/
def Header.write (cfg : Cfg) (h : Header) : W :=
  W.seq [h.control.write cfg, W.opt HoppingControl.write h.hoppingControl,
    h.originAccessClass.write, h.originAccessAddress.write]

/-- `/repo/dash7/src/network/network.rs:30-45` (`Frame`). -/
structure Frame where
  header : Header
  frame : Trans.Frame
  deriving DecidableEq, Repr

/-- `/repo/dash7/src/network/network.rs:30-45` (derived reader in context `command_length`). -/
def Frame.read (cfg : Cfg) (commandLength : U32) : R Frame := do
  let h ← (Header.read cfg).run
  let f ← Trans.Frame.read cfg commandLength
  R.pure ⟨h, f⟩

/-- `/repo/dash7/src/network/network.rs:30-45` (derived writer). -/
def Frame.write (cfg : Cfg) (f : Frame) : W := W.seq [f.header.write cfg, f.frame.write cfg]

/-- `/repo/dash7/src/network/network.rs:30-31` (derived `TryFrom`, `ctx_default = "0"`). -/
def Frame.tryFrom (cfg : Cfg) (data : List U8) : Except Err Frame :=
  derivedTryFrom (Frame.read cfg 0) data

/-- `/repo/dash7/src/network/network.rs:30-31` (derived `from_bytes`, `ctx_default = "0"`). -/
def Frame.fromBytes (cfg : Cfg) (input : Rest) : Except Err (Rest × Frame) :=
  derivedFromBytes (Frame.read cfg 0) input

/-- `/repo/dash7/src/network/network.rs:30-31` (derived `to_bytes`). -/
def Frame.toBytes (cfg : Cfg) (f : Frame) : Except Err (List U8) := (f.write cfg).toBytes

end Net

/-! ## Link layer -/

/-- `/repo/dash7/src/link/frame.rs:8-14` (`BackgroundFrameControl`). -/
structure BackgroundFrameControl where
  addressType : AddressType
  tagId : U8
  deriving DecidableEq, Repr

/-- `/repo/dash7/src/link/frame.rs:8-14` (derived reader). -/
def BackgroundFrameControl.read : P BackgroundFrameControl := do
  let a ← AddressType.read
  let t ← P.uint 8 6
  P.pure ⟨a, t⟩

/-- `/repo/dash7/src/link/frame.rs:8-14` (derived writer). -/
def BackgroundFrameControl.write (c : BackgroundFrameControl) : W :=
  W.seq [c.addressType.write, W.uint 6 c.tagId]

/-- `/repo/dash7/src/link/frame.rs:16-22` (`BackgroundFrame`). -/
structure BackgroundFrame where
  subnet : U8
  control : BackgroundFrameControl
  payload : U16
  crc16 : U16
  deriving DecidableEq, Repr

/-- `/repo/dash7/src/link/frame.rs:16-22` (derived reader; host byte order). -/
def BackgroundFrame.read (cfg : Cfg) : P BackgroundFrame := do
  let s ← P.u8
  let c ← BackgroundFrameControl.read
  let p ← P.uintHost cfg 2
  let r ← P.uintHost cfg 2
  P.pure ⟨s, c, p, r⟩

/-- `/repo/dash7/src/link/frame.rs:16-22` (derived writer). -/
def BackgroundFrame.write (cfg : Cfg) (f : BackgroundFrame) : W :=
  W.seq [W.u8 f.subnet, f.control.write, W.uintHost cfg 2 f.payload, W.uintHost cfg 2 f.crc16]

/-- `/repo/dash7/src/link/frame.rs:16` (derived `TryFrom`). -/
def BackgroundFrame.tryFrom (cfg : Cfg) (data : List U8) : Except Err BackgroundFrame :=
  derivedTryFrom (BackgroundFrame.read cfg).run data

/-- `/repo/dash7/src/link/frame.rs:16` (derived `from_bytes`). -/
def BackgroundFrame.fromBytes (cfg : Cfg) (input : Rest) : Except Err (Rest × BackgroundFrame) :=
  derivedFromBytes (BackgroundFrame.read cfg).run input

/-- `/repo/dash7/src/link/frame.rs:16` (derived `to_bytes`). -/
def BackgroundFrame.toBytes (cfg : Cfg) (f : BackgroundFrame) : Except Err (List U8) :=
  (f.write cfg).toBytes

/-- `/repo/dash7/src/link/frame.rs:24-30` (`ForegroundFrameControl`). -/
structure ForegroundFrameControl where
  addressType : AddressType
  eirpIndex : U8
  deriving DecidableEq, Repr

/-- `/repo/dash7/src/link/frame.rs:24-30` (derived reader). -/
def ForegroundFrameControl.read : P ForegroundFrameControl := do
  let a ← AddressType.read
  let t ← P.uint 8 6
  P.pure ⟨a, t⟩

/-- `/repo/dash7/src/link/frame.rs:24-30` (derived writer). -/
def ForegroundFrameControl.write (c : ForegroundFrameControl) : W :=
  W.seq [c.addressType.write, W.uint 6 c.eirpIndex]

/-- `/repo/dash7/src/link/frame.rs:33-39`: the fields of `ForegroundFrame` in front of the network
frame. -/
structure ForegroundHeader where
  length : Length
  subnet : U8
  control : ForegroundFrameControl
  targetAddress : Address
  deriving DecidableEq, Repr

/-- `/repo/dash7/src/link/frame.rs:33-39` (derived reader). -/
def ForegroundHeader.read : P ForegroundHeader := do
  let l ← Length.read
  let s ← P.u8
  let c ← ForegroundFrameControl.read
  let a ← Address.read c.addressType
  P.pure ⟨l, s, c, a⟩

/-- `/repo/dash7/src/link/frame.rs:33-39` (derived writer). -/
def ForegroundHeader.write (h : ForegroundHeader) : W :=
  W.seq [h.length.write, W.u8 h.subnet, h.control.write, h.targetAddress.write]

/-- `/repo/dash7/src/link/frame.rs:32-44` (`ForegroundFrame`). -/
structure ForegroundFrame where
  header : ForegroundHeader
  frame : Net.Frame
  crc16 : U16
  deriving DecidableEq, Repr

/-- `/repo/dash7/src/link/frame.rs:32-44` (derived reader; the CRC in host byte order). -/
def ForegroundFrame.read (cfg : Cfg) : R ForegroundFrame := do
  let h ← ForegroundHeader.read.run
  let f ← Net.Frame.read cfg h.length.val
  let c ← (P.uintHost cfg 2).run
  R.pure ⟨h, f, c⟩

/-- `/repo/dash7/src/link/frame.rs:32-44` (derived writer). -/
def ForegroundFrame.write (cfg : Cfg) (f : ForegroundFrame) : W :=
  W.seq [f.header.write, f.frame.write cfg, W.uintHost cfg 2 f.crc16]

/-- `/repo/dash7/src/link/frame.rs:32` (derived `TryFrom`). -/
def ForegroundFrame.tryFrom (cfg : Cfg) (data : List U8) : Except Err ForegroundFrame :=
  derivedTryFrom (ForegroundFrame.read cfg) data

/-- `/repo/dash7/src/link/frame.rs:32` (derived `from_bytes`). -/
def ForegroundFrame.fromBytes (cfg : Cfg) (input : Rest) : Except Err (Rest × ForegroundFrame) :=
  derivedFromBytes (ForegroundFrame.read cfg) input

/-- `/repo/dash7/src/link/frame.rs:32` (derived `to_bytes`). -/
def ForegroundFrame.toBytes (cfg : Cfg) (f : ForegroundFrame) : Except Err (List U8) :=
  (f.write cfg).toBytes

end Dash7
