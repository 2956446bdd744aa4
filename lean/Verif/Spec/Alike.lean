import Verif.Spec.Ignored
import Verif.Spec.Accept

/-!
# Which encodings of the same length mean the same

As `Spec/Ignored.lean`, but for any number of changed bits: compressed numbers have several forms, which differ in
more than one bit, so the bytes holding one are marked apart. A check (`Alike.action_marks` in
`Lemmas/Alike3.lean`) shows that there is one mark for each of those in `Spec/Ignored.lean`.
-/

namespace Dash7

/-- What is to be said of a bit. -/
inductive Mark
  /-- It matters. -/
  | heed
  /-- It does not. -/
  | skip
  /-- The first of eight bits holding a compressed number, of which the number matters (the other seven are
  marked `skip`). -/
  | number
  deriving DecidableEq, Repr

namespace Alike

/-- `n` bits that matter. -/
def heed (n : Nat) : List Mark := List.replicate n .heed

/-- `n` bits that do not. -/
def skip (n : Nat) : List Mark := List.replicate n .skip

/-- A compressed number. -/
def varInt (_ : VarInt) : List Mark := .number :: skip 7

/-- A length operand. -/
def length (n : Nat) : List Mark := heed (8 * (1 + Spec.lengthExtra n))

/-- A length operand nobody looks at, but for the two bits telling how long it is. -/
def size (n : Nat) : List Mark := heed 2 ++ skip (6 + 8 * Spec.lengthExtra n)

/-- Such a length and what it tells the length of. -/
def sized (m : List Mark) : List Mark := size (m.length / 8) ++ m

/-- The first bit is reserved. -/
def channelHeader : List Mark := skip 1 ++ heed 7

/-- Channel header, index. -/
def channel : List Mark := channelHeader ++ heed 16

/-- Bitmap and scan period. -/
def subProfile (s : SubProfile) : List Mark := heed 8 ++ varInt s.scanAutomationPeriod

/-- Channel header, sub-profiles, eight sub-bands of seven bytes. -/
def accessProfile (a : AccessProfile) : List Mark :=
  channelHeader ++ a.subProfiles.toList.flatMap subProfile ++ heed (8 * 56)

/-- An address. -/
def address : Address → List Mark
  | .nbId n => varInt n
  | .noId => []
  | .uId _ => heed 64
  | .vId _ => heed 16

/-- A security header. -/
def nlsState : NlsState → List Mark
  | .none => []
  | _ => heed 40

/-- Two bits are reserved, but in the wizzilab build. -/
def addressee (v : Variant) (a : Addressee) : List Mark :=
  (if v = .wizzilab then heed 8 else skip 2 ++ heed 6) ++ heed 8 ++ address a.address ++ nlsState a.nlsState

/-- File id and offset. -/
def fileOffset (f : FileOffset) : List Mark := heed 8 ++ length f.offset.val.toNat

/-- Permissions, properties with two reserved bits, ten bytes. -/
def fileHeader : List Mark := heed 8 ++ (heed 4 ++ skip 2 ++ heed 2) ++ heed 80

/-- The content of a file. -/
def content : File → List Mark
  | .accessProfile _ p => accessProfile p
  | .uId a => address a
  | .factorySettings _ => heed (8 * 56)
  | .firmwareVersion _ => heed (8 * 15)
  | .engineeringMode _ => heed 24 ++ channel ++ heed 8
  | .vId a => address a
  | .phyStatus p => heed (8 * 15 + 24 * p.channelStatus.length)
  | .dllConfig _ => heed 8 ++ skip 16 ++ heed 32
  | .dllStatus _ => heed 24 ++ channelHeader ++ heed 96
  | .nwlSecurityKey _ => heed 128
  | .other d => heed (8 * d.length)

/-- The content of a file behind its length, which matters if there is no structure. -/
def file : File → List Mark
  | .other d => length d.length ++ heed (8 * d.length)
  | f => sized (content f)

/-- Four bits behind the flags are reserved. -/
def dash7InterfaceStatus (v : Variant) (s : Dash7InterfaceStatus) : List Mark :=
  channel ++ heed 24 ++ (heed 4 ++ skip 4) ++ heed 16 ++ varInt s.responseTimeout ++ addressee v s.addressee

/-- Interface id, length, status; an unknown interface has no id on the wire. -/
def interfaceStatus (v : Variant) : InterfaceStatus → List Mark
  | .host => heed 8 ++ sized []
  | .serial => heed 8 ++ sized []
  | .dash7 s => heed 8 ++ sized (dash7InterfaceStatus v s)
  | .other b => length b.length ++ heed (8 * b.length)

/-- A status behind its length. -/
def interfaceFinalStatus : InterfaceFinalStatus → List Mark
  | .dash7 _ => sized (heed 8)
  | .other b => length b.length ++ heed (8 * b.length)

/-- Behind the first byte of a status. -/
def status (v : Variant) : Op.Status → List Mark
  | .action _ => heed 16
  | .interface o => interfaceStatus v o.status
  | .interfaceFinal o => heed 8 ++ interfaceFinalStatus o.status

/-- Six bits of the first byte are reserved. -/
def loRaWAN : List Mark := (skip 5 ++ heed 2 ++ skip 1) ++ heed 16

/-- The configuration of an interface, with its id. -/
def interfaceConfiguration (v : Variant) : InterfaceConfiguration → List Mark
  | .host => heed 8
  | .serial => heed 8
  | .loRaWanABP _ => heed 8 ++ loRaWAN ++ heed (8 * 40)
  | .loRaWanOTAA _ => heed 8 ++ loRaWAN ++ heed (8 * 32)
  | .dash7 c => heed 16 ++ varInt c.dormantSessionTimeout ++
      (if v = .subiot then [] else varInt c.executionDelayTimeout) ++ addressee v c.addressee
  | .unknown _ => heed 8

/-- An interface with its id. -/
def indirectInterface (v : Variant) : IndirectInterface → List Mark
  | .dash7 a => heed 8 ++ addressee v a
  | _ => heed 8

/-- A query: five bits of the first byte are reserved, or one, or none. -/
def query : Query → List Mark
  | .nonVoid q => (heed 3 ++ skip 5) ++ length q.length.val.toNat ++ fileOffset q.file
  | .comparisonWithZero q =>
    heed 8 ++ length q.length.val.toNat ++ heed (8 * q.mask.length) ++ fileOffset q.file
  | .comparisonWithValue q =>
    heed 8 ++ length q.length.val.toNat ++ heed (8 * q.mask.length) ++ heed (8 * q.value.length) ++
      fileOffset q.file
  | .comparisonWithOtherFile q =>
    heed 8 ++ length q.length.val.toNat ++ heed (8 * q.mask.length) ++ fileOffset q.file1 ++ fileOffset q.file2
  | .bitmapRangeComparison q =>
    heed 8 ++ length q.length.val.toNat ++ length q.start.val.toNat ++ length q.stop.val.toNat ++
      heed (8 * q.mask.length) ++ fileOffset q.file
  | .stringTokenSearch q =>
    (heed 4 ++ skip 1 ++ heed 3) ++ length q.length.val.toNat ++ heed (8 * q.mask.length) ++
      heed (8 * q.value.length) ++ fileOffset q.file

/-- An action (a TX status is not read back and not described). -/
def action (v : Variant) : Action → List Mark
  | .nop _ | .chunk _ | .logic _ | .extension _ => heed 8
  | .readFileData o => heed 8 ++ fileOffset o.offset ++ length o.length.val.toNat
  | .readFileProperties _ | .existFile _ | .deleteFile _ | .restoreFile _ | .flushFile _ | .executeFile _
  | .responseTag _ => heed 16
  | .requestTag _ => heed 1 ++ skip 1 ++ heed 14
  | .writeFileData o | .writeFileDataFlush o | .returnFileData o => heed 8 ++ fileOffset o.offset ++ file o.data
  | .writeFileProperties _ | .createNewFile _ | .returnFileProperties _ => heed 16 ++ fileHeader
  | .actionQuery o | .breakQuery o | .verifyChecksum o => heed 8 ++ query o.query
  | .permissionRequest _ => heed 88
  | .copyFile _ => heed 24
  | .status o => heed 8 ++ status v o.status
  | .txStatus _ => []
  | .forward o => skip 1 ++ heed 7 ++ interfaceConfiguration v o.configuration
  | .indirectForward o =>
    match o.configuration with
    | some i => heed 8 ++ indirectInterface v i
    | none => heed 8

/-- The actions one after the other. -/
def command (v : Variant) (c : Command) : List Mark := c.actions.flatMap (action v)

/-- The number eight bits stand for: exponent, mantissa. -/
def value (bits : List Bool) : Nat := Form.value (bits.drop 3) * 4 ^ Form.value (bits.take 3)

/-- Two bit strings agree in all that matters. -/
def Same (m : List Mark) (c d : List Bool) : Prop :=
  ∀ i, (m[i]? = some .heed → d[i]? = c[i]?) ∧
    (m[i]? = some .number → value ((d.drop i).take 8) = value ((c.drop i).take 8))

end Alike

end Dash7
