import Verif.Spec.Layout
import Verif.Spec.WF

/-!
# Which bits of an encoding the decoder does not look at

For every action one mark for each bit of its encoding: `true` for a bit whose value plays no role.
-/

namespace Dash7.Ignored

/-- `n` bits that matter. -/
def heed (n : Nat) : List Bool := List.replicate n false

/-- `n` bits that do not. -/
def skip (n : Nat) : List Bool := List.replicate n true

/-- A compressed number: the exponent of zero plays no role. -/
def varInt (v : VarInt) : List Bool := (if v.value = 0 then skip 3 else heed 3) ++ heed 5

/-- A length operand. -/
def length (n : Nat) : List Bool := heed (8 * (1 + Spec.lengthExtra n))

/-- A length operand nobody looks at, but for the two bits telling how long it is. -/
def size (n : Nat) : List Bool := heed 2 ++ skip (6 + 8 * Spec.lengthExtra n)

/-- Such a length and what it tells the length of. -/
def sized (m : List Bool) : List Bool := size (m.length / 8) ++ m

/-- The first bit is reserved. -/
def channelHeader : List Bool := skip 1 ++ heed 7

/-- Channel header, index. -/
def channel : List Bool := channelHeader ++ heed 16

/-- Bitmap and scan period. -/
def subProfile (s : SubProfile) : List Bool := heed 8 ++ varInt s.scanAutomationPeriod

/-- Channel header, sub-profiles, eight sub-bands of seven bytes. -/
def accessProfile (a : AccessProfile) : List Bool :=
  channelHeader ++ a.subProfiles.toList.flatMap subProfile ++ heed (8 * 56)

/-- An address. -/
def address : Address → List Bool
  | .nbId n => varInt n
  | .noId => []
  | .uId _ => heed 64
  | .vId _ => heed 16

/-- A security header. -/
def nlsState : NlsState → List Bool
  | .none => []
  | _ => heed 40

/-- Two bits are reserved, but in the wizzilab build. -/
def addressee (v : Variant) (a : Addressee) : List Bool :=
  (if v = .wizzilab then heed 8 else skip 2 ++ heed 6) ++ heed 8 ++ address a.address ++ nlsState a.nlsState

/-- File id and offset. -/
def fileOffset (f : FileOffset) : List Bool := heed 8 ++ length f.offset.val.toNat

/-- Permissions, properties with two reserved bits, ten bytes. -/
def fileHeader : List Bool := heed 8 ++ (heed 4 ++ skip 2 ++ heed 2) ++ heed 80

/-- The content of a file. -/
def content : File → List Bool
  | .accessProfile _ p => accessProfile p
  | .uId a => address a
  | .factorySettings _ => heed (8 * 56)
  | .firmwareVersion _ => heed (8 * 15)
  | .engineeringMode _ => heed 24 ++ channel ++ heed 8
  | .vId a => address a
  | .phyStatus p => heed (8 * 15 + 24 * p.channelStatus.length)
  | .dllConfig _ => heed 8 ++ skip 16 ++ heed 32
  | .dllStatus _ => heed 24 ++ channelHeader ++ heed 96
  | .nwlSecurityKey _ => heed 128
  | .other d => heed (8 * d.length)

/-- The content of a file behind its length, which matters if there is no structure. -/
def file : File → List Bool
  | .other d => length d.length ++ heed (8 * d.length)
  | f => sized (content f)

/-- Four bits behind the flags are reserved. -/
def dash7InterfaceStatus (v : Variant) (s : Dash7InterfaceStatus) : List Bool :=
  channel ++ heed 24 ++ (heed 4 ++ skip 4) ++ heed 16 ++ varInt s.responseTimeout ++ addressee v s.addressee

/-- Interface id, length, status; an unknown interface has no id on the wire. -/
def interfaceStatus (v : Variant) : InterfaceStatus → List Bool
  | .host => heed 8 ++ sized []
  | .serial => heed 8 ++ sized []
  | .dash7 s => heed 8 ++ sized (dash7InterfaceStatus v s)
  | .other b => length b.length ++ heed (8 * b.length)

/-- A status behind its length. -/
def interfaceFinalStatus : InterfaceFinalStatus → List Bool
  | .dash7 _ => sized (heed 8)
  | .other b => length b.length ++ heed (8 * b.length)

/-- Behind the first byte of a status. -/
def status (v : Variant) : Op.Status → List Bool
  | .action _ => heed 16
  | .interface o => interfaceStatus v o.status
  | .interfaceFinal o => heed 8 ++ interfaceFinalStatus o.status

/-- Six bits of the first byte are reserved. -/
def loRaWAN : List Bool := (skip 5 ++ heed 2 ++ skip 1) ++ heed 16

/-- The configuration of an interface, with its id. -/
def interfaceConfiguration (v : Variant) : InterfaceConfiguration → List Bool
  | .host => heed 8
  | .serial => heed 8
  | .loRaWanABP _ => heed 8 ++ loRaWAN ++ heed (8 * 40)
  | .loRaWanOTAA _ => heed 8 ++ loRaWAN ++ heed (8 * 32)
  | .dash7 c => heed 16 ++ varInt c.dormantSessionTimeout ++
      (if v = .subiot then [] else varInt c.executionDelayTimeout) ++ addressee v c.addressee
  | .unknown _ => heed 8

/-- An interface with its id. -/
def indirectInterface (v : Variant) : IndirectInterface → List Bool
  | .dash7 a => heed 8 ++ addressee v a
  | _ => heed 8

/-- A query: five bits of the first byte are reserved, or one, or none. -/
def query : Query → List Bool
  | .nonVoid q => (heed 3 ++ skip 5) ++ length q.length.val.toNat ++ fileOffset q.file
  | .comparisonWithZero q =>
    heed 8 ++ length q.length.val.toNat ++ heed (8 * q.mask.length) ++ fileOffset q.file
  | .comparisonWithValue q =>
    heed 8 ++ length q.length.val.toNat ++ heed (8 * q.mask.length) ++ heed (8 * q.value.length) ++
      fileOffset q.file
  | .comparisonWithOtherFile q =>
    heed 8 ++ length q.length.val.toNat ++ heed (8 * q.mask.length) ++ fileOffset q.file1 ++ fileOffset q.file2
  | .bitmapRangeComparison q =>
    heed 8 ++ length q.length.val.toNat ++ length q.start.val.toNat ++ length q.stop.val.toNat ++
      heed (8 * q.mask.length) ++ fileOffset q.file
  | .stringTokenSearch q =>
    (heed 4 ++ skip 1 ++ heed 3) ++ length q.length.val.toNat ++ heed (8 * q.mask.length) ++
      heed (8 * q.value.length) ++ fileOffset q.file

/-- An action (a TX status is not read back and not described). -/
def action (v : Variant) : Action → List Bool
  | .nop _ | .chunk _ | .logic _ | .extension _ => heed 8
  | .readFileData o => heed 8 ++ fileOffset o.offset ++ length o.length.val.toNat
  | .readFileProperties _ | .existFile _ | .deleteFile _ | .restoreFile _ | .flushFile _ | .executeFile _
  | .responseTag _ => heed 16
  | .requestTag _ => heed 1 ++ skip 1 ++ heed 14
  | .writeFileData o | .writeFileDataFlush o | .returnFileData o => heed 8 ++ fileOffset o.offset ++ file o.data
  | .writeFileProperties _ | .createNewFile _ | .returnFileProperties _ => heed 16 ++ fileHeader
  | .actionQuery o | .breakQuery o | .verifyChecksum o => heed 8 ++ query o.query
  | .permissionRequest _ => heed 88
  | .copyFile _ => heed 24
  | .status o => heed 8 ++ status v o.status
  | .txStatus _ => []
  | .forward o => skip 1 ++ heed 7 ++ interfaceConfiguration v o.configuration
  | .indirectForward o =>
    match o.configuration with
    | some i => heed 8 ++ indirectInterface v i
    | none => heed 8

/-- The actions one after the other. -/
def command (v : Variant) (c : Command) : List Bool := c.actions.flatMap (action v)

/-- The bytes with bit `i` the other way round, counted from the most significant bit of the first. -/
def flip (bytes : List U8) (i : Nat) : List U8 := bytes.modify (i / 8) fun b => b ^^^ (0x80 >>> (i % 8))

/-- The action carries an access profile or a PHY status of 64 bytes or more. -/
def large : Action → Bool
  | .writeFileData o | .writeFileDataFlush o | .returnFileData o =>
    match o.data with
    | .accessProfile _ _ => true
    | .phyStatus p => decide (17 ≤ p.channelStatus.length)
    | _ => false
  | _ => false

end Dash7.Ignored
