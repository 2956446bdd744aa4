import Verif.Spec.FrameLayout
import Verif.Spec.WF

/-!
# How many bytes an encoding takes

Numbers only: sizes in bytes, from the values of the fields; `none` stands for a value the encoder refuses.
-/

namespace Dash7.Size

/-- The sum of the sizes; refused if any part is. -/
def sum : List (Option Nat) → Option Nat
  | [] => some 0
  | none :: _ => none
  | some n :: ps =>
    match sum ps with
    | some m => some (n + m)
    | none => none

/-- A length operand. -/
def length (n : Nat) : Option Nat :=
  if n < 64 then some 1 else if n < 16384 then some 2 else if n < 4194304 then some 3
  else if n < 1073741824 then some 4 else none

/-- A compressed number. -/
def compressed (v : VarInt) : Option Nat := if v.value.toNat ≤ 507904 then some 1 else none

/-- So many bytes behind their number, which is taken in 32 bits. -/
def prefixed : Option Nat → Option Nat
  | some n => sum [length (n % 4294967296), some n]
  | none => none

/-- An address. -/
def address : Address → Option Nat
  | .nbId n => compressed n
  | .noId => some 0
  | .uId _ => some 8
  | .vId _ => some 2

/-- The security header. -/
def secured : NlsState → Nat
  | .none => 0
  | _ => 5

/-- Two bytes, the address, the security header. -/
def addressee (a : Addressee) : Option Nat := sum [some 2, address a.address, some (secured a.nlsState)]

/-- File id and offset. -/
def fileOffset (f : FileOffset) : Option Nat := sum [some 1, length f.offset.val.toNat]

/-- The contents of a file. -/
def file : File → Option Nat
  | .accessProfile _ p =>
    if ∀ s ∈ p.subProfiles.toList, s.scanAutomationPeriod.value.toNat ≤ 507904 then some 65 else none
  | .uId a => address a
  | .factorySettings _ => some 56
  | .firmwareVersion _ => some 15
  | .engineeringMode _ => some 7
  | .vId a => address a
  | .phyStatus p => some (15 + 3 * p.channelStatus.length)
  | .dllConfig _ => some 7
  | .dllStatus _ => some 16
  | .nwlSecurityKey _ => some 16
  | .other b => some b.length

/-- The status of an interface. -/
def interfaceStatus : InterfaceStatus → Option Nat
  | .host => some 0
  | .serial => some 0
  | .dash7 s => sum [some 9, compressed s.responseTimeout, addressee s.addressee]
  | .other b => some b.length

/-- The final status of an interface. -/
def interfaceFinalStatus : InterfaceFinalStatus → Nat
  | .dash7 _ => 1
  | .other b => b.length

/-- The TX status of an interface. -/
def interfaceTxStatus : InterfaceTxStatus → Option Nat
  | .dash7 s => sum [some 12, addressee s.addressee]
  | .other b => some b.length

/-- The configuration of an interface, with its id. -/
def interfaceConfiguration (v : Variant) : InterfaceConfiguration → Option Nat
  | .host => some 1
  | .serial => some 1
  | .loRaWanABP c => some (12 + c.networkSessionKey.length + c.appSessionKey.length)
  | .loRaWanOTAA c => some (4 + c.deviceEui.length + c.appEui.length + c.appKey.length)
  | .dash7 c => sum [some 2, compressed c.dormantSessionTimeout,
      if v = .subiot then some 0 else compressed c.executionDelayTimeout, addressee c.addressee]
  | .unknown _ => some 1

/-- An interface to overload a file with, with its id. -/
def indirectInterface : IndirectInterface → Option Nat
  | .host => some 1
  | .serial => some 1
  | .dash7 a => sum [some 1, addressee a]
  | .unknown _ => some 1

/-- A query. -/
def query : Query → Option Nat
  | .nonVoid q => sum [some 1, length q.length.val.toNat, fileOffset q.file]
  | .comparisonWithZero q => sum [some (1 + q.mask.length), length q.length.val.toNat, fileOffset q.file]
  | .comparisonWithValue q =>
    sum [some (1 + q.mask.length + q.value.length), length q.length.val.toNat, fileOffset q.file]
  | .comparisonWithOtherFile q =>
    sum [some (1 + q.mask.length), length q.length.val.toNat, fileOffset q.file1, fileOffset q.file2]
  | .bitmapRangeComparison q =>
    sum [some (1 + q.mask.length), length q.length.val.toNat, length q.start.val.toNat, length q.stop.val.toNat,
      fileOffset q.file]
  | .stringTokenSearch q =>
    sum [some (1 + q.mask.length + q.value.length), length q.length.val.toNat, fileOffset q.file]

/-- A status behind the first byte. -/
def status : Op.Status → Option Nat
  | .action _ => some 2
  | .interface o => sum [some (if o.interfaceType = .unknown then 0 else 1), prefixed (interfaceStatus o.status)]
  | .interfaceFinal o => sum [some 1, prefixed (some (interfaceFinalStatus o.status))]

/-- An action. A TX status ends two bits short of a whole byte. -/
def action (v : Variant) : Action → Option Nat
  | .nop _ | .chunk _ | .logic _ | .extension _ => some 1
  | .readFileData o => sum [some 1, fileOffset o.offset, length o.length.val.toNat]
  | .readFileProperties _ | .existFile _ | .deleteFile _ | .restoreFile _ | .flushFile _ | .executeFile _
  | .responseTag _ | .requestTag _ => some 2
  | .writeFileData o | .writeFileDataFlush o | .returnFileData o =>
    sum [some 1, fileOffset o.offset, prefixed (file o.data)]
  | .writeFileProperties _ | .createNewFile _ | .returnFileProperties _ => some 14
  | .actionQuery o | .breakQuery o | .verifyChecksum o => sum [some 1, query o.query]
  | .permissionRequest _ => some 11
  | .copyFile _ => some 3
  | .status o => sum [some 1, status o.status]
  | .txStatus o => sum [some 3, prefixed (interfaceTxStatus o.status.status)]
  | .forward o => sum [some 1, interfaceConfiguration v o.configuration]
  | .indirectForward o =>
    match o.configuration with
    | some i => sum [some 1, indirectInterface i]
    | none => some 1

/-- Bits of an action, the two missing from a TX status not counted. -/
def actionBits (v : Variant) (a : Action) : Option Nat :=
  (action v a).map fun n => if a.isTx then 8 * n - 2 else 8 * n

/-- Bits of a command: its actions stand next to each other, without gaps. -/
def commandBits (v : Variant) (c : Command) : Option Nat := sum (c.actions.map (actionBits v))

/-- A compressed number that may be missing. -/
def optional : Option VarInt → Option Nat
  | some t => compressed t
  | none => some 0

/-- Bits from bytes. -/
def eight (n : Option Nat) : Option Nat := n.map (8 * ·)

/-- Whole bytes for so many bits. -/
def bytes (n : Option Nat) : Option Nat := n.map fun n => (n + 7) / 8

/-- Bits of a transport frame. -/
def transport (v : Variant) (f : Trans.Frame) : Option Nat :=
  sum [some 23, some (if f.header.targetRxLevelI.isSome then 8 else 0), eight (optional f.header.listenTimeout),
    eight (optional f.header.executionDelayTimeout), eight (optional f.header.congestionTimeout),
    some (if f.header.ackTemplate.isSome then 16 else 0), commandBits v f.command]

/-- Bits of a network frame: the control is a whole byte in wizzilab builds and a bit more elsewhere. -/
def network (v : Variant) (f : Net.Frame) : Option Nat :=
  sum [some (if v = .wizzilab then 16 else 17), some (if f.header.hoppingControl.isSome then 8 else 0),
    eight (address f.header.originAccessAddress), transport v f.frame]

/-- Bits of a foreground frame. -/
def foreground (v : Variant) (f : ForegroundFrame) : Option Nat :=
  sum [eight (length f.header.length.val.toNat), some 32, eight (address f.header.targetAddress), network v f.frame]

/-- What measuring the outcome of an encoder gives. -/
def result : Option Nat → Except Err Nat
  | some n => .ok n
  | none => .error (.fault .invalidParam)

end Dash7.Size
