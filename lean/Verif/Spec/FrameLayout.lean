import Verif.Spec.Layout
import Verif.Model.Frame

/-!
# The wire format of frames, and of commands with TX statuses

The transport header is 31 or more bits long and never a whole number of bytes, so a frame is described as
one row of bit fields `(width, value)`, most significant first, a byte being a field of width 8; zero bits
are added at the very end to reach a whole number of bytes.  As in `Verif/Spec/Layout.lean`, no reader
and no writer of the model occurs here, and `none` stands for a value the encoder refuses.
-/

namespace Dash7.Wire

/-- Bytes as fields of width 8. -/
def octets : Option (List U8) → Option (List (Nat × Nat))
  | some bs => some (bs.map fun b => (8, b.toNat))
  | none => none

/-- One row after the other; refused if any is. -/
def rows : List (Option (List (Nat × Nat))) → Option (List (Nat × Nat))
  | [] => some []
  | none :: _ => none
  | some r :: rs =>
    match rows rs with
    | some fs => some (r ++ fs)
    | none => none

/-- A row filled up with zero bits to whole bytes. -/
def filled : Option (List (Nat × Nat)) → Option (List U8)
  | some fs => packed ((width fs + 7) / 8) (fs ++ [((8 - width fs % 8) % 8, 0)])
  | none => none

/-- A part that may be missing. -/
def optionalRow {α : Type} (f : α → Option (List (Nat × Nat))) : Option α → Option (List (Nat × Nat))
  | some a => f a
  | none => some []

/-- An action; a TX status is the only one not made of whole bytes. -/
def actionRow (v : Variant) (big : Bool) : Action → Option (List (Nat × Nat))
  | .txStatus o => rows [some [(2, 1), (6, 0), (6, 38)], octets (raw [o.status.interfaceId]),
      octets (prefixed (interfaceTxStatus v big o.status.status))]
  | a => octets (action v big a)

/-- The actions one after the other. -/
def commandRow (v : Variant) (big : Bool) (c : Command) : Option (List (Nat × Nat)) :=
  rows (c.actions.map (actionRow v big))

/-- Seven flags: start of dialog, listen time-out, execution delay time-out, acknowledgement requested,
acknowledgement not void, acknowledgement record requested, AGC. -/
def transControl (c : Trans.Control) : List (Nat × Nat) :=
  [(1, c.isDialogStart.toNat), (1, c.hasListenTimeout.toNat), (1, c.hasExecutionDelayTimeout.toNat),
    (1, c.isAckRequested.toNat), (1, c.isAckNotVoid.toNat), (1, c.isAckRecordRequested.toNat),
    (1, c.hasAgc.toNat)]

/-- Control, dialog and transaction id, then whatever is there of: target level, listen time-out,
execution delay, congestion time-out, acknowledgement template. -/
def transHeader (h : Trans.Header) : Option (List (Nat × Nat)) :=
  rows [some (transControl h.control), octets (raw [h.dialogId, h.transactionId]),
    optionalRow (fun l => octets (raw [l])) h.targetRxLevelI,
    optionalRow (fun t => octets (varInt t)) h.listenTimeout,
    optionalRow (fun t => octets (varInt t)) h.executionDelayTimeout,
    optionalRow (fun t => octets (varInt t)) h.congestionTimeout,
    optionalRow (fun t => octets (raw [t.transactionIdStart, t.transactionIdStop])) h.ackTemplate]

/-- Transport header and command. -/
def transFrame (v : Variant) (big : Bool) (f : Trans.Frame) : Option (List (Nat × Nat)) :=
  rows [transHeader f.header, commandRow v big f.command]

/-- Bits of a security method. -/
def nlsWidth : Variant → Nat
  | .wizzilab => 3
  | _ => 4

/-- No origin access id, hopping, origin address type, a zero bit, security method. -/
def netControl (v : Variant) (c : Net.Control) : List (Nat × Nat) :=
  [(1, c.hasNoOriginAccessId.toNat), (1, c.hasHopping.toNat), (2, addressType c.originAddressType), (1, 0),
    (nlsWidth v, nlsMethod c.nlsMethod)]

/-- `0haa0000`: hop counter, destination address type. -/
def hopping (h : Net.HoppingControl) : List (Nat × Nat) :=
  [(1, 0), (1, h.hopCounter.toNat), (2, addressType h.destinationAddressType), (4, 0)]

/-- Control, hopping control if there, access class and address of the origin. -/
def netHeader (v : Variant) (h : Net.Header) : Option (List (Nat × Nat)) :=
  rows [some (netControl v h.control), optionalRow (fun h => some (hopping h)) h.hoppingControl,
    octets (accessClass h.originAccessClass), octets (address h.originAccessAddress)]

/-- Network header and transport frame. -/
def netFrame (v : Variant) (big : Bool) (f : Net.Frame) : Option (List (Nat × Nat)) :=
  rows [netHeader v f.header, transFrame v big f.frame]

/-- Length, subnet, address type and EIRP index, target address. -/
def foregroundHeader (h : ForegroundHeader) : Option (List (Nat × Nat)) :=
  rows [octets (length h.length.val.toNat), octets (raw [h.subnet]),
    some [(2, addressType h.control.addressType), (6, h.control.eirpIndex.toNat)],
    octets (address h.targetAddress)]

/-- Link header, network frame, CRC in host byte order. -/
def foregroundFrame (v : Variant) (big : Bool) (f : ForegroundFrame) : Option (List (Nat × Nat)) :=
  rows [foregroundHeader f.header, netFrame v big f.frame, octets (hostNumber big 2 f.crc16.toNat)]

end Dash7.Wire
