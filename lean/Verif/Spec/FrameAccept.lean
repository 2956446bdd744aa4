import Verif.Spec.Accept
import Verif.Model.Frame

/-!
# What the decoders of frames take in front of the command, as a grammar on bits
-/

namespace Dash7.Form

/-- A field that is there exactly if a flag says so. -/
def flagged {α : Type} (there : Bool) (F : α → Form) (o : Option α) : Form :=
  match there, o with
  | true, some a => F a
  | false, none => all []
  | _, _ => given False

/-- Seven flags: start of dialog, listen time-out, execution delay time-out, acknowledgement requested,
acknowledgement not void, acknowledgement record requested, AGC. -/
def transControl (c : Trans.Control) : Form :=
  all [flag c.isDialogStart, flag c.hasListenTimeout, flag c.hasExecutionDelayTimeout,
    flag c.isAckRequested, flag c.isAckNotVoid, flag c.isAckRecordRequested, flag c.hasAgc]

/-- Two bytes. -/
def ackTemplate (t : Trans.AckTemplate) : Form :=
  all [field 8 t.transactionIdStart.toNat, field 8 t.transactionIdStop.toNat]

/-- Control, dialog and transaction id, then the fields announced by the flags: target level, listen
time-out, execution delay, congestion time-out (if the start of a dialog asks for an acknowledgement),
acknowledgement template. -/
def transHeader (h : Trans.Header) : Form :=
  all [transControl h.control, field 8 h.dialogId.toNat, field 8 h.transactionId.toNat,
    flagged h.control.hasAgc (fun l => field 8 l.toNat) h.targetRxLevelI,
    flagged h.control.hasListenTimeout varInt h.listenTimeout,
    flagged h.control.hasExecutionDelayTimeout varInt h.executionDelayTimeout,
    flagged (h.control.isAckRequested && h.control.isDialogStart) varInt h.congestionTimeout,
    flagged h.control.isAckNotVoid ackTemplate h.ackTemplate]

/-- No origin access id, hopping, origin address type, a bit of any value, security method in three bits
(wizzilab) or four. -/
def netControl (v : Variant) (c : Net.Control) : Form :=
  all [flag c.hasNoOriginAccessId, flag c.hasHopping, field 2 (Wire.addressType c.originAddressType),
    reserved 1, field (if v = .wizzilab then 3 else 4) (Wire.nlsMethod c.nlsMethod)]

/-- A bit of any value, hop counter, destination address type, four bits of any value. -/
def hopping (h : Net.HoppingControl) : Form :=
  all [reserved 1, flag h.hopCounter, field 2 (Wire.addressType h.destinationAddressType), reserved 4]

/-- Control, hopping control if announced, access class, address of the announced type. -/
def netHeader (v : Variant) (h : Net.Header) : Form :=
  all [netControl v h.control, flagged h.control.hasHopping hopping h.hoppingControl,
    accessClass h.originAccessClass, address h.control.originAddressType h.originAccessAddress]

/-- Length, subnet, address type and EIRP index, address of that type. -/
def foregroundHeader (h : ForegroundHeader) : Form :=
  all [length h.length.val.toNat, field 8 h.subnet.toNat,
    all [field 2 (Wire.addressType h.control.addressType), field 6 h.control.eirpIndex.toNat],
    address h.control.addressType h.targetAddress]

/-- Subnet, address type and tag id, payload and CRC in host byte order. -/
def backgroundFrame (big : Bool) (f : BackgroundFrame) : Form :=
  all [field 8 f.subnet.toNat, all [field 2 (Wire.addressType f.control.addressType), field 6 f.control.tagId.toNat],
    hostNumber big 2 f.payload.toNat, hostNumber big 2 f.crc16.toNat]

end Dash7.Form

namespace Dash7

/-- The bytes of these actions, from position `pos` of the input on, each action beginning below the
limit. A limit of 0 is none. -/
def Spec.actionsBelow (cfg : Cfg) (limit : Nat) : Nat → List Action → List U8 → Prop
  | _, [], bytes => bytes = []
  | pos, a :: as, bytes =>
    (limit = 0 ∨ pos < limit) ∧
      ∃ wire more, bytes = wire ++ more ∧ Form.action cfg a (Form.ofBytes wire) ∧
        Spec.actionsBelow cfg limit (pos + wire.length) as more

/-- A length field that ends the command at byte `pos`. -/
def Spec.limitReached (limit pos : Nat) : Prop := limit ≠ 0 ∧ limit ≤ pos

instance (limit pos : Nat) : Decidable (Spec.limitReached limit pos) :=
  inferInstanceAs (Decidable (_ ∧ _))

/-- How many bytes behind a foreground frame are believed to be part of it. -/
def Spec.frameLost (cfg : Cfg) (limit pos actions : Nat) : Nat :=
  if Spec.limitReached limit pos then actions * (if cfg.endCounts then 2 else 1)
  else Spec.dropped cfg actions

/-- The input is made of `head`, `wire` and `crc`, and these are forms of the headers, of the actions
and of the CRC of the foreground frame `f`. The command goes on to the length field, or to an indirect
forward. -/
def Spec.foregroundForm (cfg : Cfg) (f : ForegroundFrame) (head wire crc : List U8) : Prop :=
  Form.all [Form.foregroundHeader f.header, Form.netHeader cfg.variant f.frame.header,
    Form.transHeader f.frame.frame.header] (Form.ofBytes head) ∧
  Spec.actionsBelow cfg f.header.length.val.toNat head.length f.frame.frame.command.actions wire ∧
  Spec.forwardLast f.frame.frame.command.actions ∧
  (Spec.limitReached f.header.length.val.toNat (head ++ wire).length ∨
    Spec.endsWithForward f.frame.frame.command.actions) ∧
  Form.hostNumber cfg.bigEndianHost 2 f.crc16.toNat (Form.ofBytes crc)

end Dash7
