import Verif.Spec.WF
import Verif.Model.Frame

/-!
# Well-formed frames

As in `Verif/Spec/WF.lean`, these predicates mention field values only.
-/

namespace Dash7

/-- The optional fields of a transport frame are there exactly when its control flags say so, and the
time-outs are representable. -/
def Trans.Header.WF (h : Trans.Header) : Prop :=
  h.targetRxLevelI.isSome = h.control.hasAgc ∧
  h.listenTimeout.isSome = h.control.hasListenTimeout ∧
  h.executionDelayTimeout.isSome = h.control.hasExecutionDelayTimeout ∧
  h.congestionTimeout.isSome = (h.control.isAckRequested && h.control.isDialogStart) ∧
  h.ackTemplate.isSome = h.control.isAckNotVoid ∧
  (∀ v, h.listenTimeout = some v → v.WF) ∧
  (∀ v, h.executionDelayTimeout = some v → v.WF) ∧
  (∀ v, h.congestionTimeout = some v → v.WF)

/-- A transport frame with agreeing flags around a well-formed command. -/
def Trans.Frame.WF (cfg : Cfg) (f : Trans.Frame) : Prop := f.header.WF ∧ f.command.WF cfg

/-- The hopping field is there exactly when the flag says so, the origin address is of the announced
type, and the access class fits its nibbles. -/
def Net.Header.WF (h : Net.Header) : Prop :=
  h.hoppingControl.isSome = h.control.hasHopping ∧ h.originAccessClass.WF ∧
  h.originAccessAddress.type = h.control.originAddressType ∧ h.originAccessAddress.WF

/-- A well-formed network frame. -/
def Net.Frame.WF (cfg : Cfg) (f : Net.Frame) : Prop := f.header.WF ∧ f.frame.WF cfg

/-- The target address is of the announced type, the EIRP index has six bits. -/
def ForegroundHeader.WF (h : ForegroundHeader) : Prop :=
  h.length.WF ∧ h.control.eirpIndex.toNat < 64 ∧
  h.targetAddress.type = h.control.addressType ∧ h.targetAddress.WF

/-- A well-formed foreground frame, whatever its length field says. -/
def ForegroundFrame.WF (cfg : Cfg) (f : ForegroundFrame) : Prop := f.header.WF ∧ f.frame.WF cfg

/-- The tag id has six bits. -/
def BackgroundFrame.WF (f : BackgroundFrame) : Prop := f.control.tagId.toNat < 64

/-- The one-action commands that survive being read with a bit missing. If seeking drops the bit kept
back, only the plain no-operation; otherwise only an indirect forward whose `overloaded` flag equals the
bit after its first byte. -/
def Spec.survivesShift (seekClears : Bool) (c : Command) : Prop :=
  if seekClears then ∃ op, c.actions = [.nop ⟨⟨false, false⟩, op⟩]
  else ∃ o, c.actions = [.indirectForward o] ∧
    match o.configuration with
    | none => True
    | some .host => False
    | some .serial => False
    | some (.dash7 _) => True
    | some (.unknown i) => 128 ≤ i.toNat

end Dash7
