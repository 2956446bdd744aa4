import Verif.Spec.FrameAccept
import Verif.Spec.Hopeless

/-!
# Frames that are asked to be continued although nothing helps any more
-/

namespace Dash7.Spec

/-- A network frame of a build other than wizzilab, from byte `pos` of the input on, cut where nothing helps: a
single byte, the last three bits of which begin no security method; or the headers, actions below the limit none of
which is an indirect forward, and the beginning of an action which is `Hopeless`. -/
def LostNetwork (cfg : Cfg) (limit pos : Nat) (data : List U8) : Prop :=
  (∃ b : U8, data = [b] ∧ b.toNat % 8 ≥ 4) ∨
    ∃ n t as head wire cut, data = head ++ (wire ++ cut) ∧
      Form.all [Form.netHeader cfg.variant n, Form.transHeader t] (Form.ofBytes head) ∧
      actionsBelow cfg limit (pos + head.length) as wire ∧ (∀ a ∈ as, a.isIndirectForward = false) ∧
      ¬ limitReached limit (pos + (head ++ wire).length) ∧ Hopeless cfg cut

/-- The same behind the header of a foreground frame. -/
def LostForeground (cfg : Cfg) (data : List U8) : Prop :=
  ∃ h link rest, data = link ++ rest ∧ Form.foregroundHeader h (Form.ofBytes link) ∧
    LostNetwork cfg h.length.val.toNat link.length rest

end Dash7.Spec
