import Verif.Spec.Spoil
import Verif.Spec.Hopeless

/-!
# Beginnings of commands that are asked to be continued although nothing helps any more
-/

namespace Dash7.Spec

/-- An action of this code of which no more bits than these are there, from the byte boundary on, and which no more
input completes: as in `Hopeless`, but the code need not be that in the first byte (behind a TX state it is looked for
elsewhere). -/
def HopelessOperand (cfg : Cfg) (code : Nat) (s : List Bool) : Prop :=
  (code = 4 ∨ code = 5 ∨ code = 32) ∧ LostFileData s ∨
    code = 34 ∧ Form.value (s.take 2) = 1 ∧ (Form.value ((s.drop 8).take 8) = 2 ∨ Form.value ((s.drop 8).take 8) = 3) ∨
    code = 38 ∧ cfg.variant = .wizzilab ∧ LostTxStatus s

/-- Actions, and then the beginning of one that no more input completes. -/
def LostCommand (cfg : Cfg) (data : List U8) : Prop :=
  ∃ as left, continuing cfg 0 data.length as (Form.ofBytes data) left ∧ 8 ≤ left.length ∧
    HopelessOperand cfg (Form.value ((left.drop 2).take 6)) (wholeBytes left)

end Dash7.Spec
