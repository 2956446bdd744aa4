import Verif.Spec.Offset
import Verif.Model.Command

/-!
# Where the reading of a command goes on
-/

namespace Dash7.Spec

/-- Reading a command from `s` on gives these actions, and then one more is to be read from `left`: the limit is
not reached, something is left, and no indirect forward came before. -/
def continuing (cfg : Cfg) (limit size : Nat) : List Action → (s left : List Bool) → Prop
  | [], s, left => left = asked cfg limit s ∧ ¬ limitReached limit (bytePosition size left) ∧ left ≠ []
  | a :: as, s, left =>
    ¬ limitReached limit (bytePosition size (asked cfg limit s)) ∧ a.isIndirectForward = false ∧
      ∃ more n, actionReading cfg a (asked cfg limit s) more n ∧ continuing cfg limit size as more left

/-- `Action::from_reader` on some input with these bits to be read fails with this error. -/
def refuses (cfg : Cfg) (s : List Bool) (e : Err) : Prop :=
  ∃ data off, off ≤ 8 * data.length ∧ (Form.ofBytes data).drop off = s ∧ Action.fromReader cfg data off = .error e

end Dash7.Spec
