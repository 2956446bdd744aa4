import Verif.Model.Display
import Verif.Model.Types

/-!
# The messages of `VarIntError`: `dash7/src/types.rs`
-/

namespace Dash7

/-- `/repo/dash7/src/types.rs:17-42` (`Into<DekuError> for VarIntError`): the text handed to `DekuError`. In Rust `2 ^ 3` (29)
and `2 ^ 5` (36) are exclusive ors. `overflow` stands for a panic and has no message. -/
def VarIntError.message : VarIntError → Option String
  | .valueTooLarge value =>
    some ("VarInt: Value too large: " ++ Debug.nat value.toNat ++ ". Max: " ++ Debug.nat VarInt.MAX)
  | .exponentTooLarge exponent =>
    some ("VarInt: Exponent too large " ++ Debug.nat exponent.toNat ++ ". Max: " ++ Debug.nat (2 ^^^ 3))
  | .mantissaTooLarge mantissa =>
    some ("VarInt: Mantissa too large " ++ Debug.nat mantissa.toNat ++ ". Max: " ++ Debug.nat (2 ^^^ 5))
  | .unknown => some "VarInt: Unknown error"
  | .overflow => none

end Dash7
