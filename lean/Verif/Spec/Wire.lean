import Verif.Bits

/-!
# Wire formats, stated on bytes without reference to the model's readers and writers
-/

namespace Dash7

/-- The `n` low bytes of a number, most significant first. -/
def Spec.bigEndian : Nat → Nat → List U8
  | 0, _ => []
  | n + 1, v => BitVec.ofNat 8 (v / 256 ^ n) :: Spec.bigEndian n v

/-- The number a byte string stands for, most significant byte first. -/
def Spec.bigEndianValue (bs : List U8) : Nat := bs.foldl (fun acc b => 256 * acc + b.toNat) 0

/-- A length operand with `k` extra bytes: a big-endian number of `k + 1` bytes whose two top bits
are `k`. -/
def Spec.lengthWith (k v : Nat) : List U8 := Spec.bigEndian (k + 1) (k * 2 ^ (6 + 8 * k) + v)

/-- The smallest number of extra bytes a length operand needs. -/
def Spec.lengthExtra (v : Nat) : Nat :=
  if v < 2 ^ 6 then 0 else if v < 2 ^ 14 then 1 else if v < 2 ^ 22 then 2 else 3

/-- The shortest length operand. -/
def Spec.length (v : Nat) : List U8 := Spec.lengthWith (Spec.lengthExtra v) v

/-- A compressed integer byte: three bits exponent, five bits mantissa. -/
def Spec.varIntByte (e m : Nat) : U8 := BitVec.ofNat 8 (e * 32 + m)

/-- What a compressed integer byte stands for. -/
def Spec.varIntValue (b : U8) : Nat := b.toNat % 32 * 4 ^ (b.toNat / 32)

end Dash7
