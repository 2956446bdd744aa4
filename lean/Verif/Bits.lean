/-!
# Bit strings

Most-significant-bit-first rendering of numbers, and packing of bits into bytes.
These are the notions in which the wire format is expressed; they model no code of the crate by
themselves (deku works on `bitvec` slices in `Msb0` order, see `Verif.Deku`).
-/

namespace Dash7

/-- A byte. Models Rust's `u8` (e.g. `/repo/dash7/src/app/operation/mod.rs:62`). -/
abbrev U8 := BitVec 8
/-- Models Rust's `u16` (e.g. `/repo/dash7/src/link/frame.rs:20`). -/
abbrev U16 := BitVec 16
/-- Models Rust's `u32` (e.g. `/repo/dash7/src/app/operation/length.rs:13`). -/
abbrev U32 := BitVec 32
/-- Models Rust's `u64` (e.g. `/repo/dash7/src/network/mod.rs:105`). -/
abbrev U64 := BitVec 64
/-- Models Rust's `u128` (e.g. `/repo/dash7/src/file/security_key.rs:6`). -/
abbrev U128 := BitVec 128

/-- The low `n` bits of `v`, most significant first: what deku writes for the fields declared
`bits = n`, e.g. `/repo/dash7/src/app/action.rs:29`. -/
def natBits : Nat → Nat → List Bool
  | 0, _ => []
  | n + 1, v => v.testBit n :: natBits n v

/-- The number written by a most-significant-first bit string: what deku reads for the fields
declared `bits = n`, e.g. `/repo/dash7/src/app/action.rs:29`. -/
def bitsNat (l : List Bool) : Nat :=
  l.foldl (fun acc b => 2 * acc + b.toNat) 0

/-- The bits of a byte string, each byte most significant bit first: the input the readers at
`/repo/dash7/src/utils.rs:70-71` run over. -/
def bytesBits : List U8 → List Bool
  | [] => []
  | b :: bs => natBits 8 b.toNat ++ bytesBits bs

/-- Pack bits into bytes, the last byte filled up with zeros: `writer.finalize()`, e.g. at
`/repo/dash7/src/app/command.rs:81`. -/
def packBits : List Bool → List U8
  | a :: b :: c :: d :: e :: f :: g :: h :: rest =>
      BitVec.ofNat 8 (bitsNat [a, b, c, d, e, f, g, h]) :: packBits rest
  | [] => []
  | l => [BitVec.ofNat 8 (bitsNat (l ++ List.replicate (8 - l.length) false))]

/-! ## Facts -/

@[simp] theorem natBits_length (n v : Nat) : (natBits n v).length = n := by
  induction n with
  | zero => rfl
  | succ n ih => simp [natBits, ih]

theorem bitsNat_foldl (l : List Bool) (acc : Nat) :
    l.foldl (fun acc b => 2 * acc + b.toNat) acc = acc * 2 ^ l.length + bitsNat l := by
  induction l generalizing acc with
  | nil => simp [bitsNat]
  | cons b l ih =>
    simp only [List.foldl_cons, bitsNat, List.length_cons]
    rw [ih, ih (2 * 0 + b.toNat)]
    rw [Nat.pow_succ]
    simp only [Nat.mul_zero, Nat.zero_add, Nat.add_mul]
    rw [Nat.mul_comm 2 acc, Nat.mul_assoc, Nat.mul_comm 2 (2 ^ l.length)]
    omega

@[simp] theorem bitsNat_nil : bitsNat [] = 0 := rfl

theorem bitsNat_cons (b : Bool) (l : List Bool) :
    bitsNat (b :: l) = b.toNat * 2 ^ l.length + bitsNat l := by
  have := bitsNat_foldl l (2 * 0 + b.toNat)
  simpa [bitsNat] using this

theorem bitsNat_append (l m : List Bool) :
    bitsNat (l ++ m) = bitsNat l * 2 ^ m.length + bitsNat m := by
  rw [bitsNat, List.foldl_append, bitsNat_foldl]; rfl

theorem bitsNat_lt (l : List Bool) : bitsNat l < 2 ^ l.length := by
  induction l with
  | nil => simp
  | cons b l ih =>
    rw [bitsNat_cons, List.length_cons, Nat.pow_succ]
    cases b <;> simp <;> omega

theorem bitsNat_natBits (n v : Nat) : bitsNat (natBits n v) = v % 2 ^ n := by
  induction n with
  | zero => simp [natBits, Nat.mod_one]
  | succ n ih =>
    rw [natBits, bitsNat_cons, natBits_length, ih, Nat.mod_pow_succ, Nat.testBit_eq_decide_div_mod_eq]
    rcases Nat.mod_two_eq_zero_or_one (v / 2 ^ n) with h | h <;> simp [h] <;> omega

theorem bitsNat_natBits_of_lt {n v : Nat} (h : v < 2 ^ n) : bitsNat (natBits n v) = v := by
  rw [bitsNat_natBits, Nat.mod_eq_of_lt h]

theorem natBits_mod (n m v : Nat) (h : n ≤ m) : natBits n (v % 2 ^ m) = natBits n v := by
  induction n with
  | zero => rfl
  | succ n ih =>
    rw [natBits, natBits, ih (by omega), Nat.testBit_mod_two_pow]
    simp [show n < m by omega]

theorem natBits_bitsNat (l : List Bool) : natBits l.length (bitsNat l) = l := by
  induction l with
  | nil => rfl
  | cons b l ih =>
    rw [List.length_cons, natBits, bitsNat_cons]
    have hl := bitsNat_lt l
    congr 1
    · rw [Nat.testBit_eq_decide_div_mod_eq]
      rw [Nat.add_comm, Nat.add_mul_div_right _ _ (Nat.two_pow_pos _), Nat.div_eq_of_lt hl]
      cases b <;> simp
    · rw [← natBits_mod l.length l.length _ (Nat.le_refl _)]
      rw [Nat.add_comm, Nat.add_mul_mod_self_right, Nat.mod_eq_of_lt hl, ih]

theorem natBits_append (n m v : Nat) :
    natBits (n + m) v = natBits n (v / 2 ^ m) ++ natBits m v := by
  induction n with
  | zero => simp [natBits]
  | succ n ih =>
    rw [show n + 1 + m = (n + m) + 1 by omega, natBits, natBits, ih, Nat.testBit_div_two_pow]
    simp [Nat.add_comm]

theorem natBits_inj {n v w : Nat} (hv : v < 2 ^ n) (hw : w < 2 ^ n)
    (h : natBits n v = natBits n w) : v = w := by
  rw [← bitsNat_natBits_of_lt hv, h, bitsNat_natBits_of_lt hw]

@[simp] theorem bytesBits_length (bs : List U8) : (bytesBits bs).length = 8 * bs.length := by
  induction bs with
  | nil => rfl
  | cons b bs ih => simp [bytesBits, ih]; omega

@[simp] theorem bytesBits_nil : bytesBits [] = [] := rfl

theorem bytesBits_append (a b : List U8) : bytesBits (a ++ b) = bytesBits a ++ bytesBits b := by
  induction a with
  | nil => rfl
  | cons x a ih => simp [bytesBits, ih]

theorem natBits8_eq (v : Nat) : natBits 8 v =
    [v.testBit 7, v.testBit 6, v.testBit 5, v.testBit 4, v.testBit 3, v.testBit 2, v.testBit 1,
      v.testBit 0] := rfl

theorem packBits_bytesBits (bs : List U8) : packBits (bytesBits bs) = bs := by
  induction bs with
  | nil => rfl
  | cons b bs ih =>
    rw [bytesBits, natBits8_eq]
    simp only [List.cons_append, List.nil_append, packBits, ih]
    rw [← natBits8_eq, bitsNat_natBits_of_lt b.isLt]
    simp

theorem packBits_append8 (l m : List Bool) (h : l.length = 8) :
    packBits (l ++ m) = BitVec.ofNat 8 (bitsNat l) :: packBits m := by
  match l, h with
  | [a, b, c, d, e, f, g, i], _ => rfl

theorem bytesBits_packBits (l : List Bool) (h : 8 ∣ l.length) : bytesBits (packBits l) = l := by
  obtain ⟨k, hk⟩ := h
  induction k generalizing l with
  | zero =>
    have : l = [] := List.eq_nil_of_length_eq_zero (by omega)
    subst this; rfl
  | succ k ih =>
    have h8 : (l.take 8).length = 8 := by simp; omega
    have hl : l = l.take 8 ++ l.drop 8 := (List.take_append_drop 8 l).symm
    rw [hl, packBits_append8 _ _ h8, bytesBits, ih (l.drop 8) (by simp; omega)]
    congr 1
    have hlt := bitsNat_lt (l.take 8)
    rw [h8] at hlt
    rw [BitVec.toNat_ofNat, Nat.mod_eq_of_lt hlt]
    have := natBits_bitsNat (l.take 8)
    rwa [h8] at this

theorem packBits_length (l : List Bool) : (packBits l).length = (l.length + 7) / 8 := by
  fun_induction packBits l with
  | case1 a b c d e f g h rest ih => simp [ih]; omega
  | case2 => rfl
  | case3 l h1 h2 =>
    have h0 : l ≠ [] := h2
    have h8 : l.length < 8 := by
      rcases l with _ | ⟨a, _ | ⟨b, _ | ⟨c, _ | ⟨d, _ | ⟨e, _ | ⟨f, _ | ⟨g, _ | ⟨i, r⟩⟩⟩⟩⟩⟩⟩⟩
      all_goals first
        | exact (h1 _ _ _ _ _ _ _ _ _ rfl).elim
        | (simp only [List.length_cons, List.length_nil]; omega)
    have : 0 < l.length := List.length_pos_iff.mpr h0
    simp only [List.length_singleton]
    omega

theorem packBits_append (l m : List Bool) (h : 8 ∣ l.length) :
    packBits (l ++ m) = packBits l ++ packBits m := by
  obtain ⟨k, hk⟩ := h
  induction k generalizing l with
  | zero =>
    have : l = [] := List.eq_nil_of_length_eq_zero (by omega)
    subst this; rfl
  | succ k ih =>
    have h8 : (l.take 8).length = 8 := by simp; omega
    have hl : l = l.take 8 ++ l.drop 8 := (List.take_append_drop 8 l).symm
    rw [hl, List.append_assoc, packBits_append8 _ _ h8, packBits_append8 _ _ h8,
      ih (l.drop 8) (by simp; omega)]
    rfl

end Dash7
