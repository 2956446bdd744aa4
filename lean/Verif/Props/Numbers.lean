import Verif.Lemmas.Derived
import Verif.Props.Samples

/-!
# C08–C13: length operands and compressed integers
-/

namespace Dash7
open Sample

/-! ## C08, C09 -/

theorem Length.write_bits {l : Length} (h : l.val.toNat < 2 ^ 30) :
    l.write = .ok (bytesBits (Spec.length l.val.toNat)) := by
  obtain ⟨h1, h2⟩ := Length.extraBytes_lt h
  have hk : Length.extraBytes l.val = Spec.lengthExtra l.val.toNat := by
    rw [Length.extraBytes_eq, Spec.lengthExtra]
    repeat' split
    all_goals first | rfl | omega
  have e1 : W.uint 2 (BitVec.ofNat 32 (Length.extraBytes l.val)) =
      .ok (natBits 2 (Length.extraBytes l.val)) := by
    rw [W.uint, if_neg (by omega), BitVec.toNat_ofNat, Nat.mod_eq_of_lt (by omega)]
  have e2 : W.uint (6 + Length.extraBytes l.val * 8) l.val =
      .ok (natBits (6 + Length.extraBytes l.val * 8) l.val.toNat) := by
    rw [W.uint, if_neg (by omega)]
  simp only [Length.write, e1, e2, W.seq, List.append_nil, Except.ok.injEq]
  rw [Spec.length, Spec.lengthWith, ← hk, bytesBits_bigEndian]
  generalize Length.extraBytes l.val = k at h1 h2
  rw [Nat.mul_comm k 8] at h2 ⊢
  rw [show 8 * (k + 1) = 2 + (6 + 8 * k) by omega, natBits_append 2]
  have hpos := Nat.two_pow_pos (6 + 8 * k)
  congr 1
  · rw [Nat.add_comm, Nat.add_mul_div_right _ _ hpos, Nat.div_eq_of_lt h2, Nat.zero_add]
  · rw [natBits_eq_mod _ (_ + _), Nat.add_comm (k * _), Nat.add_mul_mod_self_right, ← natBits_eq_mod]

theorem Length.read_bytes (b : U8) (t : List U8) :
    Length.read.eval (bytesBits (b :: t)) =
      if b.toNat / 64 ≤ t.length then
        .ok (⟨BitVec.ofNat 32 (Spec.bigEndianValue (b :: t.take (b.toNat / 64)) %
          2 ^ (6 + 8 * (b.toNat / 64)))⟩, bytesBits (t.drop (b.toNat / 64)))
      else .error .incomplete := by
  have hb := b.isLt
  have h2 : bytesBits (b :: t) = natBits 2 (b.toNat / 64) ++ (natBits 6 b.toNat ++ bytesBits t) := by
    rw [bytesBits, ← List.append_assoc]
    exact congrArg (· ++ bytesBits t) (natBits_append 2 6 b.toNat)
  have hs : (BitVec.ofNat 8 (bitsNat (natBits 2 (b.toNat / 64)))).toNat = b.toNat / 64 := by
    rw [bitsNat_natBits_of_lt (by omega), BitVec.toNat_ofNat, Nat.mod_eq_of_lt (by omega)]
  show (P.bind _ _).eval _ = _
  rw [P.eval_bind, P.uint, if_neg (by omega), P.eval_bits, h2, if_pos (by simp),
    List.take_left' (by simp), List.drop_left' (by simp)]
  simp only [P.eval]
  show (P.bind _ _).eval _ = _
  rw [hs, P.eval_bind, P.uint, if_neg (by omega), P.eval_bits]
  by_cases hk : b.toNat / 64 ≤ t.length
  · rw [if_pos (by simp; omega), if_pos hk]
    simp only [P.eval]
    have e1 : List.take (6 + b.toNat / 64 * 8) (natBits 6 b.toNat ++ bytesBits t) =
        natBits 6 b.toNat ++ bytesBits (t.take (b.toNat / 64)) := by
      rw [List.take_append, natBits_length, List.take_of_length_le (by simp), bytesBits_take]
      congr 2; omega
    have e2 : List.drop (6 + b.toNat / 64 * 8) (natBits 6 b.toNat ++ bytesBits t) =
        bytesBits (t.drop (b.toNat / 64)) := by
      rw [List.drop_append, natBits_length, List.drop_of_length_le (by simp), bytesBits_drop,
        List.nil_append]
      congr 1; omega
    rw [e1, e2]
    congr 5
    rw [← bitsNat_bytesBits, bytesBits, bitsNat_append, bitsNat_append, bitsNat_natBits_of_lt hb,
      bitsNat_natBits, bytesBits_length, List.length_take, Nat.min_eq_left hk]
    generalize hx : bitsNat (bytesBits (t.take (b.toNat / 64))) = x
    have hlt : x < 2 ^ (8 * (b.toNat / 64)) := by
      have := bitsNat_lt (bytesBits (t.take (b.toNat / 64)))
      rwa [bytesBits_length, List.length_take, Nat.min_eq_left hk, hx] at this
    generalize 8 * (b.toNat / 64) = n at *
    rw [Nat.add_comm 6 n, Nat.pow_add, Nat.mod_mul, Nat.add_comm (_ * _) x, Nat.add_comm (_ * _) x,
      Nat.add_mul_mod_self_right, Nat.mod_eq_of_lt hlt, Nat.add_mul_div_right _ _ (Nat.two_pow_pos _), Nat.div_eq_of_lt hlt,
      Nat.zero_add, Nat.mul_comm]
  · rw [if_neg (by simp; omega), if_neg hk]

/-- **C08** The wire format of a length operand: the shortest one below 2^30, an error above. -/
theorem C08_wire_format (l : Length) :
    l.write.toBytes = if l.val.toNat < 2 ^ 30 then .ok (Spec.length l.val.toNat)
      else .error (.fault .invalidParam) := by
  split
  · rename_i h
    rw [Length.write_bits h]
    show Except.ok (packBits (bytesBits _)) = _
    rw [packBits_bytesBits]
  · rename_i h
    have : Length.extraBytes l.val = 4 := by
      rw [Length.extraBytes_eq]
      repeat' split
      all_goals first | rfl | omega
    rw [Length.write, this]
    rfl

/-- **C08** No shorter byte string decodes to the same length. -/
theorem C08_minimal (l : Length) (data rest : List U8) (n : Nat)
    (h : derivedFromBytes Length.read.run (data, 0) = .ok ((rest, n), l)) :
    l.val.toNat < 2 ^ 30 ∧ (Spec.length l.val.toNat).length + rest.length ≤ data.length := by
  obtain ⟨s', he, hs, hn⟩ := derivedFromBytes_inv h
  cases data with
  | nil => exact absurd he (by simp [Length.read, P.eval_bind, P.uint, P.eval, bind])
  | cons b t =>
    have hb := b.isLt
    rw [Length.read_bytes] at he
    split at he
    · rename_i hk
      simp only [Except.ok.injEq, Prod.mk.injEq] at he
      obtain ⟨rfl, rfl⟩ := he
      generalize hv : Spec.bigEndianValue _ % 2 ^ _ = v
      have hlt : v < 2 ^ (6 + 8 * (b.toNat / 64)) := by
        rw [← hv]; exact Nat.mod_lt _ (Nat.two_pow_pos _)
      have h30 : v < 2 ^ 30 :=
        Nat.lt_of_lt_of_le hlt (Nat.pow_le_pow_right (by omega) (by omega))
      have hto : (BitVec.ofNat 32 v).toNat = v := by
        rw [BitVec.toNat_ofNat, Nat.mod_eq_of_lt (by omega)]
      dsimp only at hs hn ⊢
      rw [hto]
      refine ⟨h30, ?_⟩
      rw [bytesBits_length, List.length_drop] at hs
      rw [Spec.length, Spec.lengthWith, Spec.bigEndian_length, List.length_cons]
      have : Spec.lengthExtra v ≤ b.toNat / 64 := by
        unfold Spec.lengthExtra
        generalize b.toNat / 64 = k at hlt
        rcases Nat.lt_or_ge k 3 with h3 | h3
        · obtain rfl | rfl | rfl : k = 0 ∨ k = 1 ∨ k = 2 := by omega
          all_goals
            simp only [Nat.reduceMul, Nat.reduceAdd] at hlt
            repeat' split
            all_goals omega
        · repeat' split
          all_goals omega
      omega
    · cases he

/-- **C09** Decoding: the two top bits of the first byte say how many bytes follow; they and the
remaining bits are a big-endian number. Fewer bytes than announced are incomplete. -/
theorem C09_decode (b : U8) (t : List U8) :
    derivedFromBytes Length.read.run (b :: t, 0) =
      if b.toNat / 64 ≤ t.length then
        .ok ((t.drop (b.toNat / 64), 0), ⟨BitVec.ofNat 32
          (Spec.bigEndianValue (b :: t.take (b.toNat / 64)) % 2 ^ (6 + 8 * (b.toNat / 64)))⟩)
      else .error .incomplete := by
  have h := Length.read_bytes b t
  split at h
  · rename_i hk
    rw [if_pos hk]
    obtain ⟨x, q, -, hq, hd, -⟩ := derived_ok h (by rw [bytesBits_length]; omega)
    rw [hd, bytesBits_inj hq]
  · rename_i hk
    rw [if_neg hk, (derived_err h).1]

/-- **C09** Whatever is decoded is below 2^30. -/
theorem C09_below (data : List U8) (rest : Rest) (l : Length)
    (h : derivedFromBytes Length.read.run (data, 0) = .ok (rest, l)) : l.val.toNat < 2 ^ 30 :=
  (C08_minimal l data rest.1 rest.2 h).1

/-- **C09** Every encoding of a length, minimal or not, decodes to it, whatever follows. -/
theorem C09_non_minimal (k v : Nat) (hk : k < 4) (hv : v < 2 ^ (6 + 8 * k)) (t : List U8) :
    derivedFromBytes Length.read.run (Spec.lengthWith k v ++ t, 0) =
      .ok ((t, 0), ⟨BitVec.ofNat 32 v⟩) := by
  have hp : 2 ^ (6 + 8 * k) = 64 * 256 ^ k := by
    rw [Nat.pow_add, Nat.pow_mul]
  have hpos : 0 < 256 ^ k := Nat.pow_pos (by omega)
  have hcons : Spec.lengthWith k v = BitVec.ofNat 8 ((k * 2 ^ (6 + 8 * k) + v) / 256 ^ k) ::
      Spec.bigEndian k (k * 2 ^ (6 + 8 * k) + v) := rfl
  have hb : (BitVec.ofNat 8 ((k * 2 ^ (6 + 8 * k) + v) / 256 ^ k)).toNat = k * 64 + v / 256 ^ k := by
    rw [hp, ← Nat.mul_assoc, Nat.add_comm, Nat.add_mul_div_right _ _ hpos, BitVec.toNat_ofNat,
      Nat.mod_eq_of_lt, Nat.add_comm]
    have : v / 256 ^ k < 64 := Nat.div_lt_of_lt_mul (by rw [Nat.mul_comm, ← hp]; exact hv)
    omega
  have hd : v / 256 ^ k < 64 := Nat.div_lt_of_lt_mul (by rw [Nat.mul_comm, ← hp]; exact hv)
  have hk' : (BitVec.ofNat 8 ((k * 2 ^ (6 + 8 * k) + v) / 256 ^ k)).toNat / 64 = k := by
    rw [hb, Nat.add_comm, Nat.add_mul_div_right _ _ (by decide), Nat.div_eq_of_lt hd, Nat.zero_add]
  rw [hcons, List.cons_append, C09_decode, hk', if_pos (by simp [Spec.bigEndian_length]),
    List.drop_left' (Spec.bigEndian_length _ _), List.take_left' (Spec.bigEndian_length _ _), ← hcons,
    Spec.lengthWith, ← bitsNat_bytesBits, bytesBits_bigEndian, bitsNat_natBits, Nat.mod_mod_of_dvd,
    Nat.add_comm, Nat.add_mul_mod_self_right, Nat.mod_eq_of_lt hv]
  exact Nat.pow_dvd_pow 2 (by omega)

/-- **C09** Decoding inverts encoding. -/
theorem C09_inverts (l : Length) (h : l.val.toNat < 2 ^ 30) (t : List U8) :
    ∃ bytes, l.write.toBytes = .ok bytes ∧ derivedTryFrom Length.read.run bytes = .ok l ∧
      derivedFromBytes Length.read.run (bytes ++ t, 0) = .ok ((t, 0), l) := by
  have h8 : Mod8 l.write 0 := by
    intro bs hb
    rw [Length.write_bits h] at hb
    cases hb; simp
  obtain ⟨bytes, h1, h2, h3⟩ := (Length.rt h).derived h8
  exact ⟨bytes, h1, h2, h3 t⟩

example : (Length.mk 5).write.toBytes = .ok [5] ∧ (Length.mk 64).write.toBytes = .ok [0x40, 64] ∧
    (Length.mk 1000000).write.toBytes = .ok [0x8F, 0x42, 0x40] ∧
    (Length.mk 0x3FFFFFFF).write.toBytes = .ok [0xFF, 0xFF, 0xFF, 0xFF] ∧
    (Length.mk 0x40000000).write.toBytes = .error (.fault .invalidParam) := by decide +kernel
example : derivedFromBytes Length.read.run ([0x80, 0, 5, 9], 0) = .ok (([9], 0), ⟨5⟩) ∧
    Spec.lengthWith 2 5 = [0x80, 0, 5] ∧
    derivedFromBytes Length.read.run ([0x80, 0], 0) = .error .incomplete := by decide +kernel

/-! ## C10–C13 -/

/-- `n` is the largest number a compressed integer stands for that is not above `v`. -/
def Spec.RoundsDown (v n : Nat) : Prop :=
  Spec.Compressible n ∧ n ≤ v ∧ ∀ n', Spec.Compressible n' → n' ≤ v → n' ≤ n

/-- `n` is the smallest number a compressed integer stands for that is not below `v`. -/
def Spec.RoundsUp (v n : Nat) : Prop :=
  Spec.Compressible n ∧ v ≤ n ∧ ∀ n', Spec.Compressible n' → v ≤ n' → n ≤ n'

/-- Numbers between the last multiple of a power of 4 with a mantissa of 31 and the next power. -/
def Spec.Gap (v : Nat) : Prop := ∃ k, k < 7 ∧ 31 * 4 ^ k < v ∧ v < 32 * 4 ^ k

theorem VarInt.compress_spec (v : U32) (ceil : Bool) (h : v.toNat ≤ 507904) :
    ∃ i m d, i < 8 ∧ m < 32 ∧ (∀ j, j < i → 31 * 4 ^ j < v.toNat) ∧ v.toNat ≤ 31 * 4 ^ i ∧
      m = v.toNat / 4 ^ i + (if ceil = true ∧ v.toNat % 4 ^ i > 0 then 1 else 0) ∧
      VarInt.compress v ceil = .ok (BitVec.ofNat 8 i, BitVec.ofNat 8 m) ∧
      (BitVec.ofNat 8 i).toNat = i ∧ (BitVec.ofNat 8 m).toNat = m ∧
      VarInt.decompress (BitVec.ofNat 8 i) (BitVec.ofNat 8 m) = .ok d ∧ d.toNat = m * 4 ^ i := by
  obtain ⟨i, hi, hle, hmin, heq⟩ := VarInt.compress_eq v ceil h
  have hpos : 0 < 4 ^ i := Nat.pow_pos (by omega)
  have hm : v.toNat / 4 ^ i + (if ceil = true ∧ v.toNat % 4 ^ i > 0 then 1 else 0) < 32 := by
    have h1 : v.toNat / 4 ^ i ≤ 31 := Nat.div_le_of_le_mul (by rw [Nat.mul_comm]; exact hle)
    split
    · rename_i hc
      have : v.toNat / 4 ^ i ≠ 31 := by
        intro h31
        have h2 := Nat.div_add_mod v.toNat (4 ^ i)
        rw [h31] at h2
        rw [Nat.mul_comm] at hle
        omega
      omega
    · omega
  generalize hmm : v.toNat / 4 ^ i + (if ceil = true ∧ v.toNat % 4 ^ i > 0 then 1 else 0) = m at *
  have hi8 : (BitVec.ofNat 8 i).toNat = i := by
    rw [BitVec.toNat_ofNat]; exact Nat.mod_eq_of_lt (by omega)
  have hm8 : (BitVec.ofNat 8 m).toNat = m := by
    rw [BitVec.toNat_ofNat]; exact Nat.mod_eq_of_lt (by omega)
  obtain ⟨hd1, hd2⟩ := VarInt.decompress_eq (e := BitVec.ofNat 8 i) (m := BitVec.ofNat 8 m)
    (by omega) (by omega)
  rw [hi8, hm8] at hd2
  exact ⟨i, m, _, hi, hm, hmin, hle, hmm.symm, heq, hi8, hm8, hd1, by rw [hi8, hm8]; exact hd2⟩

/-- **C10** Rounding down: the result is representable, not above the value and less than one unit of
its exponent away; it is the largest such number exactly if the value is in none of the gaps. -/
theorem C10_rounds_down_partial (v : U32) (h : v.toNat ≤ 507904) :
    ∃ e m d, VarInt.compress v false = .ok (e, m) ∧ e.toNat ≤ 7 ∧ m.toNat ≤ 31 ∧
      VarInt.decompress e m = .ok d ∧ d.toNat ≤ v.toNat ∧ v.toNat < d.toNat + 4 ^ e.toNat ∧
      (Spec.RoundsDown v.toNat d.toNat ↔ ¬ Spec.Gap v.toNat) := by
  obtain ⟨i, m, d, hi, hm, hmin, hle, hmeq, hc, hi8, hm8, hd, hdn⟩ := VarInt.compress_spec v false h
  have hpos : 0 < 4 ^ i := Nat.pow_pos (by omega)
  rw [if_neg (by simp), Nat.add_zero] at hmeq
  have hdiv : m * 4 ^ i ≤ v.toNat := by rw [hmeq]; exact Nat.div_mul_le_self _ _
  have hrem : v.toNat < m * 4 ^ i + 4 ^ i := by
    have := Nat.lt_succ_iff.1 (Nat.lt_succ_self m)
    have h2 := Nat.div_add_mod v.toNat (4 ^ i)
    have h3 := Nat.mod_lt v.toNat hpos
    rw [← hmeq, Nat.mul_comm] at h2
    omega
  refine ⟨_, _, d, hc, by omega, by omega, hd, by omega, by rw [hi8]; omega, ?_⟩
  constructor
  · rintro ⟨-, -, hmax⟩ ⟨k, hk, h1, h2⟩
    have hki : i = k + 1 := by
      have a : k < i := by
        rcases Nat.lt_or_ge k i with h | h
        · exact h
        · have := Nat.mul_le_mul_left 31 (Nat.pow_le_pow_right (show 0 < 4 by omega) h)
          omega
      rcases Nat.lt_or_ge (k + 1) i with h | h
      · have := hmin (k + 1) h
        rw [Nat.pow_succ] at this
        omega
      · omega
    have h31 := hmax (31 * 4 ^ k) ⟨k, by omega, 31, by omega, rfl⟩ (by omega)
    rw [hdn, hki, Nat.pow_succ] at h31
    rw [hki, Nat.pow_succ] at hdiv
    have hk0 : 0 < 4 ^ k := Nat.pow_pos (by omega)
    have ha : 31 * 4 ^ k ≤ m * 4 * 4 ^ k := by rw [Nat.mul_assoc, Nat.mul_comm 4]; exact h31
    have hb : m * 4 * 4 ^ k < 32 * 4 ^ k := by rw [Nat.mul_assoc, Nat.mul_comm 4]; omega
    have ha := Nat.le_of_mul_le_mul_right ha hk0
    have hb := Nat.lt_of_mul_lt_mul_right hb
    omega
  · intro hg
    refine ⟨⟨i, hi, m, hm, hdn⟩, by omega, ?_⟩
    rintro n' ⟨e', he', m', hm', rfl⟩ hn'
    rw [hdn]
    rcases Nat.lt_or_ge e' i with h | h
    · have h1 : m' * 4 ^ e' ≤ 31 * 4 ^ (i - 1) :=
        Nat.mul_le_mul (by omega) (Nat.pow_le_pow_right (by omega) (by omega))
      have h2 := hmin (i - 1) (by omega)
      have h3 : 32 * 4 ^ (i - 1) ≤ v.toNat := by
        rcases Nat.lt_or_ge v.toNat (32 * 4 ^ (i - 1)) with h | h
        · exact absurd ⟨i - 1, by omega, h2, h⟩ hg
        · exact h
      have h4 : 4 ^ i = 4 * 4 ^ (i - 1) := by
        rw [Nat.mul_comm, ← Nat.pow_succ]; congr 1; omega
      have h5 : 8 ≤ m := by
        rw [hmeq, Nat.le_div_iff_mul_le hpos, h4]; omega
      have := Nat.mul_le_mul_right (4 ^ i) h5
      omega
    · obtain ⟨c, hc⟩ := Nat.pow_dvd_pow 4 h
      have : m' * 4 ^ e' = (m' * c) * 4 ^ i := by rw [hc, Nat.mul_assoc, Nat.mul_comm c]
      rw [this] at hn' ⊢
      refine Nat.mul_le_mul_right _ ?_
      rw [hmeq, Nat.le_div_iff_mul_le hpos]; exact hn'

/-- **C10** fails: 125 is rounded down to 112 although 124 is representable. -/
theorem C10_rounds_down_violates :
    ∃ v e m d, VarInt.compress v false = .ok (e, m) ∧ VarInt.decompress e m = .ok d ∧
      d.toNat < 124 ∧ 124 ≤ v.toNat ∧ Spec.Compressible 124 :=
  ⟨125, 2, 7, 112, by decide +kernel⟩

/-- **C11** Rounding up gives the smallest representable number not below the value. -/
theorem C11_rounds_up (v : U32) (h : v.toNat ≤ 507904) :
    ∃ e m d, VarInt.compress v true = .ok (e, m) ∧ VarInt.decompress e m = .ok d ∧
      Spec.RoundsUp v.toNat d.toNat := by
  obtain ⟨i, m, d, hi, hm, hmin, hle, hmeq, hc, hi8, hm8, hd, hdn⟩ := VarInt.compress_spec v true h
  have hpos : 0 < 4 ^ i := Nat.pow_pos (by omega)
  have h2 := Nat.div_add_mod v.toNat (4 ^ i)
  rw [Nat.mul_comm] at h2
  have hup : v.toNat ≤ m * 4 ^ i := by
    rw [hmeq, Nat.add_mul]
    have h3 := Nat.mod_lt v.toNat hpos
    split <;> simp_all <;> omega
  refine ⟨_, _, d, hc, hd, ⟨i, hi, m, hm, hdn⟩, by omega, ?_⟩
  rintro n' ⟨e', he', m', hm', rfl⟩ hn'
  rw [hdn]
  have hie : i ≤ e' := by
    rcases Nat.lt_or_ge e' i with h | h
    · have := hmin e' h
      have := Nat.mul_le_mul_right (4 ^ e') (show m' ≤ 31 by omega)
      omega
    · exact h
  obtain ⟨c, hc⟩ := Nat.pow_dvd_pow 4 hie
  have he : m' * 4 ^ e' = (m' * c) * 4 ^ i := by rw [hc, Nat.mul_assoc, Nat.mul_comm c]
  rw [he] at hn' ⊢
  refine Nat.mul_le_mul_right _ ?_
  rw [hmeq]
  have hq : v.toNat / 4 ^ i ≤ m' * c := by
    have := Nat.div_le_div_right (c := 4 ^ i) hn'
    rwa [Nat.mul_div_cancel _ hpos] at this
  split
  · rename_i hr
    rcases Nat.lt_or_ge (v.toNat / 4 ^ i) (m' * c) with h | h
    · exact h
    · have : v.toNat / 4 ^ i = m' * c := by omega
      rw [this] at h2
      omega
  · exact hq

/-- **C12** `new` and `compress` refuse a value, as too large, exactly above 507904. -/
theorem C12_range (v : U32) (ceil : Bool) :
    (v.toNat ≤ 507904 → VarInt.new v ceil = .ok ⟨v, ceil⟩ ∧ ∃ p, VarInt.compress v ceil = .ok p) ∧
    (507904 < v.toNat → VarInt.new v ceil = .error (.valueTooLarge v) ∧
      VarInt.compress v ceil = .error (.valueTooLarge v)) := by
  constructor
  · intro h
    obtain ⟨i, m, d, -, -, -, -, -, hc, -⟩ := VarInt.compress_spec v ceil h
    exact ⟨by simp [VarInt.new, VarInt.isValid, VarInt.MAX, h], _, hc⟩
  · intro h
    have : VarInt.isValid v = false := decide_eq_false (by rw [VarInt.MAX]; omega)
    simp [VarInt.new, VarInt.compress, this]

/-- **C12** The catch-all error is unreachable and no computation overflows. -/
theorem C12_errors (v : U32) (ceil : Bool) (e : VarIntError) (h : VarInt.compress v ceil = .error e) :
    e = .valueTooLarge v := by
  rcases Nat.lt_or_ge 507904 v.toNat with hv | hv
  · rw [((C12_range v ceil).2 hv).2] at h
    cases h; rfl
  · obtain ⟨p, hp⟩ := ((C12_range v ceil).1 hv).2
    rw [hp] at h; cases h

/-- **C12** 507904 is the largest number a byte decodes to. -/
theorem C12_max :
    (∀ b v, derivedTryFrom VarInt.read.run [b] = .ok v → v.value.toNat ≤ 507904) ∧
      derivedTryFrom VarInt.read.run [0xFF] = .ok ⟨507904, false⟩ := by
  refine ⟨fun b v h => ?_, by decide +kernel⟩
  obtain ⟨s', he, -⟩ := derivedTryFrom_inv h
  obtain ⟨c, hc, -⟩ := P.eval_ok _ he
  exact VarInt.compressible_le (VarInt.post c s' v (hc ▸ he)).1.2

theorem VarInt.write_byte (v : U32) (h : v.toNat ≤ 507904) (e m : U8) (ceil : Bool)
    (hc : VarInt.compress v ceil = .ok (e, m)) :
    (VarInt.mk v ceil).write.toBytes = .ok [Spec.varIntByte e.toNat m.toNat] := by
  obtain ⟨i, m', d, hi, hm, -, -, -, hc', hi8, hm8, -⟩ := VarInt.compress_spec v ceil h
  rw [hc] at hc'
  cases hc'
  rw [VarInt.write, hc]
  dsimp only
  rw [hi8, hm8, Spec.varIntByte]
  simp only [W.uint, if_neg (show ¬ 8 < 3 by decide), if_neg (show ¬ 8 < 5 by decide), W.seq,
    W.toBytes, List.append_nil, hi8, hm8, Except.ok.injEq]
  have : natBits 3 i ++ natBits 5 m' = natBits (8 * 1) (i * 32 + m') := by
    rw [show 8 * 1 = 3 + 5 from rfl, natBits_append]
    congr 1
    · congr 1; omega
    · rw [natBits_eq_mod 5 (i * 32 + m'), natBits_eq_mod 5 m']; congr 1; omega
  rw [this, packBits_natBits]
  simp [Spec.bigEndian]

/-- **C13** Every byte decodes, to its mantissa times a power of 4. -/
theorem C13_decodes (b : U8) (t : List U8) :
    derivedFromBytes VarInt.read.run (b :: t, 0) =
      .ok ((t, 0), ⟨BitVec.ofNat 32 (Spec.varIntValue b), false⟩) := by
  have hb := b.isLt
  have h3 : bytesBits (b :: t) = natBits 3 (b.toNat / 32) ++ (natBits 5 b.toNat ++ bytesBits t) := by
    rw [bytesBits, ← List.append_assoc]
    exact congrArg (· ++ bytesBits t) (natBits_append 3 5 b.toNat)
  have he : (BitVec.ofNat 8 (bitsNat (natBits 3 (b.toNat / 32)))).toNat = b.toNat / 32 := by
    rw [bitsNat_natBits_of_lt (by omega), BitVec.toNat_ofNat, Nat.mod_eq_of_lt (by omega)]
  have hm : (BitVec.ofNat 8 (bitsNat (natBits 5 b.toNat))).toNat = b.toNat % 32 := by
    rw [bitsNat_natBits, BitVec.toNat_ofNat, Nat.mod_eq_of_lt (by omega)]
  have hev : VarInt.read.eval (bytesBits (b :: t)) =
      .ok (⟨BitVec.ofNat 32 (Spec.varIntValue b), false⟩, bytesBits t) := by
    show (P.bind _ _).eval _ = _
    rw [P.eval_bind, P.uint, if_neg (by omega), P.eval_bits, h3, if_pos (by simp),
      List.take_left' (by simp), List.drop_left' (by simp)]
    simp only [P.eval]
    show (P.bind _ _).eval _ = _
    rw [P.eval_bind, P.uint, if_neg (by omega), P.eval_bits, if_pos (by simp),
      List.take_left' (by simp), List.drop_left' (by simp)]
    simp only [P.eval]
    rw [(VarInt.decompress_eq (by omega) (by omega)).1, he, hm]
    rfl
  obtain ⟨x, q, -, hq, hd, -⟩ := derived_ok hev (by rw [bytesBits_length]; omega)
  rw [hd, bytesBits_inj hq]

/-- **C13** Encoding a decoded byte gives a byte that decodes to the same value, with the smallest
exponent of all bytes that do. -/
theorem C13_reencode (b : U8) (v : VarInt) (h : derivedTryFrom VarInt.read.run [b] = .ok v) :
    ∃ c, v.write.toBytes = .ok [c] ∧ derivedTryFrom VarInt.read.run [c] = .ok v ∧
      ∀ b', derivedTryFrom VarInt.read.run [b'] = .ok v → c.toNat / 32 ≤ b'.toNat / 32 := by
  have hwf : ∀ b' v', derivedTryFrom VarInt.read.run [b'] = .ok v' →
      v'.ceil = false ∧ v'.value.toNat = Spec.varIntValue b' := by
    intro b' v' h'
    have hd := C13_decodes b' []
    unfold derivedTryFrom at h'
    unfold derivedFromBytes at hd
    dsimp only at hd
    rw [startAt_zero] at hd
    generalize VarInt.read.run (Rd.new [b']) = x at hd h'
    cases x with
    | error e => cases h'
    | ok p =>
      dsimp only at hd h'
      split at h'
      · cases h'
      · generalize sliceFrom _ _ = y at hd
        cases y with
        | error e => cases hd
        | ok s =>
          simp only [Except.ok.injEq, Prod.mk.injEq] at hd
          cases h'
          rw [hd.2]
          refine ⟨rfl, ?_⟩
          have hb := b'.isLt
          have hp := VarInt.pow4_le (i := b'.toNat / 32) (by omega)
          have := Nat.mul_le_mul (show b'.toNat % 32 ≤ 31 by omega) hp
          rw [BitVec.toNat_ofNat]
          exact Nat.mod_eq_of_lt (Nat.lt_of_le_of_lt this (by decide))
  obtain ⟨hceil, hval⟩ := hwf b v h
  have hb := b.isLt
  have hcomp : Spec.Compressible v.value.toNat :=
    ⟨b.toNat / 32, by omega, b.toNat % 32, by omega, hval⟩
  have hle := VarInt.compressible_le hcomp
  obtain ⟨i, m, d, hi, hm, hmin, hmax, hmeq, hc, hi8, hm8, -⟩ :=
    VarInt.compress_spec v.value v.ceil hle
  have hbytes := VarInt.write_byte v.value hle _ _ v.ceil hc
  rw [hi8, hm8] at hbytes
  obtain ⟨bytes, h1, h2, -⟩ := (VarInt.rt ⟨hceil, hcomp⟩).derived v.mod8
  rw [show (VarInt.mk v.value v.ceil) = v from rfl, h1] at hbytes
  injection hbytes with hbytes
  subst hbytes
  refine ⟨_, h1, h2, ?_⟩
  intro b' h'
  obtain ⟨-, hv'⟩ := hwf b' v h'
  have hc32 : (Spec.varIntByte i m).toNat / 32 = i := by
    rw [Spec.varIntByte, BitVec.toNat_ofNat, Nat.mod_eq_of_lt (by omega)]; omega
  rw [hc32]
  exact VarInt.compressible_dvd (m := b'.toNat % 32) (by omega) hv' hmin

/-- **C13** `decompress` accepts exactly an exponent up to 7 and a mantissa up to 31; an exponent too
large is named in the error. (Missing: naming a mantissa too large, see `C13_error_violates`.) -/
theorem C13_decompress_partial (e m : U8) :
    (e.toNat ≤ 7 ∧ m.toNat ≤ 31 → ∃ d, VarInt.decompress e m = .ok d ∧ d.toNat = m.toNat * 4 ^ e.toNat) ∧
    (7 < e.toNat → VarInt.decompress e m = .error (.exponentTooLarge e)) ∧
    (31 < m.toNat → ∃ er, VarInt.decompress e m = .error er) := by
  refine ⟨fun ⟨he, hm⟩ => ?_, fun he => ?_, fun hm => ?_⟩
  · obtain ⟨h1, h2⟩ := VarInt.decompress_eq (e := e) (m := m) (by omega) (by omega)
    exact ⟨_, h1, h2⟩
  · rw [VarInt.decompress, if_pos ((VarInt.and_high3 e).2 (by omega))]
  · rw [VarInt.decompress]
    split
    · exact ⟨_, rfl⟩
    · rw [if_pos ((VarInt.and_high5 m).2 (by omega))]
      exact ⟨_, rfl⟩

/-- **C13** fails: every mantissa too large is reported as an exponent. -/
theorem C13_error_violates (e m : U8) (he : e.toNat ≤ 7) (hm : 31 < m.toNat) :
    VarInt.decompress e m = .error (.exponentTooLarge m) := by
  rw [VarInt.decompress, if_neg (by rw [VarInt.and_high3]; omega),
    if_pos ((VarInt.and_high5 m).2 (by omega))]

example : VarInt.compress 1000 false = .ok (3, 15) ∧ VarInt.compress 1000 true = .ok (3, 16) ∧
    VarInt.decompress 3 15 = .ok 960 ∧ VarInt.decompress 3 16 = .ok 1024 ∧
    VarInt.compress 507905 true = .error (.valueTooLarge 507905) := by decide +kernel
example : ¬ Spec.Gap 1000 := by
  rintro ⟨k, hk, h⟩
  revert h; revert k; decide
example : derivedTryFrom VarInt.read.run [0x44] = .ok ⟨64, false⟩ ∧
    (VarInt.mk 64 false).write.toBytes = .ok [0x30] ∧
    derivedTryFrom VarInt.read.run [0x30] = .ok ⟨64, false⟩ := by decide +kernel
example : VarInt.decompress 3 40 = .error (.exponentTooLarge 40) := by decide +kernel

#print axioms C08_wire_format
#print axioms C08_minimal
#print axioms C09_decode
#print axioms C09_below
#print axioms C09_non_minimal
#print axioms C09_inverts
#print axioms C10_rounds_down_partial
#print axioms C10_rounds_down_violates
#print axioms C11_rounds_up
#print axioms C12_range
#print axioms C12_errors
#print axioms C12_max
#print axioms C13_decodes
#print axioms C13_reencode
#print axioms C13_decompress_partial
#print axioms C13_error_violates

end Dash7
