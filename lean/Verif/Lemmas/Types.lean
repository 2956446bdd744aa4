import Verif.Lemmas.Core
import Verif.Spec.WF

/-!
# Lemmas about compressed integers and length operands
-/

namespace Dash7

/-! ## VarInt -/

namespace VarInt

/-- What the loop of `compress` computes. -/
theorem compress_eq (v : U32) (ceil : Bool) (h : v.toNat ≤ 507904) :
    ∃ i, i < 8 ∧ v.toNat ≤ 31 * 4 ^ i ∧ (∀ j, j < i → 31 * 4 ^ j < v.toNat) ∧
      compress v ceil = .ok (BitVec.ofNat 8 i, BitVec.ofNat 8
        (v.toNat / 4 ^ i + if ceil = true ∧ v.toNat % 4 ^ i > 0 then 1 else 0)) := by
  have hv : isValid v = true := by simp [isValid, MAX, h]
  have aux : ∀ i, v.toNat ≤ 31 * 4 ^ i → ¬ (2 ^ 32 ≤ 4 ^ i ∨ 2 ^ 32 ≤ 4 ^ i * 31) →
      ∀ is, compressLoop v ceil (i :: is) = .ok (BitVec.ofNat 8 i, BitVec.ofNat 8
        (v.toNat / 4 ^ i + if ceil = true ∧ v.toNat % 4 ^ i > 0 then 1 else 0)) := by
    intro i h1 h2 is
    rw [compressLoop, if_neg h2, if_pos (by omega)]
    by_cases hc : ceil = true ∧ v.toNat % 4 ^ i > 0
    · simp [hc]
    · rw [if_neg hc]
      have : ¬ ((ceil && decide (v.toNat % 4 ^ i > 0)) = true) := by simpa using hc
      simp only [this]
      simp
  have step : ∀ i, ¬ v.toNat ≤ 31 * 4 ^ i → ¬ (2 ^ 32 ≤ 4 ^ i ∨ 2 ^ 32 ≤ 4 ^ i * 31) →
      ∀ is, compressLoop v ceil (i :: is) = compressLoop v ceil is := by
    intro i h1 h2 is
    rw [compressLoop, if_neg h2, if_neg (by omega)]
  simp only [compress, hv, Bool.not_true]
  by_cases h0 : v.toNat ≤ 31 * 4 ^ 0
  · exact ⟨0, by omega, h0, by omega, aux 0 h0 (by decide) _⟩
  by_cases h1 : v.toNat ≤ 31 * 4 ^ 1
  · refine ⟨1, by omega, h1, ?_, ?_⟩
    · intro j hj; have : j = 0 := by omega
      subst this; omega
    · simp only [Bool.false_eq_true, if_false]; rw [step 0 h0 (by decide)]; exact aux 1 h1 (by decide) _
  by_cases h2 : v.toNat ≤ 31 * 4 ^ 2
  · refine ⟨2, by omega, h2, ?_, ?_⟩
    · intro j hj; obtain rfl | rfl : j = 0 ∨ j = 1 := by omega
      all_goals omega
    · simp only [Bool.false_eq_true, if_false]; rw [step 0 h0 (by decide), step 1 h1 (by decide)]
      exact aux 2 h2 (by decide) _
  by_cases h3 : v.toNat ≤ 31 * 4 ^ 3
  · refine ⟨3, by omega, h3, ?_, ?_⟩
    · intro j hj; obtain rfl | rfl | rfl : j = 0 ∨ j = 1 ∨ j = 2 := by omega
      all_goals omega
    · simp only [Bool.false_eq_true, if_false]; rw [step 0 h0 (by decide), step 1 h1 (by decide), step 2 h2 (by decide)]
      exact aux 3 h3 (by decide) _
  by_cases h4 : v.toNat ≤ 31 * 4 ^ 4
  · refine ⟨4, by omega, h4, ?_, ?_⟩
    · intro j hj; obtain rfl | rfl | rfl | rfl : j = 0 ∨ j = 1 ∨ j = 2 ∨ j = 3 := by omega
      all_goals omega
    · simp only [Bool.false_eq_true, if_false]; rw [step 0 h0 (by decide), step 1 h1 (by decide), step 2 h2 (by decide), step 3 h3 (by decide)]
      exact aux 4 h4 (by decide) _
  by_cases h5 : v.toNat ≤ 31 * 4 ^ 5
  · refine ⟨5, by omega, h5, ?_, ?_⟩
    · intro j hj; obtain rfl | rfl | rfl | rfl | rfl : j = 0 ∨ j = 1 ∨ j = 2 ∨ j = 3 ∨ j = 4 := by omega
      all_goals omega
    · simp only [Bool.false_eq_true, if_false]; rw [step 0 h0 (by decide), step 1 h1 (by decide), step 2 h2 (by decide), step 3 h3 (by decide),
        step 4 h4 (by decide)]
      exact aux 5 h5 (by decide) _
  by_cases h6 : v.toNat ≤ 31 * 4 ^ 6
  · refine ⟨6, by omega, h6, ?_, ?_⟩
    · intro j hj
      obtain rfl | rfl | rfl | rfl | rfl | rfl : j = 0 ∨ j = 1 ∨ j = 2 ∨ j = 3 ∨ j = 4 ∨ j = 5 := by
        omega
      all_goals omega
    · simp only [Bool.false_eq_true, if_false]; rw [step 0 h0 (by decide), step 1 h1 (by decide), step 2 h2 (by decide), step 3 h3 (by decide),
        step 4 h4 (by decide), step 5 h5 (by decide)]
      exact aux 6 h6 (by decide) _
  · have h7 : v.toNat ≤ 31 * 4 ^ 7 := by omega
    refine ⟨7, by omega, h7, ?_, ?_⟩
    · intro j hj
      obtain rfl | rfl | rfl | rfl | rfl | rfl | rfl :
          j = 0 ∨ j = 1 ∨ j = 2 ∨ j = 3 ∨ j = 4 ∨ j = 5 ∨ j = 6 := by omega
      all_goals omega
    · simp only [Bool.false_eq_true, if_false]; rw [step 0 h0 (by decide), step 1 h1 (by decide), step 2 h2 (by decide), step 3 h3 (by decide),
        step 4 h4 (by decide), step 5 h5 (by decide), step 6 h6 (by decide)]
      exact aux 7 h7 (by decide) _

theorem and_high3 (e : U8) : (e &&& 0b11111000#8).toNat > 0 ↔ 8 ≤ e.toNat := by
  revert e; decide +kernel

theorem and_high5 (e : U8) : (e &&& 0b11100000#8).toNat > 0 ↔ 32 ≤ e.toNat := by
  revert e; decide +kernel

theorem pow4_le {i : Nat} (h : i < 8) : 4 ^ i ≤ 4 ^ 7 := Nat.pow_le_pow_right (by omega) (by omega)

/-- `decompress` on arguments in range. -/
theorem decompress_eq {e m : U8} (he : e.toNat < 8) (hm : m.toNat < 32) :
    decompress e m = .ok (BitVec.ofNat 32 (m.toNat * 4 ^ e.toNat)) ∧
      (BitVec.ofNat 32 (m.toNat * 4 ^ e.toNat)).toNat = m.toNat * 4 ^ e.toNat := by
  have hp := pow4_le he
  have hlt : 4 ^ e.toNat * m.toNat < 2 ^ 32 :=
    Nat.lt_of_le_of_lt (Nat.mul_le_mul hp (Nat.le_of_lt_succ hm)) (by decide)
  constructor
  · rw [decompress, if_neg (by rw [and_high3]; omega), if_neg (by rw [and_high5]; omega)]
    show (if 4 ^ e.toNat * m.toNat < 2 ^ 32 then _ else _) = _
    rw [if_pos hlt, Nat.mul_comm]
  · rw [BitVec.toNat_ofNat, Nat.mul_comm, Nat.mod_eq_of_lt hlt]

theorem compressible_le {n : Nat} (h : Spec.Compressible n) : n ≤ 507904 := by
  obtain ⟨e, he, m, hm, rfl⟩ := h
  have hp := pow4_le he
  exact Nat.le_trans (Nat.mul_le_mul (Nat.le_of_lt_succ hm) hp) (by decide)

/-- The smallest exponent divides a representable number. -/
theorem compressible_dvd {v e m i : Nat} (hm : m < 32) (hv : v = m * 4 ^ e)
    (hmin : ∀ j, j < i → 31 * 4 ^ j < v) : i ≤ e := by
  rcases Nat.lt_or_ge e i with h | h
  · have := hmin e h
    rw [hv] at this
    have := Nat.lt_of_mul_lt_mul_right this
    omega
  · exact h

theorem write_eq {v : VarInt} (h : v.WF) :
    ∃ i m : U8, i.toNat < 8 ∧ m.toNat < 32 ∧ m.toNat * 4 ^ i.toNat = v.value.toNat ∧
      v.write = W.seq [W.uint 3 i, W.uint 5 m] := by
  obtain ⟨hc, hcomp⟩ := h
  obtain ⟨i, hi, hle, hmin, heq⟩ := compress_eq v.value v.ceil (compressible_le hcomp)
  obtain ⟨e, he, m, hm, hv⟩ := hcomp
  have hie := compressible_dvd hm hv hmin
  have hdvd : 4 ^ i ∣ v.value.toNat := by
    rw [hv]; exact Nat.dvd_mul_left_of_dvd (Nat.pow_dvd_pow 4 hie) m
  have hpos : 0 < 4 ^ i := Nat.pow_pos (by omega)
  have hdiv : v.value.toNat / 4 ^ i < 32 := by
    have := Nat.div_le_of_le_mul (Nat.mul_comm 31 (4 ^ i) ▸ hle)
    omega
  rw [if_neg (by simp [hc]), Nat.add_zero] at heq
  have hi8 : (BitVec.ofNat 8 i).toNat = i := by
    rw [BitVec.toNat_ofNat]; exact Nat.mod_eq_of_lt (by omega)
  have hm8 : (BitVec.ofNat 8 (v.value.toNat / 4 ^ i)).toNat = v.value.toNat / 4 ^ i := by
    rw [BitVec.toNat_ofNat]; exact Nat.mod_eq_of_lt (by omega)
  refine ⟨BitVec.ofNat 8 i, BitVec.ofNat 8 (v.value.toNat / 4 ^ i), by omega, by omega, ?_, ?_⟩
  · rw [hi8, hm8]; exact Nat.div_mul_cancel hdvd
  · rw [write, heq]

theorem rt {v : VarInt} (h : v.WF) : RT VarInt.read v.write v := by
  obtain ⟨i, m, hi, hm, hv, hw⟩ := write_eq h
  rw [hw, read]
  refine RT.cons (RT.uint (by omega) (by simpa using hi)) ?_
  refine RT.cons (RT.uint (by omega) (by simpa using hm)) ?_
  rw [(decompress_eq hi hm).1]
  have : (⟨BitVec.ofNat 32 (m.toNat * 4 ^ i.toNat), false⟩ : VarInt) = v := by
    cases v with
    | mk val c =>
      obtain ⟨rfl, -⟩ := h
      rw [hv]; simp
  show RT (P.pure _) _ _
  rw [this]
  exact RT.pure _

theorem post : Post VarInt.read (fun v n => v.WF ∧ n = 8) := by
  refine Post.bind Post.uint fun e n1 ⟨h1, _, he, _⟩ => ?_
  refine Post.bind Post.uint fun m n2 ⟨h2, _, hm, _⟩ => ?_
  have he' : e.toNat < 8 := by simpa using he
  have hm' : m.toNat < 32 := by simpa using hm
  rw [(decompress_eq he' hm').1]
  refine Post.pure ⟨⟨rfl, e.toNat, he', m.toNat, hm', (decompress_eq he' hm').2⟩, by omega⟩

end VarInt

/-! ## Length -/

namespace Length

/-- Number of extra bytes by size class. -/
theorem extraBytes_eq (v : U32) : extraBytes v =
    if v.toNat < 2 ^ 6 then 0 else if v.toNat < 2 ^ 14 then 1 else if v.toNat < 2 ^ 22 then 2
    else if v.toNat < 2 ^ 30 then 3 else 4 := by
  have h32 := v.isLt
  have key : ∀ k, v.toNat < 2 ^ (k + 1) → Nat.log2 v.toNat ≤ k := by
    intro k hk
    rcases Nat.eq_zero_or_pos v.toNat with h0 | h0
    · rw [h0]; simp
    · exact Nat.le_of_lt_succ ((Nat.log2_lt (by omega)).mpr hk)
  have key2 : ∀ k, 2 ^ k ≤ v.toNat → k ≤ Nat.log2 v.toNat := by
    intro k hk
    exact (Nat.le_log2 (by have := Nat.two_pow_pos k; omega)).mpr hk
  unfold extraBytes requiredBits
  generalize Nat.log2 v.toNat = L at key key2
  by_cases c1 : v.toNat < 2 ^ 6
  · have := key 5 c1
    rw [if_pos c1, show L + 1 - 6 = 0 by omega]; rfl
  rw [if_neg c1]
  by_cases c2 : v.toNat < 2 ^ 14
  · have := key 13 c2; have := key2 6 (by omega)
    rw [if_pos c2]; simp only; split <;> omega
  rw [if_neg c2]
  by_cases c3 : v.toNat < 2 ^ 22
  · have := key 21 c3; have := key2 14 (by omega)
    rw [if_pos c3]; simp only; split <;> omega
  rw [if_neg c3]
  by_cases c4 : v.toNat < 2 ^ 30
  · have := key 29 c4; have := key2 22 (by omega)
    rw [if_pos c4]; simp only; split <;> omega
  · have := key 31 h32; have := key2 30 (by omega)
    rw [if_neg c4]; simp only; split <;> omega

theorem extraBytes_lt {v : U32} (h : v.toNat < 2 ^ 30) :
    extraBytes v < 4 ∧ v.toNat < 2 ^ (6 + extraBytes v * 8) := by
  rw [extraBytes_eq]
  constructor
  · split
    · omega
    split
    · omega
    split <;> first | omega | simp [h]
  · split
    · simpa
    split
    · simpa
    split
    · simpa
    exact h

theorem rt {l : Length} (h : l.WF) : RT Length.read l.write l := by
  have h30 : l.val.toNat < 2 ^ 30 := h
  obtain ⟨h1, h2⟩ := extraBytes_lt h30
  have hs : (BitVec.ofNat 8 (extraBytes l.val)).toNat = extraBytes l.val := by
    rw [BitVec.toNat_ofNat]; exact Nat.mod_eq_of_lt (by omega)
  have e1 : W.uint 2 (BitVec.ofNat 32 (extraBytes l.val)) =
      W.uint 2 (BitVec.ofNat 8 (extraBytes l.val)) := by
    unfold W.uint
    simp only [BitVec.toNat_ofNat]
    rw [Nat.mod_eq_of_lt (by omega), Nat.mod_eq_of_lt (by omega)]
    simp
  rw [write, e1, read]
  refine RT.cons (a := BitVec.ofNat 8 (extraBytes l.val)) (RT.uint (by omega) (by omega)) ?_
  rw [hs]
  refine RT.cons (RT.uint (by omega) h2) ?_
  exact RT.pure _

/-- Bits a length operand occupies. -/
theorem write_len {l : Length} (h : l.WF) : LenLe l.write (8 * (1 + extraBytes l.val)) := by
  have h30 : l.val.toNat < 2 ^ 30 := h
  obtain ⟨h1, h2⟩ := extraBytes_lt h30
  refine ⟨natBits 2 (extraBytes l.val) ++ natBits (6 + extraBytes l.val * 8) l.val.toNat, ?_, by simp; omega⟩
  have e1 : W.uint 2 (BitVec.ofNat 32 (extraBytes l.val)) = .ok (natBits 2 (extraBytes l.val)) := by
    rw [W.uint, if_neg (by omega), BitVec.toNat_ofNat, Nat.mod_eq_of_lt (by omega)]
  have e2 : W.uint (6 + extraBytes l.val * 8) l.val =
      .ok (natBits (6 + extraBytes l.val * 8) l.val.toNat) := by
    rw [W.uint, if_neg (by omega)]
  simp [write, e1, e2, W.seq]

/-- The size class is the smallest that can hold the value. -/
theorem extraBytes_le {v : U32} {k : Nat} (h : v.toNat < 2 ^ (6 + k * 8)) (hk : k < 4) :
    extraBytes v ≤ k := by
  rw [extraBytes_eq]
  obtain rfl | rfl | rfl | rfl : k = 0 ∨ k = 1 ∨ k = 2 ∨ k = 3 := by omega
  · simp at h; simp [h]
  · simp at h; split <;> simp [*]
  · simp at h; split
    · omega
    split <;> simp [*]
  · simp at h; split
    · omega
    split
    · omega
    split <;> simp [*]

/-- Post-condition keeping the number of extra bytes read. -/
theorem post' : Post Length.read
    (fun l n => l.WF ∧ LenLe l.write n ∧ ∃ k, k < 4 ∧ n = 8 * (1 + k)) := by
  refine Post.bind Post.uint fun s n1 ⟨h1, _, hs, _⟩ => ?_
  refine Post.bind Post.uint fun v n2 ⟨h2, _, hv, _⟩ => ?_
  have hs4 : s.toNat < 4 := by simpa using hs
  have h30 : v.toNat < 2 ^ 30 :=
    Nat.lt_of_lt_of_le hv (Nat.pow_le_pow_right (by omega) (by omega))
  have hwf : Length.WF ⟨v⟩ := h30
  refine Post.pure ⟨hwf, (write_len hwf).mono ?_, s.toNat, hs4, by omega⟩
  have := extraBytes_le hv hs4
  show 8 * (1 + extraBytes v) ≤ _
  omega

theorem post : Post Length.read (fun l n => (l.WF ∧ 8 ∣ n) ∧ LenLe l.write n) :=
  post'.mono fun _ _ ⟨h1, h2, k, _, h3⟩ => ⟨⟨h1, ⟨1 + k, h3⟩⟩, h2⟩

theorem ofUsize_toNat {n : Nat} (h : n < 2 ^ 30) : (ofUsize n).val.toNat = n := by
  rw [ofUsize, BitVec.toNat_ofNat]; exact Nat.mod_eq_of_lt (by omega)

theorem ofUsize_wf {n : Nat} (h : n < 2 ^ 30) : (ofUsize n).WF := by
  show (ofUsize n).val.toNat < 2 ^ 30
  rw [ofUsize_toNat h]; exact h

end Length

end Dash7
