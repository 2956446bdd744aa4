import Verif.Props.Numbers

/-!
# C83: compressed numbers keep their order
-/

namespace Dash7

theorem varInt_byte (b : U8) : derivedTryFrom VarInt.read.run [b] = .ok ⟨BitVec.ofNat 32 (Spec.varIntValue b), false⟩ := by
  revert b
  decide +kernel

/-- What is received of a number: mantissa and exponent of the smallest exponent that will do. -/
theorem varInt_sent {v : U32} {c : Bool} {b : U8} {x : VarInt} (hv : (VarInt.mk v c).write.toBytes = .ok [b])
    (hx : derivedTryFrom VarInt.read.run [b] = .ok x) :
    ∃ i m, i < 8 ∧ m < 32 ∧ (∀ j, j < i → 31 * 4 ^ j < v.toNat) ∧ v.toNat ≤ 31 * 4 ^ i ∧
      m = v.toNat / 4 ^ i + (if c = true ∧ v.toNat % 4 ^ i > 0 then 1 else 0) ∧ x.value.toNat = m * 4 ^ i ∧
      v.toNat ≤ 507904 ∧
      ∃ e m d, VarInt.compress v c = .ok (e, m) ∧ VarInt.decompress e m = .ok d ∧ d.toNat = x.value.toNat := by
  rcases Nat.lt_or_ge 507904 v.toNat with h | h
  · rw [VarInt.write, (C12_range v c).2 h |>.2] at hv
    cases hv
  obtain ⟨i, m, d, hi, hm, hmin, hle, hmeq, hc, hi8, hm8, hd, hdn⟩ := VarInt.compress_spec v c h
  suffices hs : x.value.toNat = m * 4 ^ i from
    ⟨i, m, hi, hm, hmin, hle, hmeq, hs, h, _, _, d, hc, hd, by rw [hs, hdn]⟩
  rw [VarInt.write_byte v h _ _ c hc, hi8, hm8] at hv
  cases hv
  rw [varInt_byte] at hx
  cases hx
  show (BitVec.ofNat 32 _).toNat = _
  have h1 : (Spec.varIntByte i m).toNat = i * 32 + m := by
    unfold Spec.varIntByte
    rw [BitVec.toNat_ofNat]
    exact Nat.mod_eq_of_lt (by omega)
  have hp := VarInt.pow4_le (i := i) (by omega)
  have := Nat.mul_le_mul (show m ≤ 31 by omega) hp
  rw [Spec.varIntValue, h1, show (i * 32 + m) % 32 = m by omega, show (i * 32 + m) / 32 = i by omega,
    BitVec.toNat_ofNat]
  exact Nat.mod_eq_of_lt (Nat.lt_of_le_of_lt this (by decide))

/-- What is received of a number rounded down, with the bound of the next smaller exponent. -/
theorem varInt_down {v : U32} {b : U8} {x : VarInt} (hv : (VarInt.mk v false).write.toBytes = .ok [b])
    (hx : derivedTryFrom VarInt.read.run [b] = .ok x) :
    ∃ i, i < 8 ∧ (∀ j, j < i → 31 * 4 ^ j < v.toNat) ∧ v.toNat ≤ 31 * 4 ^ i ∧
      x.value.toNat = v.toNat / 4 ^ i * 4 ^ i := by
  obtain ⟨i, m, hi, -, h1, h2, hm, h3, -⟩ := varInt_sent hv hx
  rw [if_neg (by simp), Nat.add_zero] at hm
  exact ⟨i, hi, h1, h2, by rw [h3, hm]⟩

theorem varInt_up {v : U32} {b : U8} {x : VarInt} (hv : (VarInt.mk v true).write.toBytes = .ok [b])
    (hx : derivedTryFrom VarInt.read.run [b] = .ok x) : Spec.RoundsUp v.toNat x.value.toNat := by
  obtain ⟨-, -, -, -, -, -, -, -, hle, e, m, d, hc, hd, h⟩ := varInt_sent hv hx
  obtain ⟨e', m', d', hc', hd', hr⟩ := C11_rounds_up v hle
  rw [hc] at hc'
  cases hc'
  rw [hd] at hd'
  cases hd'
  rw [← h]
  exact hr

/-- **C83** Rounded up, numbers keep their order: of the larger one, no smaller one is received. -/
theorem C83_up (v w : U32) (b b' : U8) (x y : VarInt) (h : v.toNat ≤ w.toNat)
    (hv : (VarInt.mk v true).write.toBytes = .ok [b]) (hx : derivedTryFrom VarInt.read.run [b] = .ok x)
    (hw : (VarInt.mk w true).write.toBytes = .ok [b']) (hy : derivedTryFrom VarInt.read.run [b'] = .ok y) :
    x.value.toNat ≤ y.value.toNat := by
  obtain ⟨-, -, hmax⟩ := varInt_up hv hx
  obtain ⟨hr, hle, -⟩ := varInt_up hw hy
  exact hmax _ hr (Nat.le_trans h hle)

/-- **C83** Rounded down, of the larger number a smaller one is received exactly if the larger one lies
between 31 and 32 times a power of 4 and the smaller one between 29 and 31 times that power. -/
theorem C83_down_partial (v w : U32) (b b' : U8) (x y : VarInt) (h : v.toNat ≤ w.toNat)
    (hv : (VarInt.mk v false).write.toBytes = .ok [b]) (hx : derivedTryFrom VarInt.read.run [b] = .ok x)
    (hw : (VarInt.mk w false).write.toBytes = .ok [b']) (hy : derivedTryFrom VarInt.read.run [b'] = .ok y) :
    y.value.toNat < x.value.toNat ↔
      ∃ k, k < 7 ∧ 29 * 4 ^ k ≤ v.toNat ∧ v.toNat ≤ 31 * 4 ^ k ∧ 31 * 4 ^ k < w.toNat ∧ w.toNat < 32 * 4 ^ k := by
  obtain ⟨i, hi, hmin, hle, hxe⟩ := varInt_down hv hx
  obtain ⟨i', hi', hmin', hle', hye⟩ := varInt_down hw hy
  have hpos : 0 < 4 ^ i := Nat.pow_pos (by omega)
  have mono : ∀ {p q : Nat}, p ≤ q → 31 * 4 ^ p ≤ 31 * 4 ^ q := fun h =>
    Nat.mul_le_mul_left 31 (Nat.pow_le_pow_right (by omega) h)
  have hii : i ≤ i' := by
    rcases Nat.lt_or_ge i' i with h' | h'
    · have := hmin i' h'
      omega
    · exact h'
  -- the only power in question is the one below that of the larger number
  have only : ∀ k, 31 * 4 ^ k < w.toNat → w.toNat < 32 * 4 ^ k → i' = k + 1 := by
    intro k h1 h2
    have a : k < i' := by
      rcases Nat.lt_or_ge k i' with h | h
      · exact h
      · have := mono h
        omega
    rcases Nat.lt_or_ge (k + 1) i' with h | h
    · have := hmin' (k + 1) h
      rw [Nat.pow_succ] at this
      omega
    · omega
  rcases Nat.eq_or_lt_of_le hii with he | hlt
  · -- the same exponent
    subst he
    have h1 : x.value.toNat ≤ y.value.toNat := by
      rw [hxe, hye]
      exact Nat.mul_le_mul_right _ (Nat.div_le_div_right h)
    refine ⟨fun h2 => absurd h2 (by omega), ?_⟩
    rintro ⟨k, hk, -, h3, h4, h5⟩
    have := only k h4 h5
    have := hmin k (by omega)
    omega
  · obtain ⟨k, rfl⟩ : ∃ k, i' = k + 1 := ⟨i' - 1, by omega⟩
    have hk := hmin' k (by omega)
    have hvk : v.toNat ≤ 31 * 4 ^ k := Nat.le_trans hle (mono (by omega))
    have hp : 4 ^ (k + 1) = 4 * 4 ^ k := by rw [Nat.pow_succ, Nat.mul_comm]
    have hkp : 0 < 4 ^ k := Nat.pow_pos (by omega)
    have hxv : x.value.toNat ≤ v.toNat := by rw [hxe]; exact Nat.div_mul_le_self _ _
    rcases Nat.lt_or_ge w.toNat (32 * 4 ^ k) with hg | hg
    · have hy7 : y.value.toNat = 28 * 4 ^ k := by
        have : w.toNat / 4 ^ (k + 1) = 7 := by
          rw [hp]
          apply Nat.div_eq_of_lt_le <;> omega
        rw [hye, this, hp]
        omega
      have hiff : 28 * 4 ^ k < x.value.toNat ↔ 29 * 4 ^ k ≤ v.toNat := by
        rcases Nat.eq_or_lt_of_le (show i ≤ k by omega) with he | hlt'
        · subst he
          rw [hxe]
          rw [← Nat.le_div_iff_mul_le hpos]
          constructor
          · intro h1
            have := Nat.lt_of_mul_lt_mul_right h1
            omega
          · intro h1
            have := Nat.mul_le_mul_right (4 ^ i) h1
            omega
        · obtain ⟨j, rfl⟩ : ∃ j, k = j + 1 := ⟨k - 1, by omega⟩
          have h1 := mono (show i ≤ j by omega)
          have h2 : 4 ^ (j + 1) = 4 * 4 ^ j := by rw [Nat.pow_succ, Nat.mul_comm]
          omega
      rw [hy7, hiff]
      refine ⟨fun h1 => ⟨k, by omega, h1, hvk, hk, hg⟩, ?_⟩
      rintro ⟨k', hk', h1, -, h4, h5⟩
      have := only k' h4 h5
      obtain rfl : k = k' := by omega
      exact h1
    · have hy8 : 32 * 4 ^ k ≤ y.value.toNat := by
        have : 8 ≤ w.toNat / 4 ^ (k + 1) := by
          rw [Nat.le_div_iff_mul_le (by omega), hp]
          omega
        have := Nat.mul_le_mul_right (4 ^ (k + 1)) this
        rw [hye]
        omega
      refine ⟨fun h1 => absurd h1 (by omega), ?_⟩
      rintro ⟨k', hk', h1, -, h4, h5⟩
      have := only k' h4 h5
      obtain rfl : k = k' := by omega
      omega

/-- **C83** 125 is sent as 112, though 124 is sent as it is: longer times can be sent as shorter ones. -/
theorem C83_down_violates :
    ¬ ∀ (v w : U32) (b b' : U8) (x y : VarInt), v.toNat ≤ w.toNat →
      (VarInt.mk v false).write.toBytes = .ok [b] → derivedTryFrom VarInt.read.run [b] = .ok x →
      (VarInt.mk w false).write.toBytes = .ok [b'] → derivedTryFrom VarInt.read.run [b'] = .ok y →
      x.value.toNat ≤ y.value.toNat := fun h =>
  absurd (h 124 125 0x3f 0x47 ⟨124, false⟩ ⟨112, false⟩ (by decide) (by decide +kernel) (by decide +kernel)
    (by decide +kernel) (by decide +kernel)) (by decide)

/-- **C83** Numbers made with `From<u32>` are rounded down: longer times made so are received as shorter ones wherever
C83_down_partial says. So are numbers that were received, and the default. -/
theorem C83_from_violates (k : Nat) (hk : k < 7) (v w : U32) (hv : 29 * 4 ^ k ≤ v.toNat ∧ v.toNat ≤ 31 * 4 ^ k)
    (hw : 31 * 4 ^ k < w.toNat ∧ w.toNat < 32 * 4 ^ k) :
    (∀ (b b' : U8) (x y : VarInt), (VarInt.ofU32 v).write.toBytes = .ok [b] → derivedTryFrom VarInt.read.run [b] = .ok x →
      (VarInt.ofU32 w).write.toBytes = .ok [b'] → derivedTryFrom VarInt.read.run [b'] = .ok y →
      v.toNat < w.toNat ∧ y.value.toNat < x.value.toNat) ∧
    (∀ (b : U8) (x : VarInt), derivedTryFrom VarInt.read.run [b] = .ok x → x.ceil = false) ∧
    VarInt.default.ceil = false := by
  refine ⟨fun b b' x y h1 h2 h3 h4 => ⟨by omega, ?_⟩, ?_, rfl⟩
  · exact (C83_down_partial v w b b' x y (by omega) h1 h2 h3 h4).2 ⟨k, hk, hv.1, hv.2, hw.1, hw.2⟩
  · have h : ∀ b : U8, (match derivedTryFrom VarInt.read.run [b] with
        | .ok x => x.ceil
        | .error _ => false) = false := by decide +kernel
    intro b x hx
    have := h b
    rwa [hx] at this

/-- 2000 seconds are received as shorter than 1900 seconds are. -/
example : 29 * 4 ^ 3 ≤ (1900 : U32).toNat ∧ (1900 : U32).toNat ≤ 31 * 4 ^ 3 ∧ 31 * 4 ^ 3 < (2000 : U32).toNat ∧
    (2000 : U32).toNat < 32 * 4 ^ 3 ∧ (VarInt.ofU32 1900).write.toBytes = .ok [0x7D] ∧
    (VarInt.ofU32 2000).write.toBytes = .ok [0x87] := by decide +kernel

/-- **C83** Rounded down a number is never received larger, rounded up never smaller; both are received
as they are exactly if they are equal to a multiple of a power of 4 less than 32, of exponent at most 7. -/
theorem C83_between (v : U32) (b b' : U8) (x y : VarInt)
    (hv : (VarInt.mk v false).write.toBytes = .ok [b]) (hx : derivedTryFrom VarInt.read.run [b] = .ok x)
    (hw : (VarInt.mk v true).write.toBytes = .ok [b']) (hy : derivedTryFrom VarInt.read.run [b'] = .ok y) :
    x.value.toNat ≤ v.toNat ∧ v.toNat ≤ y.value.toNat ∧
      (x.value = y.value ↔ Spec.Compressible v.toNat) := by
  obtain ⟨hr, hle, hmax⟩ := varInt_up hw hy
  obtain ⟨i, hi, hmin, -, hxe⟩ := varInt_down hv hx
  have hxv : x.value.toNat ≤ v.toNat := by rw [hxe]; exact Nat.div_mul_le_self _ _
  refine ⟨hxv, hle, ?_, ?_⟩
  · intro he
    have : v.toNat = y.value.toNat := by rw [he] at hxv; omega
    rw [this]
    exact hr
  · intro hcv
    have hy' := hmax _ hcv (Nat.le_refl _)
    apply BitVec.eq_of_toNat_eq
    obtain ⟨e, he, m, hm, hv'⟩ := hcv
    have hdvd : 4 ^ i ∣ v.toNat := by
      rw [hv']
      exact Nat.dvd_mul_left_of_dvd (Nat.pow_dvd_pow 4 (VarInt.compressible_dvd hm hv' hmin)) m
    rw [hxe, Nat.div_mul_cancel hdvd]
    omega

/-- 497 and 500 (seconds, say), rounded up. -/
example : (VarInt.mk 497 true).write.toBytes = .ok [0x68] ∧
    derivedTryFrom VarInt.read.run [0x68] = .ok ⟨512, false⟩ ∧
    (VarInt.mk 493 true).write.toBytes = .ok [0x5F] ∧
    derivedTryFrom VarInt.read.run [0x5F] = .ok ⟨496, false⟩ := by decide +kernel

/-- Rounded down, of 480 seconds 480 are left, of 500 only 448. -/
example : (VarInt.mk 480 false).write.toBytes = .ok [0x5E] ∧
    derivedTryFrom VarInt.read.run [0x5E] = .ok ⟨480, false⟩ ∧
    (VarInt.mk 500 false).write.toBytes = .ok [0x67] ∧
    derivedTryFrom VarInt.read.run [0x67] = .ok ⟨448, false⟩ ∧
    (29 * 4 ^ 2 ≤ 480 ∧ 480 ≤ 31 * 4 ^ 2 ∧ 31 * 4 ^ 2 < 500 ∧ 500 < 32 * 4 ^ 2) := by decide +kernel

#print axioms C83_up
#print axioms C83_down_partial
#print axioms C83_down_violates
#print axioms C83_between
#print axioms C83_from_violates

end Dash7
