import Verif.Model.Messages
import Verif.Lemmas.Debug
import Verif.Props.Numbers

/-!
# C92: what the error for a number out of range says
-/

namespace Dash7

/-- A text that gives a name to a number and says which is the largest: words without digits, the number, `. Max: ` and the
largest, in decimal. -/
def Spec.names (text what : String) (number largest : Nat) : Prop :=
  (∀ c ∈ what.toList, c.isDigit = false) ∧ text = what ++ toString number ++ ". Max: " ++ toString largest

/-- The numbers and the words can be told from the text. -/
theorem Spec.names_unique {text what what' : String} {n n' m m' : Nat} (h : Spec.names text what n m)
    (h' : Spec.names text what' n' m') : what = what' ∧ n = n' ∧ m = m' := by
  obtain ⟨hw, rfl⟩ := h
  obtain ⟨hw', e⟩ := h'
  have e := congrArg String.toList e
  simp only [String.toList_append, List.append_assoc] at e
  obtain ⟨c, r, hd, hc⟩ := Dbg.digits_head n
  obtain ⟨c', r', hd', hc'⟩ := Dbg.digits_head n'
  have key : ∀ (a b x y : List Char), (∀ c ∈ a, c.isDigit = false) → (∀ c ∈ b, c.isDigit = false) →
      (∃ c r, x = c :: r ∧ c.isDigit = true) → (∃ c r, y = c :: r ∧ c.isDigit = true) → a ++ x = b ++ y →
      a = b ∧ x = y := by
    intro a
    induction a with
    | nil =>
      rintro (_ | ⟨d, b⟩) x y ha hb ⟨c, r, rfl, hc⟩ hy e
      · exact ⟨rfl, e⟩
      · rw [List.nil_append, List.cons_append] at e
        injection e with e1 e2
        rw [e1, hb d (by simp)] at hc; cases hc
    | cons d a ih =>
      rintro (_ | ⟨d', b⟩) x y ha hb hx ⟨c, r, rfl, hc⟩ e
      · rw [List.nil_append, List.cons_append] at e
        injection e with e1 e2
        rw [← e1, ha d (by simp)] at hc; cases hc
      · rw [List.cons_append, List.cons_append] at e
        injection e with e1 e2
        obtain ⟨h1, h2⟩ := ih b x _ (fun c h => ha c (by simp [h])) (fun c h => hb c (by simp [h])) hx ⟨c, r, rfl, hc⟩ e2
        exact ⟨by rw [e1, h1], h2⟩
  obtain ⟨h1, h2⟩ := key _ _ _ _ hw hw'
    ⟨c, _, by rw [show (toString n : String).toList = c :: r from (Debug.nat_toList n).trans hd]; rfl, hc⟩
    ⟨c', _, by rw [show (toString n' : String).toList = c' :: r' from (Debug.nat_toList n').trans hd']; rfl, hc'⟩ e
  obtain ⟨h3, h4⟩ := Debug.nat_tok n n' _ _ (Stop.lit _ _) (Stop.lit _ _) h2
  obtain ⟨h5, -⟩ := Debug.nat_tok m m' [] [] (by intro c hc; cases hc) (by intro c hc; cases hc)
    (by simpa [Debug.nat_toList] using List.append_cancel_left h4)
  exact ⟨String.toList_inj.1 h1, h3, h5⟩

/-! ## C92 -/

/-- **C92** for `VarInt::new` and `VarInt::compress`: the message names the number handed over and the largest one that
would have been taken. -/
theorem C92_value_partial (v : U32) (ceil : Bool) :
    (∀ e, VarInt.new v ceil = .error e → ∃ text largest, e.message = some text ∧
      Spec.names text "VarInt: Value too large: " v.toNat largest ∧
      ∀ u ceil', (VarInt.new u ceil').isOk = true ↔ u.toNat ≤ largest) ∧
    ∀ e, VarInt.compress v ceil = .error e → ∃ text largest, e.message = some text ∧
      Spec.names text "VarInt: Value too large: " v.toNat largest ∧
      ∀ u ceil', (VarInt.compress u ceil').isOk = true ↔ u.toNat ≤ largest := by
  have names : ∀ u : U32, Spec.names ("VarInt: Value too large: " ++ toString u.toNat ++ ". Max: " ++ toString 507904)
      "VarInt: Value too large: " u.toNat 507904 := fun u => ⟨by decide, rfl⟩
  constructor
  · intro e he
    refine ⟨_, 507904, ?_, names v, fun u ceil' => ?_⟩
    · obtain ⟨h1, h2⟩ := C12_range v ceil
      by_cases h : v.toNat ≤ 507904
      · rw [(h1 h).1] at he; cases he
      · rw [(h2 (by omega)).1] at he; cases he; rfl
    · obtain ⟨h1, h2⟩ := C12_range u ceil'
      by_cases h : u.toNat ≤ 507904
      · rw [(h1 h).1]; simp [Except.isOk, Except.toBool, h]
      · rw [(h2 (by omega)).1]; simp [Except.isOk, Except.toBool, h]
  · intro e he
    refine ⟨_, 507904, ?_, names v, fun u ceil' => ?_⟩
    · rw [C12_errors v ceil e he]; rfl
    · obtain ⟨h1, h2⟩ := C12_range u ceil'
      by_cases h : u.toNat ≤ 507904
      · obtain ⟨p, hp⟩ := (h1 h).2
        rw [hp]; simp [Except.isOk, Except.toBool, h]
      · rw [(h2 (by omega)).2]; simp [Except.isOk, Except.toBool, h]

/-- **C92** fails for `VarInt::decompress` and every exponent out of range: the message says that 1 is the largest exponent,
which is 7. -/
theorem C92_exponent_violates (e m : U8) (he : 7 < e.toNat) : ∃ er text, VarInt.decompress e m = .error er ∧
    er.message = some text ∧ Spec.names text "VarInt: Exponent too large " e.toNat 1 ∧
    ∀ e' m' : U8, m'.toNat ≤ 31 → ((VarInt.decompress e' m').isOk = true ↔ e'.toNat ≤ 7) := by
  refine ⟨_, _, (C13_decompress_partial e m).2.1 he, rfl, ⟨by decide, rfl⟩, fun e' m' hm => ?_⟩
  obtain ⟨h1, h2, -⟩ := C13_decompress_partial e' m'
  by_cases h : e'.toNat ≤ 7
  · obtain ⟨d, hd, -⟩ := h1 ⟨h, hm⟩
    rw [hd]; simp [Except.isOk, Except.toBool, h]
  · rw [h2 (by omega)]; simp [Except.isOk, Except.toBool, h]

/-- **C92** fails for `VarInt::decompress` and every mantissa out of range: the message calls it an exponent and says that 1
is the largest; the largest mantissa is 31. -/
theorem C92_mantissa_violates (e m : U8) (he : e.toNat ≤ 7) (hm : 31 < m.toNat) : ∃ er text,
    VarInt.decompress e m = .error er ∧ er.message = some text ∧
    Spec.names text "VarInt: Exponent too large " m.toNat 1 ∧
    ∀ e' m' : U8, e'.toNat ≤ 7 → ((VarInt.decompress e' m').isOk = true ↔ m'.toNat ≤ 31) := by
  refine ⟨_, _, C13_error_violates e m he hm, rfl, ⟨by decide, rfl⟩, fun e' m' he' => ?_⟩
  obtain ⟨h1, -, h2⟩ := C13_decompress_partial e' m'
  by_cases h : m'.toNat ≤ 31
  · obtain ⟨d, hd, -⟩ := h1 ⟨he', h⟩
    rw [hd]; simp [Except.isOk, Except.toBool, h]
  · obtain ⟨er, h2⟩ := h2 (by omega)
    rw [h2]; simp [Except.isOk, Except.toBool, h]

/-- **C92** fails for the error meant for a mantissa out of range, too, which none of the functions returns but a caller may
make: it says that 7 is the largest; the largest mantissa is 31. -/
theorem C92_unused_violates (m : U8) : ∃ text, (VarIntError.mantissaTooLarge m).message = some text ∧
    Spec.names text "VarInt: Mantissa too large " m.toNat 7 ∧
    ∀ e' m' : U8, e'.toNat ≤ 7 → ((VarInt.decompress e' m').isOk = true ↔ m'.toNat ≤ 31) := by
  refine ⟨_, rfl, ⟨by decide, rfl⟩, ?_⟩
  obtain ⟨-, -, -, -, -, h⟩ := C92_mantissa_violates 0 40 (by decide) (by decide)
  exact h

/-- **C92** The number handed over is always named, whichever of the functions refuses it. -/
theorem C92_number (v : U32) (ceil : Bool) (e m : U8) :
    (∀ er, VarInt.new v ceil = .error er → ∃ text what largest, er.message = some text ∧ Spec.names text what v.toNat largest) ∧
    (∀ er, VarInt.compress v ceil = .error er →
      ∃ text what largest, er.message = some text ∧ Spec.names text what v.toNat largest) ∧
    ∀ er, VarInt.decompress e m = .error er → ∃ text what largest, er.message = some text ∧
      Spec.names text what (if 7 < e.toNat then e.toNat else m.toNat) largest := by
  obtain ⟨h1, h2⟩ := C92_value_partial v ceil
  refine ⟨fun er h => ?_, fun er h => ?_, fun er h => ?_⟩
  · obtain ⟨t, l, h3, h4, -⟩ := h1 er h; exact ⟨t, _, l, h3, h4⟩
  · obtain ⟨t, l, h3, h4, -⟩ := h2 er h; exact ⟨t, _, l, h3, h4⟩
  · by_cases h7 : 7 < e.toNat
    · obtain ⟨er', t, h3, h4, h5, -⟩ := C92_exponent_violates e m h7
      rw [h] at h3; cases h3
      rw [if_pos h7]; exact ⟨t, _, _, h4, h5⟩
    · rw [if_neg h7]
      by_cases h31 : 31 < m.toNat
      · obtain ⟨er', t, h3, h4, h5, -⟩ := C92_mantissa_violates e m (by omega) h31
        rw [h] at h3; cases h3
        exact ⟨t, _, _, h4, h5⟩
      · obtain ⟨d, hd, -⟩ := (C13_decompress_partial e m).1 ⟨by omega, by omega⟩
        rw [h] at hd; cases hd

/-- The three messages: for 600000, for the exponent 9, and for the mantissa 40 beside the exponent 3. -/
example : (match VarInt.new 600000 false with | .error e => e.message | .ok _ => none) =
      some "VarInt: Value too large: 600000. Max: 507904" ∧
    (match VarInt.decompress 9 0 with | .error e => e.message | .ok _ => none) =
      some "VarInt: Exponent too large 9. Max: 1" ∧
    (match VarInt.decompress 3 40 with | .error e => e.message | .ok _ => none) =
      some "VarInt: Exponent too large 40. Max: 1" ∧
    VarInt.decompress 7 31 = .ok 507904 := by decide +kernel

end Dash7

#print axioms Dash7.C92_value_partial
#print axioms Dash7.C92_exponent_violates
#print axioms Dash7.C92_mantissa_violates
#print axioms Dash7.C92_number
#print axioms Dash7.C92_unused_violates
