import Verif.Spec.Alike
import Verif.Lemmas.Flip

/-!
# Changing any bits of a form
-/

namespace Dash7

open Alike (heed skip Same)

namespace Alike.Same

theorem append {m n : List Mark} {c d c' d' : List Bool} (hc : c.length = m.length) (hd : d.length = m.length)
    (room : ∀ i : Nat, m[i]? = some Mark.number → i + 8 ≤ m.length) :
    Same (m ++ n) (c ++ c') (d ++ d') ↔ Same m c d ∧ Same n c' d' := by
  have left : ∀ (x y : List Bool) (i : Nat), i + 8 ≤ x.length → ((x ++ y).drop i).take 8 = (x.drop i).take 8 := by
    intro x y i h
    rw [List.drop_append_of_le_length (by omega), List.take_append_of_le_length (by rw [List.length_drop]; omega)]
  have right : ∀ (x y : List Bool) (i : Nat), (x ++ y).drop (x.length + i) = y.drop i := by
    intro x y i
    rw [List.drop_append, List.drop_eq_nil_of_le (by omega), List.nil_append, Nat.add_sub_cancel_left]
  constructor
  · intro h
    refine ⟨fun i => ⟨fun hi => ?_, fun hi => ?_⟩, fun i => ⟨fun hi => ?_, fun hi => ?_⟩⟩
    · obtain ⟨hl, -⟩ := List.getElem?_eq_some_iff.1 hi
      have := (h i).1 (by rw [List.getElem?_append_left hl]; exact hi)
      rwa [List.getElem?_append_left (by omega), List.getElem?_append_left (by omega)] at this
    · obtain ⟨hl, -⟩ := List.getElem?_eq_some_iff.1 hi
      have hr := room i hi
      have := (h i).2 (by rw [List.getElem?_append_left hl]; exact hi)
      rwa [left _ _ _ (by omega), left _ _ _ (by omega)] at this
    · have := (h (m.length + i)).1 (by rw [List.getElem?_append_right (by omega), Nat.add_sub_cancel_left]; exact hi)
      rw [List.getElem?_append_right (by omega), List.getElem?_append_right (by omega), hc, hd,
        Nat.add_sub_cancel_left] at this
      exact this
    · have := (h (m.length + i)).2 (by rw [List.getElem?_append_right (by omega), Nat.add_sub_cancel_left]; exact hi)
      rw [← hd, right, hd, ← hc, right] at this
      exact this
  · rintro ⟨h1, h2⟩ i
    by_cases hl : i < m.length
    · rw [List.getElem?_append_left hl]
      refine ⟨fun hi => ?_, fun hi => ?_⟩
      · rw [List.getElem?_append_left (by omega), List.getElem?_append_left (by omega)]
        exact (h1 i).1 hi
      · have hr := room i hi
        rw [left _ _ _ (by omega), left _ _ _ (by omega)]
        exact (h1 i).2 hi
    · rw [List.getElem?_append_right (by omega)]
      obtain ⟨k, rfl⟩ : ∃ k, i = m.length + k := ⟨i - m.length, by omega⟩
      rw [Nat.add_sub_cancel_left]
      refine ⟨fun hi => ?_, fun hi => ?_⟩
      · rw [List.getElem?_append_right (by omega), List.getElem?_append_right (by omega), hc, hd, Nat.add_sub_cancel_left]
        exact (h2 k).1 hi
      · have e1 := right d d' k
        have e2 := right c c' k
        rw [hd] at e1
        rw [hc] at e2
        rw [e1, e2]
        exact (h2 k).2 hi

theorem heed {n : Nat} {c d : List Bool} (hc : c.length = n) (hd : d.length = n) : Same (heed n) c d ↔ c = d := by
  constructor
  · intro h
    refine List.ext_getElem? fun i => ?_
    by_cases hi : i < n
    · exact ((h i).1 (by simp [Alike.heed, hi])).symm
    · rw [List.getElem?_eq_none (by omega), List.getElem?_eq_none (by omega)]
  · rintro rfl i
    exact ⟨fun _ => rfl, fun _ => rfl⟩

theorem skip (n : Nat) (c d : List Bool) : Same (skip n) c d := by
  intro i
  constructor <;> intro hi <;> simp [Alike.skip, List.getElem?_replicate] at hi

theorem number {c d : List Bool} (hc : c.length = 8) (hd : d.length = 8) :
    Same (.number :: Alike.skip 7) c d ↔ Alike.value d = Alike.value c := by
  have e : ∀ l : List Bool, l.length = 8 → (l.drop 0).take 8 = l := fun l h => by rw [List.drop_zero, ← h, List.take_length]
  constructor
  · intro h
    have := (h 0).2 rfl
    rwa [e c hc, e d hd] at this
  · intro h i
    cases i with
    | zero => exact ⟨fun hi => (by cases hi), fun _ => (by rw [e c hc, e d hd]; exact h)⟩
    | succ i =>
      rw [List.getElem?_cons_succ, Alike.skip, List.getElem?_replicate]
      constructor <;> intro hi <;> split at hi <;> cases hi

end Alike.Same

/-- The marks `m` tell which bits of the shortest forms can be changed. -/
structure Whole (F : Form) (m : List Mark) : Prop where
  min : ∀ c, F c → m.length ≤ c.length
  room : ∀ c, F c → ∀ i : Nat, m[i]? = some Mark.number → i + 8 ≤ m.length
  all : ∀ c d, F c → c.length = m.length → d.length = m.length → (F d ↔ Same m c d)

namespace Whole

theorem congr {F G : Form} {m : List Mark} (h : Whole F m) (e : ∀ c, F c ↔ G c) : Whole G m :=
  ⟨fun c hc => h.min c ((e c).2 hc), fun c hc => h.room c ((e c).2 hc), fun c d hc hl hd => by
    rw [← e]; exact h.all c d ((e _).2 hc) hl hd⟩

theorem cast {F : Form} {m n : List Mark} (h : Whole F m) (e : m = n) : Whole F n := e ▸ h

theorem nil : Whole (Form.all []) [] :=
  ⟨fun _ _ => Nat.zero_le _, fun _ _ i hi => by simp at hi, fun c d _ _ hd => by
    have : d = [] := List.eq_nil_of_length_eq_zero hd
    subst this
    exact ⟨fun _ i => ⟨fun hi => by simp at hi, fun hi => by simp at hi⟩, fun _ => rfl⟩⟩

theorem never {F : Form} (m : List Mark) (h : ∀ c, ¬ F c) : Whole F m :=
  ⟨fun c hc => absurd hc (h c), fun c hc => absurd hc (h c), fun _ _ hc => absurd hc (h _)⟩

theorem cons {F : Form} {Fs : List Form} {m n : List Mark} (hf : Whole F m) (hg : Whole (Form.all Fs) n) :
    Whole (Form.all (F :: Fs)) (m ++ n) := by
  constructor
  · rintro c ⟨a, b, rfl, ha, hb⟩
    have := hf.min a ha
    have := hg.min b hb
    simp only [List.length_append]; omega
  · rintro c ⟨a, b, rfl, ha, hb⟩ i hi
    rw [List.length_append]
    by_cases hl : i < m.length
    · rw [List.getElem?_append_left hl] at hi
      have := hf.room a ha i hi
      omega
    · rw [List.getElem?_append_right (by omega)] at hi
      have := hg.room b hb _ hi
      omega
  · rintro c d ⟨a, b, rfl, ha, hb⟩ hl hd
    have hma := hf.min a ha
    have hnb := hg.min b hb
    rw [List.length_append, List.length_append] at hl
    rw [List.length_append] at hd
    have hea : a.length = m.length := by omega
    have heb : b.length = n.length := by omega
    obtain ⟨a', b', rfl, ha'⟩ : ∃ a' b', d = a' ++ b' ∧ a'.length = m.length :=
      ⟨d.take m.length, d.drop m.length, (List.take_append_drop _ _).symm, by rw [List.length_take]; omega⟩
    rw [List.length_append] at hd
    have hb' : b'.length = n.length := by omega
    rw [Alike.Same.append hea ha' (hf.room a ha), ← hf.all a a' ha hea ha', ← hg.all b b' hb heb hb']
    constructor
    · rintro ⟨x, y, e, hx, hy⟩
      have h1 := hf.min x hx
      have h2 := hg.min y hy
      have h3 := congrArg List.length e
      rw [List.length_append, List.length_append] at h3
      obtain ⟨rfl, rfl⟩ := List.append_inj e (by omega)
      exact ⟨hx, hy⟩
    · rintro ⟨hx, hy⟩
      exact ⟨_, _, rfl, hx, hy⟩

/-- The last of several. -/
theorem last {F : Form} {m : List Mark} (h : Whole F m) : Whole (Form.all [F]) m :=
  (cons h nil).cast (by simp)

theorem heed_room (n i : Nat) (h : (heed n)[i]? = some .number) : i + 8 ≤ (heed n).length := by
  simp [heed, List.getElem?_replicate] at h

theorem skip_room (n i : Nat) (h : (skip n)[i]? = some .number) : i + 8 ≤ (skip n).length := by
  simp [skip, List.getElem?_replicate] at h

/-- At most one form. -/
theorem unique {F : Form} (n : Nat) (hl : ∀ c, F c → c.length = n) (h : ∀ c d, F c → F d → c = d) :
    Whole F (heed n) := by
  refine ⟨?_, fun _ _ => heed_room n, ?_⟩
  · intro c hc; rw [hl c hc]; simp [heed]
  · intro c d hc _ hd
    rw [Alike.Same.heed (hl c hc) (by rw [hd]; simp [heed])]
    exact ⟨fun h' => h _ _ hc h', fun e => e ▸ hc⟩

end Whole

theorem Rigid.whole {F : Form} {n : Nat} (h : Rigid F n) : Whole F (heed n) := Whole.unique n h.len h.eq

namespace Whole

theorem reserved (n : Nat) : Whole (Form.reserved n) (skip n) := by
  refine ⟨?_, fun _ _ => skip_room n, ?_⟩
  · intro c h; rw [show c.length = n from h]; simp [skip]
  · intro c d _ _ hd
    exact ⟨fun _ => Alike.Same.skip _ _ _, fun _ => hd.trans (by simp [skip])⟩

theorem length (n : Nat) : Whole (Form.length n) (Alike.length n) := by
  have hmin : ∀ k c, Form.all [Form.field 2 k, Form.field (6 + 8 * k) n] c → c.length = 8 * (1 + k) := by
    rintro k c ⟨a, b, rfl, ⟨ha, -⟩, b', b'', rfl, ⟨hb, hv⟩, rfl⟩
    rw [List.length_append, List.length_append, ha, hb]; simp; omega
  have hlen : (Alike.length n).length = 8 * (1 + Spec.lengthExtra n) := by simp [Alike.length, heed]
  have hlen' : (Ignored.length n).length = 8 * (1 + Spec.lengthExtra n) := by simp [Ignored.length, Ignored.heed]
  refine ⟨fun c hc => ?_, fun _ _ i hi => ?_, ?_⟩
  · have := (Tight.length n).min c hc
    omega
  · unfold Alike.length at hi ⊢
    exact heed_room _ i hi
  · rintro c d ⟨k, hk, hc⟩ hl hd
    rw [Alike.length, Alike.Same.heed (hl.trans hlen) (hd.trans hlen)]
    constructor
    · rintro ⟨k', hk', hc'⟩
      have h1 := hmin k _ hc
      have h2 := hmin k' _ hc'
      have : k' = k := by omega
      subst this
      exact (Rigid.cons (Rigid.field 2 k') (Rigid.cons (Rigid.field (6 + 8 * k') n) Rigid.nil)).eq _ _ hc hc'
    · rintro rfl
      exact ⟨k, hk, hc⟩

theorem varInt_room (v : VarInt) (i : Nat) (h : (Alike.varInt v)[i]? = some .number) : i + 8 ≤ (Alike.varInt v).length := by
  cases i with
  | zero => simp [Alike.varInt, skip]
  | succ i =>
    rw [Alike.varInt, List.getElem?_cons_succ, skip, List.getElem?_replicate] at h
    split at h <;> cases h

theorem varInt (v : VarInt) : Whole (Form.varInt v) (Alike.varInt v) := by
  have hlen : (Alike.varInt v).length = 8 := by simp [Alike.varInt, skip]
  have key : ∀ c : List Bool, c.length = 8 → (Form.varInt v c ↔ v.ceil = false ∧ v.value.toNat = Alike.value c) := by
    intro c h8
    have h3 : (c.take 3).length = 3 := by rw [List.length_take]; omega
    have h5 : (c.drop 3).length = 5 := by rw [List.length_drop]; omega
    constructor
    · rintro ⟨e, m, hv, hc, a, b, rfl, ha, b', b'', rfl, hb, rfl⟩
      refine ⟨hc, ?_⟩
      rw [List.append_nil, Alike.value, List.take_left' ha.1, List.drop_left' ha.1, ha.2, hb.2, hv]
    · rintro ⟨hc, hv⟩
      exact ⟨Form.value (c.take 3), Form.value (c.drop 3), hv, hc, c.take 3, c.drop 3, (List.take_append_drop 3 c).symm,
        ⟨h3, rfl⟩, c.drop 3, [], (List.append_nil _).symm, ⟨h5, rfl⟩, rfl⟩
  refine ⟨?_, fun _ _ => varInt_room v, ?_⟩
  · rintro c ⟨e, m, hv, hc, a, b, rfl, ha, b', b'', rfl, hb, rfl⟩
    rw [hlen, List.length_append, List.length_append, ha.1, hb.1]
    simp
  · intro c d hc hl hd
    rw [hlen] at hl hd
    rw [Alike.varInt, Alike.Same.number hl hd, key d hd]
    obtain ⟨h1, h2⟩ := (key c hl).1 hc
    rw [← h2]
    exact ⟨fun h => h.2.symm, fun h => ⟨h1, h.symm⟩⟩

/-- A length nobody looks at, of one byte. -/
theorem anyLength : Whole Form.anyLength (heed 2 ++ skip 6) := by
  have key : ∀ c : List Bool, c.length = 8 →
      (Form.anyLength c ↔ Form.all [Form.field 2 0, Form.reserved 6] c) := by
    intro c hl
    constructor
    · rintro ⟨n, k, hk, a, b, rfl, ha, b1, b2, rfl, hb, rfl⟩
      have h1 := ha.1
      have h2 := hb.1
      simp only [List.length_append, List.length_nil] at hl
      have : k = 0 := by omega
      subst this
      exact ⟨a, _, rfl, ha, b1, [], rfl, h2, rfl⟩
    · rintro ⟨a, b, rfl, ha, b1, b2, rfl, hb, rfl⟩
      exact ⟨Form.value b1, 0, by omega, a, _, rfl, ha, b1, [], rfl, ⟨hb, rfl⟩, rfl⟩
  have ht := cons (Rigid.field 2 0).whole (last (reserved 6))
  have hlen : (heed 2 ++ skip 6).length = 8 := rfl
  refine ⟨?_, fun _ _ => ht.room (List.replicate 8 false)
     ⟨[false, false], List.replicate 6 false, rfl, ⟨rfl, rfl⟩, List.replicate 6 false, [], rfl, rfl, rfl⟩, ?_⟩
  · rintro c ⟨n, k, hk, a, b, rfl, ha, b1, b2, rfl, hb, rfl⟩
    have h1 := ha.1
    have h2 := hb.1
    simp only [List.length_append, heed, skip, List.length_replicate, List.length_nil]
    omega
  · intro c d hc hl hd
    rw [key _ (hd.trans hlen)]
    exact ht.all c d ((key _ (hl.trans hlen)).1 hc) hl hd

end Whole

end Dash7
