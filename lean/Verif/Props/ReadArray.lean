import Verif.Lemmas.Reader
import Verif.Model.Network
import Verif.Props.Samples

/-!
# `read_array` and its drop guard
-/

namespace Dash7

/-- Elements standing one after the other. -/
inductive Spec.Elements {α : Type} (p : P α) : List α → List Bool → List Bool → Prop
  | nil (s : List Bool) : Elements p [] s s
  | cons {a : α} {as : List α} {s s1 s' : List Bool} :
      p.eval s = .ok (a, s1) → Elements p as s1 s' → Elements p (a :: as) s s'

theorem readArrayGo_ok {α : Type} {p : P α} {n base count : Nat} {acc as : List α} {s s' : List Bool} :
    readArrayGo p n base count acc s = .ok (as, s') ↔
      ∃ bs, bs.length = n ∧ as = acc ++ bs ∧ Spec.Elements p bs s s' := by
  induction n generalizing base count acc s with
  | zero =>
    unfold readArrayGo
    constructor
    · intro h
      simp only [Except.ok.injEq, Prod.mk.injEq] at h
      obtain ⟨rfl, rfl⟩ := h
      exact ⟨[], rfl, by simp, .nil _⟩
    · rintro ⟨bs, hl, rfl, he⟩
      cases bs with
      | nil => cases he; simp
      | cons => cases hl
  | succ n ih =>
    unfold readArrayGo
    constructor
    · intro h
      split at h
      · rename_i a s1 ha
        obtain ⟨bs, hl, rfl, he⟩ := ih.1 h
        exact ⟨a :: bs, by simp [hl], by simp, .cons ha he⟩
      · cases h
    · rintro ⟨bs, hl, rfl, he⟩
      cases he with
      | nil => cases hl
      | cons ha he =>
        rw [ha]
        exact ih.2 ⟨_, by simpa using hl, by simp, he⟩

theorem readArrayGo_err {α : Type} {p : P α} {n base count : Nat} {acc : List α} {s : List Bool} {e : Err}
    {slots : List Nat} (h : readArrayGo p n base count acc s = .error (e, slots)) :
    ∃ as s1, as.length < n ∧ Spec.Elements p as s s1 ∧ p.eval s1 = .error e ∧
      slots = (List.range (count + as.length)).map (base + as.length + ·) := by
  induction n generalizing base count acc s with
  | zero => cases h
  | succ n ih =>
    unfold readArrayGo at h
    split at h
    · rename_i a s1 ha
      obtain ⟨as, s2, hl, he, hx, rfl⟩ := ih h
      refine ⟨a :: as, s2, by simp; omega, .cons ha he, hx, ?_⟩
      rw [List.length_cons, show count + 1 + as.length = count + (as.length + 1) by omega,
        show base + 1 + as.length = base + (as.length + 1) by omega]
    · rename_i e' he
      cases h
      exact ⟨[], s, by simp, .nil _, he, rfl⟩

theorem Spec.Elements.det {α : Type} {p : P α} {as bs : List α} {s s1 s2 : List Bool} {e : Err}
    (h1 : Elements p as s s1) (he : p.eval s1 = .error e) (h2 : Elements p bs s s2) :
    bs.length ≤ as.length := by
  induction h1 generalizing bs with
  | nil =>
    cases h2 with
    | nil => simp
    | cons ha _ => rw [he] at ha; cases ha
  | cons ha _ ih =>
    cases h2 with
    | nil => simp
    | cons ha' h2' =>
      rw [ha] at ha'
      cases ha'
      have := ih he h2'
      simp; omega

/-- **C37** The array is read in full exactly if its elements stand there one after the other, and then
nothing is dropped. -/
theorem C37_success (α : Type) (p : P α) (n : Nat) (s s' : List Bool) (as : List α) :
    readArray p n s = .ok (as, s') ↔ as.length = n ∧ Spec.Elements p as s s' := by
  unfold readArray
  rw [readArrayGo_ok]
  constructor
  · rintro ⟨bs, hl, rfl, he⟩
    exact ⟨hl, he⟩
  · rintro ⟨hl, he⟩
    exact ⟨as, hl, rfl, he⟩

theorem Spec.Elements.concat {α : Type} {p : P α} {as : List α} {a : α} {s s' : List Bool} :
    Elements p (as ++ [a]) s s' ↔ ∃ s1, Elements p as s s1 ∧ p.eval s1 = .ok (a, s') := by
  induction as generalizing s with
  | nil =>
    constructor
    · intro h
      cases h with
      | cons ha h => cases h; exact ⟨s, .nil _, ha⟩
    · rintro ⟨s1, h, ha⟩
      cases h
      exact .cons ha (.nil _)
  | cons b as ih =>
    constructor
    · intro h
      cases h with
      | cons hb h =>
        obtain ⟨s1, h1, h2⟩ := ih.1 h
        exact ⟨s1, .cons hb h1, h2⟩
    · rintro ⟨s1, h, ha⟩
      cases h with
      | cons hb h => exact .cons hb (ih.2 ⟨s1, h, ha⟩)

/-- **C37** The arrays of access profiles are read through `read_array`; reading them as a whole, as the
model of access profiles does, gives the same. -/
theorem C37_agrees (α : Type) (p : P α) (n : Nat) (s s' : List Bool) (v : Vector α n) :
    (P.array p n).eval s = .ok (v, s') ↔ readArray p n s = .ok (v.toList, s') := by
  rw [C37_success]
  have hl : v.toList.length = n := by simp
  rw [and_iff_right hl]
  clear hl
  induction n generalizing s' with
  | zero =>
    obtain rfl : v = #v[] := by simp
    constructor
    · intro h
      have h : Except.ok (ε := Err) (#v[], s) = .ok (#v[], s') := h
      simp only [Except.ok.injEq, Prod.mk.injEq] at h
      rw [← h.2]
      exact .nil _
    · intro h
      cases h
      rfl
  | succ n ih =>
    have hv : v = v.pop.push v.back := by simp
    rw [hv, Vector.toList_push, Spec.Elements.concat]
    simp only [P.array, P.eval_bind]
    constructor
    · intro h
      split at h
      · rename_i as s1 h1
        split at h
        · rename_i a s2 h2
          simp only [P.eval, Except.ok.injEq, Prod.mk.injEq] at h
          obtain ⟨he, rfl⟩ := h
          obtain ⟨rfl, rfl⟩ := Vector.push_eq_push.1 he
          exact ⟨s1, (ih s1 _).1 h1, h2⟩
        · cases h
      · cases h
    · rintro ⟨s1, h1, h2⟩
      rw [(ih s1 _).2 h1]
      dsimp only
      rw [h2]
      rfl

/-- **C37** What is dropped when element `i` fails: not the slots `0 … i-1` that hold elements, but the
slots `i … 2i-1`. -/
theorem C37_drops_partial (α : Type) (p : P α) (n i : Nat) (s s1 : List Bool) (as : List α) (e : Err)
    (hi : as.length = i) (hn : i < n) (hread : Spec.Elements p as s s1) (hfail : p.eval s1 = .error e) :
    readArray p n s = .error (e, (List.range i).map (i + ·)) := by
  match hr : readArray p n s with
  | .ok (bs, s') =>
    obtain ⟨hl, he⟩ := (C37_success _ _ _ _ _ _).1 hr
    have := hread.det hfail he
    omega
  | .error (e', slots) =>
    obtain ⟨as', s2, hl, he, hx, rfl⟩ := readArrayGo_err hr
    have h1 := hread.det hfail he
    have h2 := he.det hx hread
    have hs : s2 = s1 ∧ e' = e := by
      clear hr h1 hl hi
      induction hread generalizing as' with
      | nil =>
        cases he with
        | nil => rw [hx] at hfail; cases hfail; exact ⟨rfl, rfl⟩
        | cons ha _ => rw [hfail] at ha; cases ha
      | cons ha _ ih =>
        cases he with
        | nil => simp at h2
        | cons ha' he' =>
          rw [ha] at ha'
          cases ha'
          exact ih hfail _ he' (by simpa using h2)
    rw [hs.2, show as'.length = i by omega]
    simp

/-- **C37** holds when the very first element fails: nothing is dropped. -/
theorem C37_first_partial (α : Type) (p : P α) (n : Nat) (s : List Bool) (e : Err) (hn : 0 < n)
    (hfail : p.eval s = .error e) : readArray p n s = .error (e, []) :=
  C37_drops_partial α p n 0 s s [] e rfl hn (.nil _) hfail

/-- **C37** fails at every later element: each element read is leaked (its slot is not dropped), and the
slot of the element that failed is dropped though it was never written. -/
theorem C37_violates (α : Type) (p : P α) (n i : Nat) (s s1 : List Bool) (as : List α) (e : Err)
    (hi : as.length = i) (hn : i < n) (hread : Spec.Elements p as s s1) (hfail : p.eval s1 = .error e)
    (hpos : 0 < i) :
    ∃ slots, readArray p n s = .error (e, slots) ∧ (∀ j, j < i → j ∉ slots) ∧ i ∈ slots := by
  refine ⟨_, C37_drops_partial α p n i s s1 as e hi hn hread hfail, ?_, ?_⟩
  · intro j hj hm
    obtain ⟨k, -, hk⟩ := List.mem_map.1 hm
    omega
  · exact List.mem_map.2 ⟨0, by simpa using hpos, rfl⟩

/-- **C37** fails on memory safety too: from the second half of the array on, what is dropped lies partly
outside of it. -/
theorem C37_outside_violates (α : Type) (p : P α) (n i : Nat) (s s1 : List Bool) (as : List α) (e : Err)
    (hi : as.length = i) (hn : i < n) (hread : Spec.Elements p as s s1) (hfail : p.eval s1 = .error e) :
    ∃ slots, readArray p n s = .error (e, slots) ∧ ((∃ j ∈ slots, n ≤ j) ↔ n < 2 * i) := by
  refine ⟨_, C37_drops_partial α p n i s s1 as e hi hn hread hfail, ?_⟩
  constructor
  · rintro ⟨j, hm, hj⟩
    obtain ⟨k, hk, rfl⟩ := List.mem_map.1 hm
    have := List.mem_range.1 hk
    omega
  · intro h
    exact ⟨i + (i - 1), List.mem_map.2 ⟨i - 1, by simp; omega, rfl⟩, by omega⟩

/-- An access profile cut short in its third sub-profile (of four): slots 2 and 3 are dropped, neither
of which was written. -/
example : (match readArray SubProfile.read 4 (bytesBits [1, 2, 3, 4, 5]) with
    | .error (_, slots) => decide (slots = [2, 3])
    | .ok _ => false) = true := by decide +kernel
/-- In the fourth: slots 3, 4 and 5, two of which lie behind the array. -/
example : (match readArray SubProfile.read 4 (bytesBits [1, 2, 3, 4, 5, 6, 7]) with
    | .error (_, slots) => decide (slots = [3, 4, 5])
    | .ok _ => false) = true := by decide +kernel
example : (match readArray SubProfile.read 4 (bytesBits [1, 2, 3, 4, 5, 6, 7, 8]) with
    | .error _ => false
    | .ok (as, s') => decide (as.length = 4 ∧ s' = [])) = true := by decide +kernel

#print axioms C37_success
#print axioms C37_agrees
#print axioms C37_drops_partial
#print axioms C37_first_partial
#print axioms C37_violates
#print axioms C37_outside_violates

end Dash7
