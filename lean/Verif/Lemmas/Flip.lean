import Verif.Spec.Ignored
import Verif.Lemmas.Accept
import Verif.Lemmas.Entry

/-!
# Flipping one bit of a form
-/

namespace Dash7

open Ignored (heed skip)

/-- The marks `m` tell which bits of the shortest forms can be flipped. -/
structure Tight (F : Form) (m : List Bool) : Prop where
  min : ∀ c, F c → m.length ≤ c.length
  one : ∀ p x q, F (p ++ x :: q) → (p ++ x :: q).length = m.length →
    (F (p ++ (!x) :: q) ↔ m[p.length]? = some true)

namespace Tight

theorem congr {F G : Form} {m : List Bool} (h : Tight F m) (e : ∀ c, F c ↔ G c) : Tight G m :=
  ⟨fun c hc => h.min c ((e c).2 hc), fun p x q hc hl => by
    rw [← e]; exact h.one p x q ((e _).2 hc) hl⟩

theorem cast {F : Form} {m n : List Bool} (h : Tight F m) (e : m = n) : Tight F n := e ▸ h

theorem nil : Tight (Form.all []) [] :=
  ⟨fun _ _ => Nat.zero_le _, fun p x q h => by simp [Form.all] at h⟩

theorem never {F : Form} (m : List Bool) (h : ∀ c, ¬ F c) : Tight F m :=
  ⟨fun c hc => absurd hc (h c), fun _ _ _ hc => absurd hc (h _)⟩

theorem cons {F : Form} {Fs : List Form} {m n : List Bool} (hf : Tight F m) (hg : Tight (Form.all Fs) n) :
    Tight (Form.all (F :: Fs)) (m ++ n) := by
  constructor
  · rintro c ⟨a, b, rfl, ha, hb⟩
    have := hf.min a ha
    have := hg.min b hb
    simp only [List.length_append]; omega
  · rintro p x q ⟨a, b, e, ha, hb⟩ hl
    have hma := hf.min a ha
    have hnb := hg.min b hb
    have hab : (p ++ x :: q).length = a.length + b.length := by rw [e, List.length_append]
    rw [hab, List.length_append] at hl
    have hea : a.length = m.length := by omega
    have heb : b.length = n.length := by omega
    by_cases hp : p.length < a.length
    · obtain ⟨q1, hq1⟩ : ∃ q1, a = p ++ x :: q1 ∧ q = q1 ++ b := by
        rw [List.append_eq_append_iff] at e
        rcases e with ⟨s, h1, h2⟩ | ⟨s, h1, h2⟩
        · cases s with
          | nil =>
            simp only [List.append_nil] at h1
            rw [h1] at hp; exact absurd hp (Nat.lt_irrefl _)
          | cons y s =>
            simp only [List.cons_append, List.cons.injEq] at h2
            obtain ⟨rfl, rfl⟩ := h2
            exact ⟨s, h1, rfl⟩
        · rw [h1, List.length_append] at hp; omega
      obtain ⟨rfl, rfl⟩ := hq1
      rw [List.getElem?_append_left (by omega), ← hf.one p x q1 ha hea]
      constructor
      · rintro ⟨a', b', e', ha', hb'⟩
        have h1 := hf.min a' ha'
        have h2 := hg.min b' hb'
        have h3 : a'.length + b'.length = (p ++ x :: q1).length + b.length := by
          have := congrArg List.length e'
          simp only [List.length_append, List.length_cons] at this ⊢
          omega
        have e'' : (p ++ (!x) :: q1) ++ b = a' ++ b' := by rw [← e']; simp
        have := List.append_inj e'' (by simp only [List.length_append, List.length_cons] at hea h3 ⊢; omega)
        rw [this.1]; exact ha'
      · intro h
        exact ⟨_, b, by simp, h, hb⟩
    · obtain ⟨p1, hp1⟩ : ∃ p1, p = a ++ p1 ∧ b = p1 ++ x :: q := by
        rw [List.append_eq_append_iff] at e
        rcases e with ⟨s, h1, h2⟩ | ⟨s, h1, h2⟩
        · cases s with
          | nil => exact ⟨[], by simpa using h1.symm, by simpa using h2.symm⟩
          | cons y s => rw [h1, List.length_append, List.length_cons] at hp; omega
        · exact ⟨s, h1, h2⟩
      obtain ⟨rfl, rfl⟩ := hp1
      rw [List.getElem?_append_right (by rw [List.length_append]; omega), List.length_append, hea,
        Nat.add_sub_cancel_left, ← hg.one p1 x q hb heb]
      constructor
      · rintro ⟨a', b', e', ha', hb'⟩
        have h1 := hf.min a' ha'
        have h2 := hg.min b' hb'
        have h3 : a'.length + b'.length = a.length + (p1 ++ x :: q).length := by
          have := congrArg List.length e'
          simp only [List.length_append, List.length_cons] at this ⊢
          omega
        have e'' : a ++ (p1 ++ (!x) :: q) = a' ++ b' := by rw [← e']; simp
        have := List.append_inj e'' (by omega)
        rw [this.2]; exact hb'
      · intro h
        exact ⟨a, _, by simp, ha, h⟩

/-- The last of several. -/
theorem last {F : Form} {m : List Bool} (h : Tight F m) : Tight (Form.all [F]) m :=
  (cons h nil).cast (by simp)

/-- At most one form. -/
theorem unique {F : Form} (n : Nat) (hl : ∀ c, F c → c.length = n) (h : ∀ c d, F c → F d → c = d) :
    Tight F (heed n) := by
  constructor
  · intro c hc; rw [hl c hc]; simp [heed]
  · intro p x q hc _
    constructor
    · intro hd
      have := h _ _ hc hd
      simp at this
    · intro hm
      simp [heed, List.getElem?_replicate] at hm

end Tight

/-- Exactly one form, of length `n`, if any. -/
structure Rigid (F : Form) (n : Nat) : Prop where
  len : ∀ c, F c → c.length = n
  eq : ∀ c d, F c → F d → c = d

namespace Rigid

theorem tight {F : Form} {n : Nat} (h : Rigid F n) : Tight F (heed n) := Tight.unique n h.len h.eq

theorem nil : Rigid (Form.all []) 0 := ⟨fun c h => by simp [Form.all] at h; simp [h], fun c d h k => h.trans k.symm⟩

theorem cons {F : Form} {Fs : List Form} {n k : Nat} (hf : Rigid F n) (hg : Rigid (Form.all Fs) k) :
    Rigid (Form.all (F :: Fs)) (n + k) := by
  constructor
  · rintro c ⟨a, b, rfl, ha, hb⟩
    rw [List.length_append, hf.len a ha, hg.len b hb]
  · rintro c d ⟨a, b, rfl, ha, hb⟩ ⟨a', b', rfl, ha', hb'⟩
    rw [hf.eq a a' ha ha', hg.eq b b' hb hb']

theorem cast {F : Form} {n k : Nat} (h : Rigid F n) (e : n = k) : Rigid F k := e ▸ h

theorem never {F : Form} (n : Nat) (h : ∀ c, ¬ F c) : Rigid F n :=
  ⟨fun c hc => absurd hc (h c), fun c _ hc => absurd hc (h c)⟩

theorem field (n v : Nat) : Rigid (Form.field n v) n := by
  refine ⟨fun c h => h.1, ?_⟩
  rintro c d ⟨h1, h2⟩ ⟨h3, h4⟩
  rw [Form.value_eq] at h2 h4
  rw [← natBits_bitsNat c, ← natBits_bitsNat d, h1, h2, h3, h4]

theorem number (k v : Nat) : Rigid (Form.number k v) (8 * k) := field _ _

theorem flag (b : Bool) : Rigid (Form.flag b) 1 :=
  ⟨fun c h => by rw [show c = [b] from h]; rfl, fun c d h k => (show c = [b] from h).trans (show d = [b] from k).symm⟩

theorem bytes (bs : List U8) : Rigid (Form.bytes bs) (8 * bs.length) :=
  ⟨fun c h => by rw [show c = Form.ofBytes bs from h, Form.ofBytes_eq, bytesBits_length],
   fun c d h k => Eq.trans h (Eq.symm k)⟩

theorem given (p : Prop) : Rigid (Form.given p) 0 :=
  ⟨fun c h => by rw [h.1]; rfl, fun c d h k => h.1.trans k.1.symm⟩

theorem sized (n : Nat) (bs : List U8) : Rigid (Form.sized n bs) (8 * bs.length) :=
  (cons (given _) (cons (bytes bs) nil)).cast (by omega)

theorem sized' (n : Nat) (bs : List U8) : Rigid (Form.sized n bs) (8 * n) := by
  by_cases h : bs.length = n
  · subst h; exact sized _ _
  · refine never _ ?_
    rintro c ⟨a, b, -, ha, -⟩
    exact h ha.2

theorem string (n : Nat) (s : String) : Rigid (Form.string n s) (8 * n) := sized' n _

theorem hostNumber (big : Bool) (k v : Nat) : Rigid (Form.hostNumber big k v) (8 * k) := by
  have hn := number k v
  constructor
  · rintro c ⟨bs, rfl, h⟩
    have := hn.len _ h
    rw [Form.ofBytes_eq, bytesBits_length] at this ⊢
    cases big <;> simpa using this
  · rintro c d ⟨bs, rfl, h⟩ ⟨bs', rfl, h'⟩
    have := hn.eq _ _ h h'
    rw [Form.ofBytes_eq, Form.ofBytes_eq] at this
    have := bytesBits_inj this
    have : bs = bs' := by
      cases big
      · simpa using this
      · simpa using this
    rw [this]

theorem opcode (o : OpCode) (code : Nat) : Rigid (Form.opcode o code) 6 :=
  ⟨fun _ h => (field 6 code).len _ h.2, fun _ _ h k => (field 6 code).eq _ _ h.2 k.2⟩

end Rigid

namespace Tight

theorem reserved (n : Nat) : Tight (Form.reserved n) (skip n) := by
  constructor
  · intro c h; rw [show c.length = n from h]; simp [skip]
  · intro p x q h _
    constructor
    · intro _
      have : (p ++ x :: q).length = n := h
      simp only [List.length_append, List.length_cons] at this
      simp only [skip, List.getElem?_replicate]
      rw [if_pos (by omega)]
    · intro _
      show _ = n
      rw [← show (p ++ x :: q).length = n from h]
      simp

theorem length (n : Nat) : Tight (Form.length n) (Ignored.length n) := by
  have hmin : ∀ k c, Form.all [Form.field 2 k, Form.field (6 + 8 * k) n] c → c.length = 8 * (1 + k) ∧
      n < 2 ^ (6 + 8 * k) := by
    rintro k c ⟨a, b, rfl, ⟨ha, -⟩, b', b'', rfl, ⟨hb, hv⟩, rfl⟩
    constructor
    · rw [List.length_append, List.length_append, ha, hb]; simp; omega
    · rw [← hb, ← hv, Form.value_eq]; exact bitsNat_lt _
  have hex : ∀ k, k < 4 → n < 2 ^ (6 + 8 * k) → Spec.lengthExtra n ≤ k := by
    intro k hk hn
    unfold Spec.lengthExtra
    have : k = 0 ∨ k = 1 ∨ k = 2 ∨ k = 3 := by omega
    have e0 : (2 : Nat) ^ (6 + 8 * 0) = 2 ^ 6 := rfl
    have e1 : (2 : Nat) ^ (6 + 8 * 1) = 2 ^ 14 := rfl
    have e2 : (2 : Nat) ^ (6 + 8 * 2) = 2 ^ 22 := rfl
    rcases this with rfl | rfl | rfl | rfl
    · rw [e0] at hn; repeat (first | omega | split)
    · rw [e1] at hn; repeat (first | omega | split)
    · rw [e2] at hn; repeat (first | omega | split)
    · repeat (first | omega | split)
  constructor
  · rintro c ⟨k, hk, hc⟩
    obtain ⟨h1, h2⟩ := hmin k c hc
    have := hex k hk h2
    simp only [Ignored.length, heed, List.length_replicate]
    omega
  · rintro p x q ⟨k, hk, hc⟩ hl
    constructor
    · rintro ⟨k', hk', hc'⟩
      have h1 := (hmin k _ hc).1
      have h2 := (hmin k' _ hc').1
      have : k' = k := by
        simp only [List.length_append, List.length_cons] at h1 h2
        omega
      subst this
      have := (Rigid.cons (Rigid.field 2 k') (Rigid.cons (Rigid.field (6 + 8 * k') n) Rigid.nil)).eq _ _ hc hc'
      simp at this
    · intro h
      simp [Ignored.length, heed, List.getElem?_replicate] at h

theorem split {a b a' b' p q : List Bool} {x : Bool} (h : p ++ x :: q = a ++ b) (h' : p ++ (!x) :: q = a' ++ b')
    (hl : a.length = a'.length) : a = a' ∨ b = b' := by
  by_cases hp : p.length < a.length
  · right
    have h1 := congrArg (List.drop a.length) h
    have h2 := congrArg (List.drop a.length) h'
    rw [List.drop_left] at h1
    rw [hl, List.drop_left, ← hl] at h2
    rw [← h1, ← h2]
    obtain ⟨k, hk⟩ : ∃ k, a.length = p.length + (k + 1) := ⟨a.length - p.length - 1, by omega⟩
    rw [hk, List.drop_append, List.drop_append]
    simp
  · left
    have h1 := congrArg (List.take a.length) h
    have h2 := congrArg (List.take a.length) h'
    rw [List.take_left] at h1
    rw [hl, List.take_left, ← hl] at h2
    rw [← h1, ← h2, List.take_append_of_le_length (by omega), List.take_append_of_le_length (by omega)]

theorem varInt (v : VarInt) : Tight (Form.varInt v) (Ignored.varInt v) := by
  by_cases h0 : v.value = 0
  · unfold Ignored.varInt
    rw [if_pos h0]
    by_cases hc : v.ceil = false
    · refine (cons (reserved 3) (last (Rigid.field 5 0).tight)).congr ?_
      intro c
      constructor
      · rintro ⟨a, b, rfl, ha, hb⟩
        exact ⟨Form.value a, 0, by simp [h0], hc, a, b, rfl, ⟨ha, rfl⟩, hb⟩
      · rintro ⟨e, m, hv, -, a, b, rfl, ha, hb⟩
        have : m = 0 := by
          rw [h0] at hv
          have : m * 4 ^ e = 0 := hv.symm
          rcases Nat.mul_eq_zero.1 this with h | h
          · exact h
          · exact absurd h (Nat.pos_iff_ne_zero.1 (Nat.pow_pos (by omega)))
        subst this
        exact ⟨a, b, rfl, ha.1, hb⟩
    · refine never _ ?_
      rintro c ⟨e, m, -, h, -⟩
      exact hc h
  · unfold Ignored.varInt
    rw [if_neg h0]
    constructor
    · rintro c ⟨e, m, hv, hcl, a, b, rfl, ⟨ha, -⟩, b', b'', rfl, ⟨hb, -⟩, rfl⟩
      simp only [List.length_append, ha, hb, List.length_nil, heed, List.length_replicate]; omega
    · rintro p x q ⟨e, m, hv, -, a, b, hc, ha, hb⟩ _
      constructor
      · rintro ⟨e', m', hv', -, a', b', hc', ha', hb'⟩
        have hb := (Rigid.cons (Rigid.field 5 m) Rigid.nil)
        exfalso
        have hne : p ++ x :: q ≠ p ++ (!x) :: q := by simp
        rename_i hb0 _
        obtain ⟨b1, b2, rfl, hb1, rfl⟩ := hb0
        obtain ⟨b1', b2', rfl, hb1', rfl⟩ := hb'
        have hm : m ≠ 0 := by
          rintro rfl
          apply h0
          apply BitVec.eq_of_toNat_eq
          rw [hv]; simp
        rcases split hc hc' (ha.1.trans ha'.1.symm) with h | h
        · subst h
          have : e = e' := ha.2.symm.trans ha'.2
          subst this
          have : m = m' := Nat.eq_of_mul_eq_mul_right (Nat.pow_pos (by omega)) (hv.symm.trans hv')
          subst this
          have := (Rigid.field 5 m).eq _ _ hb1 hb1'
          exact hne (by rw [hc, hc', this])
        · simp only [List.append_nil] at h
          subst h
          have : m = m' := hb1.2.symm.trans hb1'.2
          subst this
          have h4 : 4 ^ e = 4 ^ e' := Nat.eq_of_mul_eq_mul_left (by omega) (hv.symm.trans hv')
          have : e = e' := (Nat.pow_right_inj (by omega)).1 h4
          subst this
          have := (Rigid.field 3 e).eq _ _ ha ha'
          exact hne (by rw [hc, hc', this])
      · intro h
        simp only [heed, List.replicate_append_replicate, List.getElem?_replicate] at h
        split at h <;> simp at h

/-- A length nobody looks at, of one byte. -/
theorem anyLength : Tight Form.anyLength (heed 2 ++ skip 6) := by
  have key : ∀ c : List Bool, c.length = 8 →
      (Form.anyLength c ↔ Form.all [Form.field 2 0, Form.reserved 6] c) := by
    intro c hl
    constructor
    · rintro ⟨n, k, hk, a, b, rfl, ha, b1, b2, rfl, hb, rfl⟩
      have h1 := ha.1
      have h2 := hb.1
      simp only [List.length_append, List.length_nil] at hl
      have : k = 0 := by omega
      subst this
      exact ⟨a, _, rfl, ha, b1, [], rfl, h2, rfl⟩
    · rintro ⟨a, b, rfl, ha, b1, b2, rfl, hb, rfl⟩
      exact ⟨Form.value b1, 0, by omega, a, _, rfl, ha, b1, [], rfl, ⟨hb, rfl⟩, rfl⟩
  have ht := cons (Rigid.field 2 0).tight (last (reserved 6))
  constructor
  · rintro c ⟨n, k, hk, a, b, rfl, ha, b1, b2, rfl, hb, rfl⟩
    have h1 := ha.1
    have h2 := hb.1
    simp only [List.length_append, heed, skip, List.length_replicate, List.length_nil]
    omega
  · intro p x q hc hl
    have hl8 : (p ++ x :: q).length = 8 := by rw [hl]; simp [heed, skip]
    have hl8' : (p ++ (!x) :: q).length = 8 := by rw [← hl8]; simp
    rw [key _ hl8']
    exact ht.one p x q ((key _ hl8).1 hc) hl

end Tight

end Dash7
