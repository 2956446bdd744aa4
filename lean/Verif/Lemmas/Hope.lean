import Verif.Lemmas.Whole

/-!
# When more input can complete what was read so far
-/

namespace Dash7

/-- A reader beginning `k` bits and ending `j` bits behind a byte boundary. It can give a value in `G`; so it can
with more input whenever it ran out of input at a byte boundary. -/
structure HopeG {α : Type} (k j : Nat) (p : P α) (G : α → Prop) : Prop where
  can : ∃ s a, G a ∧ p.eval s = .ok (a, [])
  more : ∀ s, 8 ∣ k + s.length → p.eval s = .error .incomplete → ∃ t a, G a ∧ p.eval (s ++ t) = .ok (a, [])
  width : Post p fun _ n => (k + n) % 8 = j % 8

/-- The same with any value. -/
abbrev Hope {α : Type} (k j : Nat) (p : P α) : Prop := HopeG k j p fun _ => True

/-- Fails on whatever ends at a byte boundary. -/
def Dead {α : Type} (k : Nat) (p : P α) : Prop := ∀ s, 8 ∣ k + s.length → ∃ f, p.eval s = .error (.fault f)

namespace Hope

variable {α β : Type} {k j l : Nat}

theorem «at» {k' : Nat} {p : P α} {G : α → Prop} (h : HopeG k j p G) (hk : k' % 8 = k % 8) : HopeG k' j p G where
  can := h.can
  more := fun s hs he => h.more s (by omega) he
  width := fun c s a he => by have := h.width c s a he; dsimp only at this ⊢; omega

theorem «end» {j' : Nat} {p : P α} {G : α → Prop} (h : HopeG k j p G) (hj : j % 8 = j' % 8) : HopeG k j' p G where
  can := h.can
  more := h.more
  width := fun c s a he => by have := h.width c s a he; dsimp only at this ⊢; omega

theorem bindQ {p : P α} {g : α → P β} {G Q : α → Prop} {H : β → Prop} (hp : HopeG k j p G) (hQ : Post p fun a _ => Q a)
    (hg : ∀ a, Q a → G a → HopeG j l (g a) H) (hn : ∀ a, Q a → ¬ G a → Dead j (g a)) :
    HopeG k l (p.bind g) H where
  can := by
    obtain ⟨s, a, ha, he⟩ := hp.can
    obtain ⟨t, b, hH, he'⟩ := (hg a (hQ s [] a (by rwa [List.append_nil])) ha).can
    refine ⟨s ++ t, b, hH, ?_⟩
    rw [P.eval_bind, p.eval_extend he]
    exact he'
  more := by
    intro s hs he
    rw [P.eval_bind] at he
    split at he
    · rename_i a s' ha
      have hq : Q a := by
        obtain ⟨c, rfl, -⟩ := p.eval_ok ha
        exact hQ _ _ _ ha
      have hl : 8 ∣ j + s'.length := by
        obtain ⟨c, rfl, -⟩ := p.eval_ok ha
        have := hp.width _ _ _ ha
        rw [List.length_append] at hs
        have : (k + c.length) % 8 = j % 8 := this
        omega
      by_cases hG : G a
      · obtain ⟨t, b, hH, hb⟩ := (hg a hq hG).more s' hl he
        refine ⟨t, b, hH, ?_⟩
        rw [P.eval_bind, p.eval_extend ha]
        exact hb
      · obtain ⟨f, hf⟩ := hn a hq hG s' hl
        rw [hf] at he
        cases he
    · rename_i e ha
      cases he
      obtain ⟨t, a, hG, ha⟩ := hp.more s hs ha
      obtain ⟨t', b, hH, hb⟩ := (hg a (hQ (s ++ t) [] a (by rwa [List.append_nil])) hG).can
      refine ⟨t ++ t', b, hH, ?_⟩
      rw [P.eval_bind, ← List.append_assoc, p.eval_extend ha]
      exact hb
  width := by
    intro c s b he
    rw [P.eval_bind] at he
    split at he
    · rename_i a s' ha
      obtain ⟨c1, hc1, -⟩ := p.eval_ok ha
      obtain ⟨c2, hc2, hc2'⟩ := (g a).eval_ok he
      rw [hc2, ← List.append_assoc] at hc1
      have := List.append_cancel_right hc1
      subst this
      have h1 : (k + c1.length) % 8 = j % 8 := hp.width c1 s' a (by rw [show c1 ++ s' = c1 ++ c2 ++ s by rw [hc2, List.append_assoc]]; exact ha)
      have hq : Q a := hQ c1 s' a (by rw [show c1 ++ s' = c1 ++ c2 ++ s by rw [hc2, List.append_assoc]]; exact ha)
      by_cases hG : G a
      · have h2 : (j + c2.length) % 8 = l % 8 := (hg a hq hG).width c2 s b (hc2' s)
        rw [List.length_append]
        omega
      · obtain ⟨f, hf⟩ := hn a hq hG (c2 ++ List.replicate (7 * (j + c2.length)) false)
          (by rw [List.length_append, List.length_replicate]; omega)
        rw [hc2'] at hf
        cases hf
    · cases he

theorem bindG {p : P α} {g : α → P β} {G : α → Prop} (hp : HopeG k j p G) (hg : ∀ a, G a → Hope j l (g a))
    (hn : ∀ a, ¬ G a → Dead j (g a)) : Hope k l (p.bind g) :=
  bindQ (Q := fun _ => True) hp (fun _ _ _ _ => trivial) (fun a _ => hg a) fun a _ => hn a

theorem bind {p : P α} {g : α → P β} (hp : Hope k j p) (hg : ∀ a, Hope j l (g a)) : Hope k l (p.bind g) :=
  bindG hp (fun a _ => hg a) (fun _ h => absurd trivial h)

theorem bits {p : P α} {n : Nat} {g : List Bool → P α} (h : p = P.bits n g) (hg : ∀ x, ∃ a, g x = P.pure a) :
    Hope k (k + n) p := by
  subst h
  have key : ∀ s, n ≤ s.length → ∃ a, (P.bits n g).eval s = .ok (a, s.drop n) := by
    intro s hs
    obtain ⟨a, ha⟩ := hg (s.take n)
    exact ⟨a, by rw [P.eval_bits, if_pos hs, ha]; rfl⟩
  refine ⟨?_, ?_, ?_⟩
  · obtain ⟨a, ha⟩ := key (List.replicate n false) (by simp)
    exact ⟨_, a, trivial, by rw [ha]; simp⟩
  · intro s _ he
    rw [P.eval_bits] at he
    split at he
    · rename_i hn
      obtain ⟨a, ha⟩ := hg (s.take n)
      rw [ha] at he
      cases he
    · rename_i hn
      obtain ⟨a, ha⟩ := key (s ++ List.replicate (n - s.length) false) (by simp; omega)
      refine ⟨List.replicate (n - s.length) false, a, trivial, ?_⟩
      rw [ha]
      congr 2
      rw [List.drop_eq_nil_iff]
      simp
      omega
  · intro c s a he
    rw [P.eval_bits] at he
    split at he
    · obtain ⟨b, hb⟩ := hg ((c ++ s).take n)
      rw [hb] at he
      simp only [P.eval, Except.ok.injEq, Prod.mk.injEq] at he
      have := congrArg List.length he.2
      rw [List.length_drop, List.length_append] at this
      show (k + c.length) % 8 = (k + n) % 8
      rename_i hn
      rw [List.length_append] at hn
      have : c.length = n := by omega
      omega
    · cases he

theorem pure {a : α} : Hope k k (P.pure a) where
  can := ⟨[], a, trivial, rfl⟩
  more := fun s _ he => by cases he
  width := fun c s b he => by
    simp only [P.eval, Except.ok.injEq, Prod.mk.injEq] at he
    have := congrArg List.length he.2
    rw [List.length_append] at this
    show (k + c.length) % 8 = k % 8
    omega

theorem uint {w n : Nat} (h : n ≤ w) : Hope k (k + n) (P.uint w n) :=
  bits (by unfold P.uint; rw [if_neg (by omega)]) fun _ => ⟨_, rfl⟩

theorem u8 : Hope k (k + 8) P.u8 := uint (by decide)
theorem flag : Hope k (k + 1) P.flag := bits rfl fun _ => ⟨_, rfl⟩
theorem pad {n : Nat} : Hope k (k + n) (P.pad n) := bits rfl fun _ => ⟨_, rfl⟩
theorem uintHost {cfg : Cfg} {n : Nat} : Hope k (k + 8 * n) (P.uintHost cfg n) := by
  unfold P.uintHost
  split
  · exact uint (Nat.le_refl _)
  · exact bits rfl fun _ => ⟨_, rfl⟩

theorem count {p : P α} (h : Hope k k p) : ∀ n, Hope k k (p.count n)
  | 0 => pure
  | n + 1 => bind h fun _ => bind (count h n) fun _ => pure

theorem array {p : P α} (h : Hope k k p) : ∀ n, Hope k k (p.array n)
  | 0 => pure
  | n + 1 => bind (array h n) fun _ => bind h fun _ => pure

/-- A number within a byte, of which only some values are good. -/
theorem uintG {n : Nat} {G : U8 → Prop} (hk : k % 8 + n ≤ 8) (i : U8) (hi : i.toNat < 2 ^ n) (hG : G i) :
    HopeG k (k + n) (P.uint 8 n) G where
  can := by
    obtain ⟨bs, -, hd⟩ := RT.uint (w := 8) (n := n) (v := i) (by omega) hi
    exact ⟨bs, i, hG, by have := hd []; rwa [List.append_nil] at this⟩
  more := fun s hs he => by
    have hs0 : s = [] := by
      unfold P.uint at he
      rw [if_neg (by omega), P.eval_bits] at he
      split at he
      · cases he
      · exact List.length_eq_zero_iff.1 (by omega)
    subst hs0
    obtain ⟨bs, -, hd⟩ := RT.uint (w := 8) (n := n) (v := i) (by omega) hi
    exact ⟨bs, i, hG, by have := hd []; rwa [List.append_nil] at this⟩
  width := (uint (k := k) (w := 8) (n := n) (by omega)).width

theorem enum {ε : Type} {n : Nat} {ofId : U8 → Option ε} (hk : k % 8 + n ≤ 8) (i : U8) (hi : i.toNat < 2 ^ n)
    (h : (ofId i).isSome) : Hope k (k + n) (P.enum n ofId) := by
  refine bindG (uintG (G := fun i => (ofId i).isSome) hk i hi h) (fun i hi => ?_) fun i hi s _ => ?_
  · cases hx : ofId i with
    | none => rw [hx] at hi; cases hi
    | some e => exact pure
  · cases hx : ofId i with
    | none => exact ⟨_, rfl⟩
    | some e => rw [hx] at hi; exact absurd rfl hi

theorem enumG {ε : Type} {n : Nat} {ofId : U8 → Option ε} {G : ε → Prop} (hk : k % 8 + n ≤ 8) (i : U8)
    (hi : i.toNat < 2 ^ n) (e : ε) (h : ofId i = some e) (hG : G e) : HopeG k (k + n) (P.enum n ofId) G := by
  have key : ∃ bs, (P.enum n ofId).eval bs = .ok (e, []) := by
    obtain ⟨bs, -, hd⟩ := RT.uint (w := 8) (n := n) (v := i) (by omega) hi
    have hd := hd []
    rw [List.append_nil] at hd
    refine ⟨bs, ?_⟩
    unfold P.enum
    rw [P.eval_bind, hd]
    simp only [h]
    rfl
  refine ⟨?_, fun s hs he => ?_, (enum hk i hi (by rw [h]; rfl)).width⟩
  · obtain ⟨bs, hb⟩ := key
    exact ⟨bs, e, hG, hb⟩
  · have hs0 : s = [] := by
      unfold P.enum at he
      rw [P.eval_bind] at he
      unfold P.uint at he
      rw [if_neg (by omega), P.eval_bits] at he
      split at he
      · rename_i a s' hx
        split at he <;> cases he
      · rename_i e' hx
        split at hx
        · cases hx
        · exact List.length_eq_zero_iff.1 (by omega)
    subst hs0
    obtain ⟨bs, hb⟩ := key
    exact ⟨bs, e, hG, hb⟩

theorem cond {p : P α} (b : Bool) (h : Hope k k p) : Hope k k (P.cond b p) := by
  cases b
  · exact pure
  · exact bind h fun _ => pure

end Hope

/-- One field after the other. -/
syntax "hope_leaf" : tactic
macro_rules | `(tactic| hope_leaf) => `(tactic| with_reducible exact Hope.pure)
macro_rules | `(tactic| hope_leaf) => `(tactic| with_reducible exact Hope.u8)
macro_rules | `(tactic| hope_leaf) => `(tactic| with_reducible exact Hope.uint (by decide))
macro_rules | `(tactic| hope_leaf) => `(tactic| with_reducible exact Hope.flag)
macro_rules | `(tactic| hope_leaf) => `(tactic| with_reducible exact Hope.pad)
macro_rules | `(tactic| hope_leaf) => `(tactic| with_reducible exact Hope.uintHost)
macro_rules | `(tactic| hope_leaf) => `(tactic| with_reducible exact Hope.enum (by decide) 0 (by decide) (by decide))

macro "hope_run" : tactic => `(tactic| repeat' (first
      | (with_reducible apply Hope.bind)
      | hope_leaf
      | (with_reducible apply Hope.array)
      | (with_reducible apply Hope.count)
      | (with_reducible apply Hope.cond)
      | intro _))

macro "hope" : tactic => `(tactic| (
  (try simp only [P.bind_eq])
  apply Hope.end
  · hope_run
  · decide))

theorem Post.uint_lt {w n : Nat} : Post (P.uint w n) fun v _ => v.toNat < 2 ^ n :=
  Post.uint.mono fun _ _ h => h.2.2.1

theorem VarInt.hope {k : Nat} : Hope k (k + 8) VarInt.read := by
  refine Hope.bindQ (Hope.uint (by decide)) Post.uint_lt (fun e he _ => ?_) (fun _ _ h => absurd trivial h)
  refine Hope.end (Hope.bindQ (Hope.uint (by decide)) Post.uint_lt (fun m hm _ => ?_)
    (fun _ _ h => absurd trivial h)) (Eq.refl _)
  rw [(VarInt.decompress_eq he hm).1]
  exact Hope.pure
macro_rules | `(tactic| hope_leaf) => `(tactic| with_reducible exact VarInt.hope)

theorem Length.hope {k : Nat} : Hope k (k + 8) Length.read := by
  refine Hope.bindQ (Hope.uint (by decide)) Post.uint_lt (fun e he _ => ?_) (fun _ _ h => absurd trivial h)
  refine Hope.end (Hope.bind (Hope.uint (by omega)) fun m => Hope.pure) (by omega)
macro_rules | `(tactic| hope_leaf) => `(tactic| with_reducible exact Length.hope)

theorem ChannelHeader.hope : Hope 0 0 ChannelHeader.read := by
  unfold ChannelHeader.read ChannelBand.read ChannelClass.read ChannelCoding.read
  hope
macro_rules | `(tactic| hope_leaf) => `(tactic| with_reducible exact Hope.at ChannelHeader.hope (by decide))
theorem Channel.hope : Hope 0 0 Channel.read := by unfold Channel.read; hope
macro_rules | `(tactic| hope_leaf) => `(tactic| with_reducible exact Hope.at Channel.hope (by decide))

end Dash7
