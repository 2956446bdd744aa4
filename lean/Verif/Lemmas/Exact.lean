import Verif.Lemmas.Derived

/-!
# Readers from whose result the bits read can be told
-/

namespace Dash7

/-- Every successful read of the bits `c` as `a` satisfies `Q a c`. -/
def Took {α : Type} (p : P α) (Q : α → List Bool → Prop) : Prop :=
  ∀ c s' a, p.eval (c ++ s') = .ok (a, s') → Q a c

/-- Writing what was read restores the very bits. -/
def Exact {α : Type} (p : P α) (w : α → W) : Prop := Took p fun a c => w a = .ok c

namespace Took

variable {α β : Type}

theorem mono {p : P α} {Q Q' : α → List Bool → Prop} (h : Took p Q) (hq : ∀ a c, Q a c → Q' a c) :
    Took p Q' := fun c s' a he => hq _ _ (h c s' a he)

theorem pure {a : α} {Q : α → List Bool → Prop} (h : Q a []) : Took (P.pure a) Q := by
  intro c s' b he
  simp only [P.eval_pure, Except.ok.injEq, Prod.mk.injEq] at he
  obtain ⟨rfl, he⟩ := he
  have : c = [] := by simpa using he
  subst this; exact h

theorem fail {e : Fault} {Q : α → List Bool → Prop} : Took (P.fail e) Q := by
  intro c s' b he; simp at he

theorem bits {n : Nat} {k : List Bool → P α} {Q : α → List Bool → Prop}
    (h : ∀ l, l.length = n → Took (k l) (fun a c => Q a (l ++ c))) : Took (P.bits n k) Q := by
  intro c s' a he
  rw [P.eval_bits] at he
  split at he
  · rename_i hn
    obtain ⟨d, hd, _⟩ := P.eval_ok _ he
    have h1 : Q a ((c ++ s').take n ++ d) := h ((c ++ s').take n) (by simp; simp at hn; omega) d s' a (hd ▸ he)
    have : c = (c ++ s').take n ++ d := by
      have h2 : c ++ s' = (c ++ s').take n ++ d ++ s' := by
        rw [List.append_assoc, ← hd, List.take_append_drop]
      exact List.append_cancel_right h2
    rwa [← this] at h1
  · cases he

theorem bind {p : P α} {f : α → P β} {Q1 : α → List Bool → Prop} {Q : β → List Bool → Prop}
    (hp : Took p Q1) (hf : ∀ a c, Q1 a c → Took (f a) (fun b d => Q b (c ++ d))) :
    Took (p.bind f) Q := by
  intro c s' b he
  rw [P.eval_bind] at he
  split at he
  · rename_i a s1 h1
    obtain ⟨d, hd, _⟩ := P.eval_ok p h1
    obtain ⟨d', hd', _⟩ := P.eval_ok _ he
    have q1 := hp d s1 a (hd ▸ h1)
    have q := hf a _ q1 d' s' b (hd' ▸ he)
    have : c = d ++ d' := by
      rw [hd'] at hd
      rw [← List.append_assoc] at hd
      exact List.append_cancel_right hd
    rwa [this]
  · cases he

theorem uint {w n : Nat} : Took (P.uint w n) fun v c => W.uint n v = .ok c := by
  unfold P.uint
  split
  · exact fail
  · rename_i hn
    refine bits fun l hl => pure ?_
    have hlt := bitsNat_lt l
    have hp : 2 ^ n ≤ 2 ^ w := Nat.pow_le_pow_right (by omega) (by omega)
    rw [hl] at hlt
    rw [W.uint, if_neg hn, BitVec.toNat_ofNat, Nat.mod_eq_of_lt (by omega), ← hl, natBits_bitsNat]
    simp

theorem u8 : Took P.u8 fun v c => W.u8 v = .ok c := uint

theorem flag : Took P.flag fun v c => W.flag v = .ok c :=
  bits fun l hl => pure (by
    match l, hl with
    | [b], _ => cases b <;> rfl)

theorem uintLE {k : Nat} : Took (P.uintLE k) fun v c => W.uintLE k v = .ok c := by
  refine bits fun l hl => pure ?_
  have hlen : (bytesBits (packBits l).reverse).length = 8 * k := by
    simp [packBits_length]; omega
  have hlt := bitsNat_lt (bytesBits (packBits l).reverse)
  rw [hlen] at hlt
  rw [W.uintLE, BitVec.toNat_ofNat, Nat.mod_eq_of_lt hlt]
  have := natBits_bitsNat (bytesBits (packBits l).reverse)
  rw [hlen] at this
  rw [this, packBits_bytesBits, List.reverse_reverse, bytesBits_packBits _ (by omega)]
  simp

theorem uintHost {cfg : Cfg} {k : Nat} : Took (P.uintHost cfg k) fun v c => W.uintHost cfg k v = .ok c := by
  unfold P.uintHost W.uintHost
  split
  · exact uint
  · exact uintLE

theorem enum {ε : Type} {n : Nat} {ofId : U8 → Option ε} {id : ε → U8}
    (h : ∀ i e, i.toNat < 2 ^ n → ofId i = some e → id e = i) :
    Took (P.enum n ofId) fun e c => W.uint n (id e) = .ok c := by
  unfold P.enum
  refine bind (Q1 := fun v c => v.toNat < 2 ^ n ∧ W.uint n v = .ok c) ?_ fun i c hi => ?_
  · intro c s' v he
    exact ⟨(Post.uint c s' v he).2.2.1, uint c s' v he⟩
  · split
    · rename_i e he
      refine pure ?_
      rw [h i e hi.1 he, List.append_nil]
      exact hi.2
    · exact fail

end Took

theorem W.seq_exact {ws : List W} {w : W} {c d : List Bool} (h : w = .ok c) (h' : W.seq ws = .ok d) :
    W.seq (w :: ws) = .ok (c ++ d) := by
  subst h
  simp only [W.seq, h']

theorem Exact.derived {α : Type} {p : P α} {w : α → W} (h : Exact p w) (h8 : ∀ a, Mod8 (w a) 0)
    {data : List U8} {a : α} (ha : derivedTryFrom p.run data = .ok a) : (w a).toBytes = .ok data := by
  obtain ⟨s', he, hs⟩ := derivedTryFrom_inv ha
  obtain ⟨c, hc, -⟩ := P.eval_ok p he
  rw [hc] at he
  have hw := h c s' a he
  have hm := h8 a c hw
  have hl := congrArg List.length hc
  rw [bytesBits_length, List.length_append] at hl
  have : s' = [] := List.eq_nil_of_length_eq_zero (by omega)
  subst this
  rw [hw, W.toBytes]
  rw [List.append_nil] at hc
  rw [← hc, packBits_bytesBits]

/-! ## Readers that always take the same number of bits -/

/-- With `n` bits to go the reader succeeds and takes them. -/
def Avail {α : Type} (p : P α) (n : Nat) : Prop :=
  ∀ s : List Bool, n ≤ s.length → ∃ a, p.eval s = .ok (a, s.drop n)

theorem Avail.bits {α : Type} {n : Nat} {f : List Bool → α} : Avail (P.bits n fun l => .pure (f l)) n := by
  intro s hs
  exact ⟨_, by rw [P.eval_bits, if_pos hs, P.eval_pure]⟩

theorem Avail.uint {w n : Nat} (h : n ≤ w) : Avail (P.uint w n) n := by
  unfold P.uint
  rw [if_neg (by omega)]
  exact Avail.bits

theorem Avail.uintHost {cfg : Cfg} {k : Nat} : Avail (P.uintHost cfg k) (8 * k) := by
  unfold P.uintHost
  split
  · exact Avail.uint (Nat.le_refl _)
  · exact Avail.bits

theorem Avail.pure {α : Type} {a : α} : Avail (P.pure a) 0 := fun s _ => ⟨a, by simp⟩

theorem Avail.bind {α β : Type} {p : P α} {f : α → P β} {n m : Nat} (h : Avail p n)
    (h' : ∀ a, Avail (f a) m) : Avail (p.bind f) (n + m) := by
  intro s hs
  obtain ⟨a, ha⟩ := h s (by omega)
  obtain ⟨b, hb⟩ := h' a (s.drop n) (by rw [List.length_drop]; omega)
  exact ⟨b, by rw [P.eval_bind, ha]; dsimp only; rw [hb, List.drop_drop]⟩

theorem Avail.enum {ε : Type} {n : Nat} {ofId : U8 → Option ε} (hn : n ≤ 8)
    (h : ∀ i : U8, i.toNat < 2 ^ n → (ofId i).isSome = true) : Avail (P.enum n ofId) n := by
  intro s hs
  obtain ⟨i, hi⟩ := Avail.uint (w := 8) hn s hs
  obtain ⟨c, hc, -⟩ := P.eval_ok _ hi
  have hlt := (Post.uint c (s.drop n) i (by rw [← hc]; exact hi)).2.2.1
  obtain ⟨e, he⟩ := Option.isSome_iff_exists.1 (h i hlt)
  exact ⟨e, by rw [P.enum, P.eval_bind, hi]; dsimp only; rw [he, P.eval_pure]⟩

end Dash7
