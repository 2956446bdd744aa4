import Verif.Lemmas.Derived

/-!
# Bits a reader does not look at
-/

namespace Dash7

/-- The reader's outcome does not depend on the `n` bits at position `m`. -/
def Ign {α : Type} (p : P α) (m n : Nat) : Prop :=
  ∀ x l l' s : List Bool, x.length = m → l.length = n → l'.length = n →
    p.eval (x ++ (l ++ s)) = p.eval (x ++ (l' ++ s))

namespace Ign

variable {α β : Type}

theorem fail {f : Fault} {m n : Nat} : Ign (P.fail f : P α) m n := fun _ _ _ _ _ _ _ => rfl

theorem bits {k m n : Nat} {g : List Bool → P α} (h : ∀ l, l.length = k → Ign (g l) m n) :
    Ign (P.bits k g) (k + m) n := by
  intro x l l' s hx hl hl'
  have e : ∀ r : List Bool, (P.bits k g).eval (x ++ r) = (g (x.take k)).eval (x.drop k ++ r) := by
    intro r
    rw [P.eval_bits, if_pos (by simp; omega), List.take_append_of_le_length (by omega),
      List.drop_append_of_le_length (by omega)]
  rw [e, e]
  exact h _ (by simp; omega) _ _ _ _ (by simp; omega) hl hl'

theorem skip {n : Nat} {f : Unit → P α} : Ign ((P.pad n).bind f) 0 n := by
  intro x l l' s hx hl hl'
  have hx : x = [] := List.eq_nil_of_length_eq_zero hx
  subst hx
  have e : ∀ r : List Bool, r.length = n → ((P.pad n).bind f).eval ([] ++ (r ++ s)) = (f ()).eval s := by
    intro r hr
    show (P.bits n fun _ => f ()).eval _ = _
    rw [P.eval_bits, if_pos (by simp; omega)]
    simp [← hr]
  rw [e _ hl, e _ hl']

/-- Only the first part of the padding. -/
theorem skip_part {n m k : Nat} {f : Unit → P α} (h : m + k ≤ n) : Ign ((P.pad n).bind f) m k := by
  intro x l l' s hx hl hl'
  show (P.bits n fun _ => f ()).eval _ = (P.bits n fun _ => f ()).eval _
  rw [P.eval_bits, P.eval_bits]
  have h1 : (x ++ (l ++ s)).length = (x ++ (l' ++ s)).length := by simp; omega
  have e : ∀ r : List Bool, r.length = k → (x ++ (r ++ s)).drop n = s.drop (n - m - k) := by
    intro r hr
    rw [List.drop_append, List.drop_append, List.drop_of_length_le (by omega),
      List.drop_of_length_le (by omega), hx, hr]
    rfl
  have h2 := (e l hl).trans (e l' hl').symm
  rw [h1, h2]

theorem bind {p : P α} {f : α → P β} {m n : Nat} (h : Ign p m n) : Ign (p.bind f) m n := by
  intro x l l' s hx hl hl'
  rw [P.eval_bind, P.eval_bind, h x l l' s hx hl hl']

theorem uint {w k m n : Nat} {f : BitVec w → P α} (h : ∀ v, Ign (f v) m n) :
    Ign ((P.uint w k).bind f) (k + m) n := by
  unfold P.uint
  split
  · exact fail
  · exact bits fun l _ => h _

theorem u8 {m n : Nat} {f : U8 → P α} (h : ∀ v, Ign (f v) m n) : Ign (P.u8.bind f) (8 + m) n := uint h

theorem flag {m n : Nat} {f : Bool → P α} (h : ∀ v, Ign (f v) m n) : Ign (P.flag.bind f) (1 + m) n :=
  bits fun _ _ => h _

theorem pad {k m n : Nat} {f : Unit → P α} (h : Ign (f ()) m n) : Ign ((P.pad k).bind f) (k + m) n :=
  bits fun _ _ => h

theorem bind_assoc {γ : Type} (p : P α) (f : α → P β) (g : β → P γ) :
    (p.bind f).bind g = p.bind fun a => (f a).bind g := by
  induction p with
  | pure a => rfl
  | fail e => rfl
  | bits n k ih => simp only [P.bind, ih]

theorem enum {ε : Type} {ofId : U8 → Option ε} {k m n : Nat} {f : ε → P α} (h : ∀ v, Ign (f v) m n) :
    Ign ((P.enum k ofId).bind f) (k + m) n := by
  unfold P.enum
  rw [bind_assoc]
  refine uint fun i => ?_
  cases ofId i with
  | some e => exact h e
  | none => exact fail

/-- From a statement about the rest of the reader. -/
theorem sub {p : P α} {k M n : Nat} (hk : k ≤ M) (h : Ign p (k + (M - k)) n) : Ign p M n := by
  rwa [Nat.add_sub_cancel' hk] at h

theorem cast {p : P α} {m m' n n' : Nat} (h : Ign p m n) (hm : m = m') (hn : n = n') : Ign p m' n' := by
  subst hm hn; exact h

end Ign

/-- Proves `Ign` field by field; the reader must be unfolded to primitive fields. -/
macro "ign" : tactic => `(tactic| (
  simp only [P.bind_eq, Ign.bind_assoc, P.pure_bind]
  repeat first
    | exact Ign.skip.cast rfl rfl
    | exact Ign.skip_part (by decide)
    | (apply Ign.sub; rotate_left; apply Ign.enum; intro _; rotate_left; decide)
    | (apply Ign.sub; rotate_left; apply Ign.uint; intro _; rotate_left; decide)
    | (apply Ign.sub; rotate_left; apply Ign.u8; intro _; rotate_left; decide)
    | (apply Ign.sub; rotate_left; apply Ign.flag; intro _; rotate_left; decide)
    | (apply Ign.sub; rotate_left; apply Ign.pad; rotate_left; decide)))

/-- `b` and `b'` differ at most in the given bits (0: the least significant one). -/
def Spec.sameExcept (reserved : List Nat) (b b' : U8) : Prop :=
  ∀ i, i < 8 → i ∉ reserved → b.getLsbD i = b'.getLsbD i

theorem natBits_byte (b : U8) : natBits 8 b.toNat = [b.getLsbD 7, b.getLsbD 6, b.getLsbD 5, b.getLsbD 4,
    b.getLsbD 3, b.getLsbD 2, b.getLsbD 1, b.getLsbD 0] := rfl

/-- Two inputs of the same length with the same outcome on bits have the same outcome on bytes. -/
theorem derivedTryFrom_congr {α : Type} {p : P α} {d d' : List U8} (hl : d.length = d'.length)
    (h : p.eval (bytesBits d) = p.eval (bytesBits d')) : derivedTryFrom p.run d = derivedTryFrom p.run d' := by
  match he : p.eval (bytesBits d) with
  | .error e => rw [(derived_err he).2, (derived_err (h ▸ he)).2]
  | .ok (b, s') =>
    obtain ⟨r, hr, hb, -⟩ := P.run_new he
    obtain ⟨r', hr', hb', -⟩ := P.run_new (h ▸ he)
    unfold derivedTryFrom
    rw [hr, hr']
    dsimp only
    have : r.bitsRead = r'.bitsRead := by omega
    rw [this, hl]

theorem Ign.byte {α : Type} {p : P α} {k m n : Nat} (h : Ign p (8 * k + m) n) (hmn : m + n ≤ 8)
    {pre t : List U8} {b b' : U8} (hk : pre.length = k)
    (hb : ∀ i, i < 8 → (i < 8 - m - n ∨ 8 - m ≤ i) → b.getLsbD i = b'.getLsbD i) :
    p.eval (bytesBits (pre ++ b :: t)) = p.eval (bytesBits (pre ++ b' :: t)) := by
  rw [bytesBits_append, bytesBits_append, bytesBits, bytesBits]
  have e : ∀ c : U8, natBits 8 c.toNat = (natBits 8 c.toNat).take m ++
      (((natBits 8 c.toNat).drop m).take n ++ (natBits 8 c.toNat).drop (m + n)) := by
    intro c
    rw [← List.drop_drop, List.take_append_drop, List.take_append_drop]
  have h1 : (natBits 8 b.toNat).take m = (natBits 8 b'.toNat).take m := by
    refine List.ext_getElem? fun j => ?_
    rw [List.getElem?_take, List.getElem?_take]
    split
    · rename_i hj
      have : j < 8 := by omega
      rw [natBits_byte, natBits_byte]
      have hb' := fun i hi hi' => hb i hi (Or.inr hi')
      rcases j with _ | _ | _ | _ | _ | _ | _ | _ | j
      all_goals first
        | (simp only [Nat.zero_add, List.getElem?_cons_zero, List.getElem?_cons_succ, Option.some.injEq]
           exact hb' _ (by omega) (by omega))
        | omega
    · rfl
  have h2 : (natBits 8 b.toNat).drop (m + n) = (natBits 8 b'.toNat).drop (m + n) := by
    refine List.ext_getElem? fun j => ?_
    rw [List.getElem?_drop, List.getElem?_drop, natBits_byte, natBits_byte]
    have hb' := fun i hi hi' => hb i hi (Or.inl hi')
    generalize hi : m + n + j = i
    rcases i with _ | _ | _ | _ | _ | _ | _ | _ | i
    all_goals first
      | (simp only [Nat.zero_add, List.getElem?_cons_zero, List.getElem?_cons_succ, Option.some.injEq]
         exact hb' _ (by omega) (by omega))
      | simp
  rw [e b, e b', h1, h2, ← List.append_assoc (bytesBits pre), ← List.append_assoc (bytesBits pre)]
  simp only [List.append_assoc]
  rw [← List.append_assoc (bytesBits pre), ← List.append_assoc (bytesBits pre)]
  exact h _ _ _ _ (by simp [bytesBits_length]; omega) (by simp; omega) (by simp; omega)

end Dash7
