import Verif.Deku

/-!
# Generic facts about parser trees, writers and the concrete reader
-/

namespace Dash7

/-! ## `P.eval` -/

namespace P

variable {α β : Type}

@[simp] theorem bind_eq (p : P α) (f : α → P β) : (p >>= f) = p.bind f := rfl
@[simp] theorem pure_eq (a : α) : (Pure.pure a : P α) = P.pure a := rfl
@[simp] theorem pure_bind (a : α) (f : α → P β) : (P.pure a).bind f = f a := rfl
@[simp] theorem fail_bind (e : Fault) (f : α → P β) : (P.fail e : P α).bind f = P.fail e := rfl

@[simp] theorem eval_pure (a : α) (s : List Bool) : (P.pure a).eval s = .ok (a, s) := rfl
@[simp] theorem eval_fail (e : Fault) (s : List Bool) :
    (P.fail e : P α).eval s = .error (.fault e) := rfl

theorem eval_bits (n : Nat) (k : List Bool → P α) (s : List Bool) :
    (P.bits n k).eval s =
      if n ≤ s.length then (k (s.take n)).eval (s.drop n) else .error .incomplete := rfl

theorem eval_bind (p : P α) (f : α → P β) (s : List Bool) :
    (p.bind f).eval s =
      match p.eval s with
      | .ok (a, s') => (f a).eval s'
      | .error e => .error e := by
  induction p generalizing s with
  | pure a => rfl
  | fail e => rfl
  | bits n k ih =>
    simp only [bind, eval]
    split
    · exact ih _ _
    · rfl

/-- A successful reader leaves a suffix, and does the same on any longer input. -/
theorem eval_ok (p : P α) {s s' : List Bool} {a : α} (h : p.eval s = .ok (a, s')) :
    ∃ c, s = c ++ s' ∧ ∀ t, p.eval (c ++ t) = .ok (a, t) := by
  induction p generalizing s with
  | pure b =>
    simp only [eval, Except.ok.injEq, Prod.mk.injEq] at h
    obtain ⟨rfl, rfl⟩ := h
    exact ⟨[], rfl, fun t => rfl⟩
  | fail e => simp [eval] at h
  | bits n k ih =>
    simp only [eval] at h
    split at h
    · rename_i hn
      obtain ⟨c, hc, hall⟩ := ih _ h
      refine ⟨s.take n ++ c, ?_, ?_⟩
      · rw [List.append_assoc, ← hc, List.take_append_drop]
      · intro t
        have hlen : (s.take n).length = n := by simp; omega
        have : n ≤ (s.take n ++ c ++ t).length := by simp; omega
        rw [eval, if_pos this, List.append_assoc, List.take_append_of_le_length (by omega),
          List.drop_append_of_le_length (by omega)]
        rw [List.take_take, Nat.min_self]
        simpa using hall t
    · cases h

theorem eval_extend (p : P α) {s s' : List Bool} {a : α} (h : p.eval s = .ok (a, s'))
    (t : List Bool) : p.eval (s ++ t) = .ok (a, s' ++ t) := by
  obtain ⟨c, rfl, hc⟩ := eval_ok p h
  rw [List.append_assoc]
  exact hc _

theorem eval_fault_extend (p : P α) {s : List Bool} {f : Fault}
    (h : p.eval s = .error (.fault f)) (t : List Bool) :
    p.eval (s ++ t) = .error (.fault f) := by
  induction p generalizing s with
  | pure b => simp [eval] at h
  | fail e => simpa [eval] using h
  | bits n k ih =>
    simp only [eval] at h
    split at h
    · rename_i hn
      have : n ≤ (s ++ t).length := by simp; omega
      rw [eval, if_pos this, List.take_append_of_le_length hn, List.drop_append_of_le_length hn]
      exact ih _ h
    · cases h

/-- Cutting the consumed part short makes the reader report `Incomplete`. -/
theorem eval_truncate (p : P α) {s s' : List Bool} {a : α} (h : p.eval s = .ok (a, s'))
    {k : Nat} (hk : k + s'.length < s.length) : p.eval (s.take k) = .error .incomplete := by
  induction p generalizing s k with
  | pure b =>
    simp only [eval, Except.ok.injEq, Prod.mk.injEq] at h
    obtain ⟨rfl, rfl⟩ := h
    omega
  | fail e => simp [eval] at h
  | bits n f ih =>
    simp only [eval] at h
    split at h
    · rename_i hn
      rw [eval]
      split
      · rename_i hk'
        simp only [List.length_take] at hk'
        rw [List.take_take, Nat.min_eq_left (by omega), List.drop_take]
        exact ih _ h (by simp; omega)
      · rfl
    · cases h

/-- A failed reader reports `Incomplete` or a fault it raised itself. -/
theorem eval_length (p : P α) {s s' : List Bool} {a : α} (h : p.eval s = .ok (a, s')) :
    s'.length ≤ s.length := by
  obtain ⟨c, rfl, _⟩ := eval_ok p h
  simp

end P

/-! ## Round trips -/

/-- Reading `bs` followed by anything gives `a` and leaves the rest. -/
def Dec {α : Type} (p : P α) (bs : List Bool) (a : α) : Prop :=
  ∀ rest, p.eval (bs ++ rest) = .ok (a, rest)

/-- The writer succeeds and its output is read back as `a`, whatever follows. -/
def RT {α : Type} (p : P α) (w : W) (a : α) : Prop :=
  ∃ bs, w = .ok bs ∧ Dec p bs a

namespace RT

variable {α β : Type}

theorem pure (a : α) : RT (P.pure a) (W.seq []) a := ⟨[], rfl, fun _ => rfl⟩

theorem pure' (a : α) : RT (P.pure a) (.ok []) a := ⟨[], rfl, fun _ => rfl⟩

theorem cons {p : P α} {f : α → P β} {w : W} {ws : List W} {a : α} {b : β}
    (h1 : RT p w a) (h2 : RT (f a) (W.seq ws) b) : RT (p.bind f) (W.seq (w :: ws)) b := by
  obtain ⟨x, rfl, hx⟩ := h1
  obtain ⟨y, hy, hdy⟩ := h2
  refine ⟨x ++ y, by simp [W.seq, hy], fun rest => ?_⟩
  rw [P.eval_bind, List.append_assoc, hx]
  exact hdy rest

theorem map {p : P α} {f : α → P β} {w : W} {a : α} {b : β}
    (h1 : RT p w a) (h2 : f a = P.pure b) : RT (p.bind f) w b := by
  obtain ⟨x, rfl, hx⟩ := h1
  refine ⟨x, rfl, fun rest => ?_⟩
  rw [P.eval_bind, hx]
  simp [h2]

theorem uint {w n : Nat} {v : BitVec w} (hn : n ≤ w) (hv : v.toNat < 2 ^ n) :
    RT (P.uint w n) (W.uint n v) v := by
  refine ⟨natBits n v.toNat, by simp [W.uint, Nat.not_lt.mpr hn], fun rest => ?_⟩
  simp only [P.uint, Nat.not_lt.mpr hn, if_false, P.eval_bits]
  rw [if_pos (by simp), List.take_append_of_le_length (by simp),
    List.drop_append_of_le_length (by simp)]
  simp [bitsNat_natBits_of_lt hv, List.take_of_length_le, List.drop_of_length_le]

theorem uintFull {w : Nat} (v : BitVec w) : RT (P.uint w w) (W.uint w v) v :=
  uint (Nat.le_refl _) v.isLt

theorem u8 (v : U8) : RT P.u8 (W.u8 v) v := uintFull v

theorem flag (b : Bool) : RT P.flag (W.flag b) b := by
  refine ⟨[b], rfl, fun rest => ?_⟩
  cases b <;> rfl

theorem pad (n : Nat) : RT (P.pad n) (W.pad n) () := by
  refine ⟨List.replicate n false, rfl, fun rest => ?_⟩
  simp only [P.pad, P.eval_bits]
  rw [if_pos (by simp), List.drop_append_of_le_length (by simp)]
  simp

theorem uintLE {k : Nat} (v : BitVec (8 * k)) : RT (P.uintLE k) (W.uintLE k v) v := by
  refine ⟨_, rfl, fun rest => ?_⟩
  have hlen : (bytesBits (packBits (natBits (8 * k) v.toNat)).reverse).length = 8 * k := by
    simp [packBits_length]; omega
  simp only [P.uintLE, P.eval_bits]
  rw [if_pos (by rw [List.length_append, hlen]; omega),
    List.take_append_of_le_length (by omega), List.drop_append_of_le_length (by omega),
    List.take_of_length_le (by omega), List.drop_of_length_le (by omega), packBits_bytesBits,
    List.reverse_reverse, bytesBits_packBits _ (by simp [Nat.dvd_mul_right]), bitsNat_natBits_of_lt v.isLt]
  simp

theorem uintHost (cfg : Cfg) {k : Nat} (v : BitVec (8 * k)) :
    RT (P.uintHost cfg k) (W.uintHost cfg k v) v := by
  unfold P.uintHost W.uintHost
  split
  · exact uintFull v
  · exact uintLE v

theorem count {p : P α} {w : α → W} {l : List α} (h : ∀ a ∈ l, RT p (w a) a) :
    RT (P.count p l.length) (W.list w l) l := by
  induction l with
  | nil => exact RT.pure _
  | cons a l ih =>
    refine RT.cons (ws := l.map w) (h a (by simp)) ?_
    refine RT.map (ih fun b hb => h b (by simp [hb])) rfl

theorem count' {p : P α} {w : α → W} {l : List α} {n : Nat} (hn : l.length = n)
    (h : ∀ a ∈ l, RT p (w a) a) : RT (P.count p n) (W.list w l) l := hn ▸ count h

end RT

theorem W.seq_append (a b : List W) : W.seq (a ++ b) = W.seq [W.seq a, W.seq b] := by
  induction a with
  | nil =>
    simp only [List.nil_append, W.seq]
    cases W.seq b <;> simp
  | cons x a ih =>
    simp only [List.cons_append, W.seq] at ih ⊢
    rw [ih]
    cases x <;> cases W.seq a <;> cases W.seq b <;> simp

theorem W.seq_singleton (a : W) : W.seq [a] = a := by
  cases a <;> simp [W.seq]

namespace RT
variable {α β : Type}

theorem array {p : P α} {w : α → W} {n : Nat} {v : Vector α n} (h : ∀ a ∈ v, RT p (w a) a) :
    RT (P.array p n) (W.list w v.toList) v := by
  induction n with
  | zero =>
    have : v = #v[] := by simp
    subst this
    exact RT.pure _
  | succ n ih =>
    obtain ⟨as, a, rfl⟩ : ∃ as : Vector α n, ∃ a, v = as.push a :=
      ⟨v.pop, v.back, by simp⟩
    have h1 := ih (v := as) fun b hb => h b (by simp [hb])
    have h2 := h a (by simp)
    have : W.list w (as.push a).toList = W.seq [W.list w as.toList, w a] := by
      simp only [W.list, Vector.toList_push, List.map_append, List.map_cons, List.map_nil]
      rw [W.seq_append, W.seq_singleton]
    rw [this]
    refine RT.cons h1 ?_
    refine RT.cons (a := a) h2 ?_
    exact RT.pure _

theorem enum {ε : Type} {n : Nat} {ofId : U8 → Option ε} {i : U8} {e : ε}
    (h : ofId i = some e) (hn : n ≤ 8) (hi : i.toNat < 2 ^ n) :
    RT (P.enum n ofId) (W.uint n i) e := by
  refine RT.map (RT.uint hn hi) ?_
  simp [h]

theorem cond {p : P α} {w : α → W} {o : Option α} {c : Bool} (hc : c = o.isSome)
    (h : ∀ a, o = some a → RT p (w a) a) : RT (P.cond c p) (W.opt w o) o := by
  cases o with
  | none => subst hc; exact RT.pure _
  | some a => subst hc; exact RT.map (h a rfl) rfl

end RT

/-! ## Post-conditions of readers -/

/-- Every successful read satisfies `Q value consumedBits`. -/
def Post {α : Type} (p : P α) (Q : α → Nat → Prop) : Prop :=
  ∀ c s' a, p.eval (c ++ s') = .ok (a, s') → Q a c.length

/-- The writer succeeds with at most `n` bits. -/
def LenLe (w : W) (n : Nat) : Prop := ∃ bs, w = .ok bs ∧ bs.length ≤ n

namespace LenLe
theorem nil : LenLe (W.seq []) 0 := ⟨[], rfl, by simp⟩
theorem nil' {n : Nat} : LenLe (W.seq []) n := ⟨[], rfl, by simp⟩
theorem cons {w : W} {ws : List W} {n m : Nat} (h1 : LenLe w n) (h2 : LenLe (W.seq ws) m) :
    LenLe (W.seq (w :: ws)) (n + m) := by
  obtain ⟨x, rfl, hx⟩ := h1
  obtain ⟨y, hy, hy'⟩ := h2
  exact ⟨x ++ y, by simp [W.seq, hy], by simp; omega⟩
theorem mono {w : W} {n m : Nat} (h : LenLe w n) (hnm : n ≤ m) : LenLe w m := by
  obtain ⟨x, rfl, hx⟩ := h
  exact ⟨x, rfl, by omega⟩
end LenLe

namespace Post

variable {α β : Type}

theorem mono {p : P α} {Q Q' : α → Nat → Prop} (h : Post p Q) (hq : ∀ a n, Q a n → Q' a n) :
    Post p Q' := fun c s' a he => hq _ _ (h c s' a he)

theorem pure {a : α} {Q : α → Nat → Prop} (h : Q a 0) : Post (P.pure a) Q := by
  intro c s' b he
  simp only [P.eval_pure, Except.ok.injEq, Prod.mk.injEq] at he
  obtain ⟨rfl, he⟩ := he
  have : c = [] := by simpa using he
  subst this; exact h

theorem fail {e : Fault} {Q : α → Nat → Prop} : Post (P.fail e) Q := by
  intro c s' b he; simp at he

theorem bits {n : Nat} {k : List Bool → P α} {Q : α → Nat → Prop}
    (h : ∀ l, l.length = n → Post (k l) (fun a m => Q a (n + m))) : Post (P.bits n k) Q := by
  intro c s' a he
  rw [P.eval_bits] at he
  split at he
  · rename_i hn
    obtain ⟨d, hd, _⟩ := P.eval_ok _ he
    have h1 := h ((c ++ s').take n) (by simp; simp at hn; omega) d s' a (hd ▸ he)
    have : c.length = n + d.length := by
      have := congrArg List.length hd
      simp at this hn
      omega
    rwa [this]
  · cases he

theorem bind {p : P α} {f : α → P β} {Q1 : α → Nat → Prop} {Q : β → Nat → Prop}
    (hp : Post p Q1) (hf : ∀ a n, Q1 a n → Post (f a) (fun b m => Q b (n + m))) :
    Post (p.bind f) Q := by
  intro c s' b he
  rw [P.eval_bind] at he
  split at he
  · rename_i a s1 h1
    obtain ⟨d, hd, _⟩ := P.eval_ok p h1
    obtain ⟨d', hd', _⟩ := P.eval_ok _ he
    have q1 := hp d s1 a (hd ▸ h1)
    have q := hf a _ q1 d' s' b (hd' ▸ he)
    have : c.length = d.length + d'.length := by
      have h1 := congrArg List.length hd
      have h2 := congrArg List.length hd'
      simp at h1 h2
      omega
    rwa [this]
  · cases he

theorem uint {w n : Nat} :
    Post (P.uint w n) (fun v m => m = n ∧ n ≤ w ∧ v.toNat < 2 ^ n ∧ LenLe (W.uint n v) m) := by
  unfold P.uint
  split
  · exact fail
  · rename_i hn
    refine bits fun l hl => pure ?_
    have hlt := bitsNat_lt l
    rw [hl] at hlt
    refine ⟨by simp, by omega, ?_, _, by rw [W.uint, if_neg hn], by simp⟩
    rw [BitVec.toNat_ofNat]
    exact Nat.lt_of_le_of_lt (Nat.mod_le _ _) hlt

theorem u8 : Post P.u8 (fun v n => n = 8 ∧ LenLe (W.u8 v) n) :=
  uint.mono fun _ _ ⟨h1, _, _, h2⟩ => ⟨h1, h2⟩

theorem flag : Post P.flag (fun v n => n = 1 ∧ LenLe (W.flag v) n) :=
  bits fun _ _ => pure ⟨rfl, _, rfl, by simp⟩

theorem pad {k : Nat} : Post (P.pad k) (fun _ n => n = k ∧ LenLe (W.pad k) n) :=
  bits fun _ _ => pure ⟨by simp, _, rfl, by simp⟩

theorem uintLE {k : Nat} :
    Post (P.uintLE k) (fun v n => n = 8 * k ∧ LenLe (W.uintLE k v) n) :=
  bits fun _ _ => pure ⟨by simp, _, rfl, by simp [packBits_length]; omega⟩

theorem uintHost {cfg : Cfg} {k : Nat} :
    Post (P.uintHost cfg k) (fun v n => n = 8 * k ∧ LenLe (W.uintHost cfg k v) n) := by
  unfold P.uintHost W.uintHost
  split
  · exact uint.mono fun _ _ ⟨h1, _, _, h2⟩ => ⟨h1, h2⟩
  · exact uintLE

theorem enum {ε : Type} {n : Nat} {ofId : U8 → Option ε} :
    Post (P.enum n ofId) (fun e m => m = n ∧ ∃ i, ofId i = some e ∧ i.toNat < 2 ^ n) := by
  refine bind uint fun i m hi => ?_
  split
  · rename_i e he
    exact pure ⟨by omega, i, he, hi.2.2.1⟩
  · exact fail

/-- Post-condition of a counted list. -/
theorem count {p : P α} {w : α → W} {WF : α → Prop}
    (h : Post p fun a n => WF a ∧ LenLe (w a) n) (k : Nat) :
    Post (P.count p k) (fun l n => l.length = k ∧ (∀ a ∈ l, WF a) ∧ LenLe (W.list w l) n) := by
  induction k with
  | zero => exact pure ⟨rfl, by simp, LenLe.nil⟩
  | succ k ih =>
    refine bind h fun a n ⟨h1, h2⟩ => ?_
    refine bind ih fun l m ⟨h3, h4, h5⟩ => ?_
    refine pure ⟨by simp [h3], ?_, ?_⟩
    · intro b hb
      rcases List.mem_cons.mp hb with rfl | hb
      · exact h1
      · exact h4 b hb
    · exact LenLe.cons (ws := l.map w) h2 h5

theorem array {p : P α} {w : α → W} {WF : α → Prop}
    (h : Post p fun a n => WF a ∧ LenLe (w a) n) (k : Nat) :
    Post (P.array p k) (fun l n => (∀ a ∈ l, WF a) ∧ LenLe (W.list w l.toList) n) := by
  induction k with
  | zero => exact pure ⟨by simp, LenLe.nil⟩
  | succ k ih =>
    refine bind ih fun l m ⟨h4, h5⟩ => ?_
    refine bind h fun a n ⟨h1, h2⟩ => ?_
    refine pure ⟨?_, ?_⟩
    · intro b hb
      rcases Vector.mem_push.mp hb with hb | rfl
      · exact h4 b hb
      · exact h1
    · simp only [W.list, Vector.toList_push, List.map_append, List.map_cons, List.map_nil]
      rw [W.seq_append]
      exact LenLe.cons h5 (LenLe.cons (by rw [W.seq_singleton]; exact h2) LenLe.nil)

end Post

theorem U8.forall {p : U8 → Prop} (h : ∀ i : Fin 256, p (BitVec.ofNat 8 i.val)) (b : U8) : p b := by
  have := h ⟨b.toNat, b.isLt⟩
  simpa using this

end Dash7
