import Verif.Spec.Accept
import Verif.Lemmas.Leaf3

/-!
# Readers and the forms they take: building blocks
-/

namespace Dash7

/-! ## Values of rows of bits -/

namespace Form

theorem value_eq (l : List Bool) : value l = bitsNat l := by
  induction l with
  | nil => rfl
  | cons b l ih => rw [value, ih, bitsNat_cons]

theorem ofBytes_eq (bs : List U8) : ofBytes bs = bytesBits bs := by
  induction bs with
  | nil => rfl
  | cons b bs ih =>
    rw [bytesBits, ← ih, natBits8_eq]
    rfl

end Form

/-- Reading a row of bits to its end gives exactly the values of which it is a form. -/
def Fits {α : Type} (p : P α) (F : α → Form) : Prop :=
  ∀ a c s', p.eval (c ++ s') = .ok (a, s') ↔ F a c

namespace Fits

variable {α β : Type}

theorem conv {p : P α} {F G : α → Form} (h : Fits p F) (hFG : ∀ a c, F a c ↔ G a c) : Fits p G :=
  fun a c s' => (h a c s').trans (hFG a c)

theorem bind_iff {p : P α} {S : α → Form} (hp : Fits p S) (k : α → P β) (b : β) (c s' : List Bool) :
    (p.bind k).eval (c ++ s') = .ok (b, s') ↔
      ∃ a x y, c = x ++ y ∧ S a x ∧ (k a).eval (y ++ s') = .ok (b, s') := by
  rw [P.eval_bind]
  constructor
  · intro h
    split at h
    · rename_i a t ha
      obtain ⟨x, hx, hext⟩ := P.eval_ok _ ha
      obtain ⟨y, rfl, -⟩ := P.eval_ok _ h
      rw [← List.append_assoc] at hx
      have hx := List.append_cancel_right hx
      subst hx
      exact ⟨a, x, y, rfl, (hp a x []).1 (hext []), h⟩
    · cases h
  · rintro ⟨a, x, y, rfl, hs, hk⟩
    rw [List.append_assoc, (hp a x (y ++ s')).2 hs]
    exact hk

theorem fail {e : Fault} {F : α → Form} (h : ∀ a c, ¬ F a c) : Fits (P.fail e) F := by
  intro a c s'
  simp [h]

theorem uint {w n : Nat} (h : n ≤ w) : Fits (P.uint w n) (fun v => Form.field n v.toNat) := by
  intro v c s'
  rw [P.uint, if_neg (by omega), P.eval_bits]
  simp only [Form.field, Form.value_eq]
  constructor
  · intro h1
    split at h1
    · rename_i hl
      simp only [P.eval_pure, Except.ok.injEq, Prod.mk.injEq] at h1
      obtain ⟨h1, h2⟩ := h1
      have hn : c.length = n := by
        have := congrArg List.length h2
        simp at this hl
        omega
      subst hn
      rw [List.take_left] at h1
      refine ⟨rfl, ?_⟩
      rw [← h1, BitVec.toNat_ofNat, Nat.mod_eq_of_lt]
      exact Nat.lt_of_lt_of_le (bitsNat_lt c) (Nat.pow_le_pow_right (by decide) h)
    · cases h1
  · rintro ⟨rfl, hv⟩
    rw [if_pos (by simp), List.take_left, List.drop_left, hv]
    simp

theorem u8 : Fits P.u8 (fun v => Form.field 8 v.toNat) := uint (Nat.le_refl _)

theorem u16 : Fits (P.uint 16 16) (fun v => Form.number 2 v.toNat) := uint (Nat.le_refl _)
theorem u32 : Fits (P.uint 32 32) (fun v => Form.number 4 v.toNat) := uint (Nat.le_refl _)
theorem u64 : Fits (P.uint 64 64) (fun v => Form.number 8 v.toNat) := uint (Nat.le_refl _)

theorem bits {n : Nat} {f : List Bool → α} :
    Fits (P.bits n fun l => .pure (f l)) (fun a c => c.length = n ∧ a = f c) := by
  intro v c s'
  rw [P.eval_bits]
  constructor
  · intro h1
    split at h1
    · rename_i hl
      simp only [P.eval_pure, Except.ok.injEq, Prod.mk.injEq] at h1
      obtain ⟨h1, h2⟩ := h1
      have hn : c.length = n := by
        have := congrArg List.length h2
        simp at this hl
        omega
      subst hn
      rw [List.take_left] at h1
      exact ⟨rfl, h1.symm⟩
    · cases h1
  · rintro ⟨rfl, rfl⟩
    rw [if_pos (by simp), List.take_left, List.drop_left]
    rfl

theorem flag : Fits P.flag Form.flag := by
  refine bits.conv ?_
  intro b c
  constructor
  · rintro ⟨h, rfl⟩
    match c, h with
    | [x], _ => cases x <;> rfl
  · rintro rfl
    exact ⟨rfl, by cases b <;> rfl⟩

theorem pad (n : Nat) : Fits (P.pad n) (fun _ => Form.reserved n) :=
  bits.conv fun _ _ => ⟨fun h => h.1, fun h => ⟨h, rfl⟩⟩

theorem enum {ε : Type} {n : Nat} {ofId : U8 → Option ε} {code : ε → Nat} (hn : n ≤ 8)
    (hc : ∀ (e : ε) (i : U8), i.toNat < 2 ^ n → (ofId i = some e ↔ code e = i.toNat)) :
    Fits (P.enum n ofId) (fun e => Form.field n (code e)) := by
  intro e c s'
  rw [P.enum, (uint hn).bind_iff]
  constructor
  · rintro ⟨i, x, y, rfl, ⟨hx, hv⟩, hk⟩
    have hi : i.toNat < 2 ^ n := by rw [← hv, ← hx, Form.value_eq]; exact bitsNat_lt x
    split at hk
    · rename_i e' he
      simp only [P.eval_pure, Except.ok.injEq, Prod.mk.injEq] at hk
      obtain ⟨rfl, hy⟩ := hk
      have : y = [] := by simpa using hy
      subst this
      rw [List.append_nil]
      exact ⟨hx, hv.trans ((hc _ i hi).1 he).symm⟩
    · cases hk
  · rintro ⟨hx, hv⟩
    have hi : code e < 2 ^ n := by rw [← hv, ← hx, Form.value_eq]; exact bitsNat_lt c
    have h8 : 2 ^ n ≤ 2 ^ 8 := Nat.pow_le_pow_right (by decide) hn
    have ht : (BitVec.ofNat 8 (code e)).toNat = code e := by
      rw [BitVec.toNat_ofNat, Nat.mod_eq_of_lt (by omega)]
    refine ⟨BitVec.ofNat 8 (code e), c, [], by simp, ⟨hx, ?_⟩, ?_⟩
    · rw [ht, hv]
    · rw [(hc e _ (by rw [ht]; exact hi)).2 (by rw [ht])]
      rfl

/-! ## Fields in order -/

/-- No condition on the value yet. -/
theorem start {p : P α} {F : α → Form} (h : Fits p (fun b c => True ∧ F b c)) : Fits p F :=
  h.conv fun _ _ => by simp

/-- One more field, kept in the value. `G` collects what is known of the fields so far. -/
theorem cons {p : P α} {k : α → P β} {S : α → Form} {G : β → Prop} {proj : β → α}
    {rest : β → List Form} (hp : Fits p S)
    (hk : ∀ a, Fits (k a) (fun b c => (G b ∧ proj b = a) ∧ Form.all (rest b) c)) :
    Fits (p.bind k) (fun b c => G b ∧ Form.all (S (proj b) :: rest b) c) := by
  intro b c s'
  rw [hp.bind_iff]
  constructor
  · rintro ⟨a, x, y, rfl, hs, hy⟩
    obtain ⟨⟨hg, rfl⟩, hr⟩ := (hk a b y s').1 hy
    exact ⟨hg, x, y, rfl, hs, hr⟩
  · rintro ⟨hg, x, y, rfl, hs, hr⟩
    exact ⟨proj b, x, y, rfl, hs, (hk _ b y s').2 ⟨⟨hg, rfl⟩, hr⟩⟩

/-- One more field, not kept. -/
theorem skip {p : P α} {k : α → P β} {S : Form} {G : β → Prop} {rest : β → List Form}
    (hp : Fits p (fun _ => S)) (x : α) (hx : ∀ y, y = x)
    (hk : Fits (k x) (fun b c => G b ∧ Form.all (rest b) c)) :
    Fits (p.bind k) (fun b c => G b ∧ Form.all (S :: rest b) c) := by
  intro b c s'
  rw [hp.bind_iff]
  constructor
  · rintro ⟨a, x, y, rfl, hs, hy⟩
    rw [hx a] at hy
    obtain ⟨hg, hr⟩ := (hk b y s').1 hy
    exact ⟨hg, x, y, rfl, hs, hr⟩
  · rintro ⟨hg, x', y, rfl, hs, hr⟩
    exact ⟨x, x', y, rfl, hs, (hk b y s').2 ⟨hg, hr⟩⟩

/-- One more field, whose form may be told with what is known of the fields before. -/
theorem dep {p : P α} {k : α → P β} {S : α → Form} {G : β → Prop} (proj : β → α) {F : β → Form}
    {rest : β → List Form} (hp : Fits p S) (hF : ∀ b, G b → ∀ c, F b c ↔ S (proj b) c)
    (hk : ∀ a, Fits (k a) (fun b c => (G b ∧ proj b = a) ∧ Form.all (rest b) c)) :
    Fits (p.bind k) (fun b c => G b ∧ Form.all (F b :: rest b) c) := by
  refine (cons (proj := proj) hp hk).conv fun b c => ?_
  refine and_congr_right fun hg => ?_
  constructor
  · rintro ⟨x, y, rfl, hs, hr⟩; exact ⟨x, y, rfl, (hF b hg x).2 hs, hr⟩
  · rintro ⟨x, y, rfl, hs, hr⟩; exact ⟨x, y, rfl, (hF b hg x).1 hs, hr⟩

/-- All fields read. -/
theorem done {x : α} {G : α → Prop} (h : ∀ b, G b ↔ b = x) :
    Fits (P.pure x) (fun b c => G b ∧ Form.all [] c) := by
  intro b c s'
  simp only [P.eval_pure, Except.ok.injEq, Prod.mk.injEq, h, Form.all]
  constructor
  · rintro ⟨rfl, h⟩; exact ⟨rfl, by simpa using h⟩
  · rintro ⟨rfl, rfl⟩; exact ⟨rfl, rfl⟩

/-- All fields read, and a condition. -/
theorem done_given {x : α} {G q : α → Prop} (h : ∀ b, G b ∧ q b ↔ b = x) :
    Fits (P.pure x) (fun b c => G b ∧ Form.all [Form.given (q b)] c) := by
  refine (done h).conv fun b c => ?_
  simp only [Form.all, Form.given]
  constructor
  · rintro ⟨⟨hg, hq⟩, rfl⟩; exact ⟨hg, [], [], rfl, ⟨rfl, hq⟩, rfl⟩
  · rintro ⟨hg, _, _, rfl, ⟨rfl, hq⟩, rfl⟩; exact ⟨⟨hg, hq⟩, rfl⟩

/-- A value made of one part. -/
theorem map {p : P α} {S : α → Form} {f : α → β} {F : β → Form} (hp : Fits p S)
    (h : ∀ b c, F b c ↔ ∃ a, b = f a ∧ S a c) : Fits (p.bind fun a => P.pure (f a)) F := by
  intro b c s'
  rw [hp.bind_iff, h]
  constructor
  · rintro ⟨a, x, y, rfl, hs, hy⟩
    simp only [P.eval_pure, Except.ok.injEq, Prod.mk.injEq] at hy
    obtain ⟨rfl, hy⟩ := hy
    have : y = [] := by simpa using hy
    subst this
    exact ⟨a, rfl, by simpa using hs⟩
  · rintro ⟨a, rfl, hs⟩
    exact ⟨a, c, [], by simp, hs, rfl⟩

/-! ## Several -/

theorem pure {x : α} {F : α → Form} (h : ∀ b c, F b c ↔ b = x ∧ c = []) : Fits (P.pure x) F := by
  intro b c s'
  simp only [P.eval_pure, Except.ok.injEq, Prod.mk.injEq, h]
  constructor
  · rintro ⟨rfl, h⟩; exact ⟨rfl, by simpa using h⟩
  · rintro ⟨rfl, rfl⟩; exact ⟨rfl, rfl⟩

theorem count {p : P α} {S : α → Form} (hp : Fits p S) (n : Nat) :
    Fits (P.count p n) (fun l c => l.length = n ∧ Form.all (l.map S) c) := by
  induction n with
  | zero =>
    refine pure fun b c => ?_
    constructor
    · rintro ⟨h, hc⟩
      have := List.eq_nil_of_length_eq_zero h
      subst this
      exact ⟨rfl, hc⟩
    · rintro ⟨rfl, rfl⟩
      exact ⟨rfl, rfl⟩
  | succ n ih =>
    intro b c s'
    rw [P.count, hp.bind_iff]
    constructor
    · rintro ⟨a, x, y, rfl, hs, hy⟩
      obtain ⟨as, y1, y2, rfl, ⟨hl, hs'⟩, hz⟩ := (ih.bind_iff _ _ _ _).1 hy
      simp only [P.eval_pure, Except.ok.injEq, Prod.mk.injEq] at hz
      obtain ⟨rfl, hz⟩ := hz
      have : y2 = [] := by simpa using hz
      subst this
      exact ⟨by simp [hl], x, y1, by simp, hs, hs'⟩
    · rintro ⟨hl, hc⟩
      match b, hl with
      | a :: as, hl =>
        obtain ⟨x, y, rfl, hs, hs'⟩ := hc
        refine ⟨a, x, y, rfl, hs, ?_⟩
        rw [ih.bind_iff]
        exact ⟨as, y, [], by simp, ⟨by simpa using hl, hs'⟩, rfl⟩

theorem _root_.Dash7.Form.all_append (fs gs : List Form) (c : List Bool) :
    Form.all (fs ++ gs) c ↔ ∃ x y, c = x ++ y ∧ Form.all fs x ∧ Form.all gs y := by
  induction fs generalizing c with
  | nil =>
    simp only [List.nil_append, Form.all]
    constructor
    · intro h; exact ⟨[], c, rfl, rfl, h⟩
    · rintro ⟨_, _, rfl, rfl, h⟩; exact h
  | cons f fs ih =>
    simp only [List.cons_append, Form.all, ih]
    constructor
    · rintro ⟨a, _, rfl, hf, x, y, rfl, h1, h2⟩
      exact ⟨a ++ x, y, by simp, ⟨a, x, rfl, hf, h1⟩, h2⟩
    · rintro ⟨_, y, rfl, ⟨a, x, rfl, hf, h1⟩, h2⟩
      exact ⟨a, x ++ y, by simp, hf, x, y, rfl, h1, h2⟩

theorem _root_.Dash7.Form.all_one (f : Form) (c : List Bool) : Form.all [f] c ↔ f c := by
  simp only [Form.all]
  constructor
  · rintro ⟨a, _, rfl, h, rfl⟩; simpa using h
  · intro h; exact ⟨c, [], by simp, h, rfl⟩

theorem _root_.Dash7.Form.all_given (q : Prop) (fs : List Form) (c : List Bool) :
    Form.all (Form.given q :: fs) c ↔ q ∧ Form.all fs c := by
  simp only [Form.all, Form.given]
  constructor
  · rintro ⟨_, b, rfl, ⟨rfl, h⟩, hb⟩; exact ⟨h, hb⟩
  · rintro ⟨h, hb⟩; exact ⟨[], c, rfl, ⟨rfl, h⟩, hb⟩

theorem array {p : P α} {S : α → Form} (hp : Fits p S) (n : Nat) :
    Fits (P.array p n) (fun v => Form.all (v.toList.map S)) := by
  induction n with
  | zero =>
    refine pure fun b c => ?_
    have : b = #v[] := by
      obtain ⟨⟨l⟩, h⟩ := b
      simp at h
      subst h
      rfl
    subst this
    exact ⟨fun h => ⟨rfl, h⟩, fun h => h.2⟩
  | succ n ih =>
    intro b c s'
    rw [P.array, ih.bind_iff]
    constructor
    · rintro ⟨as, x, y, rfl, hs, hy⟩
      obtain ⟨a, y1, y2, rfl, hs', hz⟩ := (hp.bind_iff _ _ _ _).1 hy
      simp only [P.eval_pure, Except.ok.injEq, Prod.mk.injEq] at hz
      obtain ⟨rfl, hz⟩ := hz
      have : y2 = [] := by simpa using hz
      subst this
      simp only [Vector.toList_push, List.map_append, List.map_cons, List.map_nil]
      rw [Form.all_append]
      exact ⟨x, y1, by simp, hs, (Form.all_one _ _).2 hs'⟩
    · intro h
      have hb : b = b.pop.push b.back := by simp
      have h2 : b.toList = b.pop.toList ++ [b.back] := by
        rw [← Vector.toList_push, ← hb]
      dsimp only at h
      rw [h2, List.map_append, List.map_cons, List.map_nil, Form.all_append] at h
      obtain ⟨x, y, rfl, h1, h2⟩ := h
      rw [Form.all_one] at h2
      refine ⟨b.pop, x, y, rfl, h1, ?_⟩
      rw [hp.bind_iff]
      exact ⟨b.back, y, [], by simp, h2, by rw [← hb]; rfl⟩

theorem _root_.Dash7.Form.all_bytes (l : List U8) (c : List Bool) :
    Form.all (l.map fun v => Form.field 8 v.toNat) c ↔ Form.bytes l c := by
  induction l generalizing c with
  | nil => rfl
  | cons b l ih =>
    simp only [List.map_cons, Form.all, ih]
    simp only [Form.bytes, Form.field, Form.ofBytes_eq, Form.value_eq, bytesBits]
    constructor
    · rintro ⟨x, _, rfl, ⟨h8, hv⟩, rfl⟩
      rw [← hv, ← h8, natBits_bitsNat]
    · rintro rfl
      exact ⟨_, _, rfl, ⟨natBits_length _ _, bitsNat_natBits_of_lt b.isLt⟩, rfl⟩

theorem bytes (n : Nat) : Fits (P.count P.u8 n) (Form.sized n) := by
  refine (count u8 n).conv fun l c => ?_
  rw [Form.all_bytes, Form.sized, Form.all_given, Form.all_one]

theorem bytes5 (n : Nat) : Fits (P.array P.u8 n) (fun v => Form.bytes v.toList) :=
  (array u8 n).conv fun _ _ => Form.all_bytes _ _

theorem host (cfg : Cfg) (k : Nat) :
    Fits (P.uintHost cfg k) (fun v => Form.hostNumber cfg.bigEndianHost k v.toNat) := by
  unfold P.uintHost
  cases cfg.bigEndianHost with
  | true =>
    refine (uint (Nat.le_refl _)).conv fun v c => ?_
    simp only [Form.hostNumber, Form.number, if_true, Form.ofBytes_eq]
    constructor
    · intro h
      refine ⟨packBits c, (bytesBits_packBits c ⟨k, h.1⟩).symm, ?_⟩
      rwa [bytesBits_packBits c ⟨k, h.1⟩]
    · rintro ⟨bs, rfl, h⟩; exact h
  | false =>
    unfold P.uintLE
    refine bits.conv fun v c => ?_
    simp only [Form.hostNumber, Form.number, Bool.false_eq_true, if_false, Form.ofBytes_eq, Form.field,
      Form.value_eq, bytesBits_length, List.length_reverse]
    constructor
    · rintro ⟨hl, rfl⟩
      have hp : bytesBits (packBits c) = c := bytesBits_packBits c ⟨k, hl⟩
      have hk : (packBits c).length = k := by rw [packBits_length, hl]; omega
      refine ⟨packBits c, hp.symm, by rw [hk], ?_⟩
      rw [BitVec.toNat_ofNat, Nat.mod_eq_of_lt]
      have := bitsNat_lt (bytesBits (packBits c).reverse)
      rwa [bytesBits_length, List.length_reverse, hk] at this
    · rintro ⟨bs, rfl, h8, hv⟩
      refine ⟨by rw [bytesBits_length]; exact h8, ?_⟩
      rw [packBits_bytesBits, hv]
      simp

theorem cond {p : P α} {S : α → Form} {F : Option α → Form} (b : Bool) (hp : Fits p S)
    (h1 : b = true → (∀ a c, F (some a) c ↔ S a c) ∧ ∀ c, ¬ F none c)
    (h0 : b = false → (∀ a c, ¬ F (some a) c) ∧ ∀ c, F none c ↔ c = []) :
    Fits (P.cond b p) F := by
  unfold P.cond
  cases b with
  | true =>
    simp only [if_true]
    refine map hp fun o c => ?_
    obtain ⟨ha, hb⟩ := h1 rfl
    cases o with
    | none => simp [hb]
    | some a => simp [ha]
  | false =>
    simp only [Bool.false_eq_true, if_false]
    refine pure fun o c => ?_
    obtain ⟨ha, hb⟩ := h0 rfl
    cases o with
    | none => simp [hb]
    | some a => simp [ha]

end Fits

end Dash7
