import Verif.Lemmas.Shift
import Verif.Lemmas.Survive
import Verif.Props.Offset

/-!
# Commands read one bit into a byte, with something behind them
-/

namespace Dash7
open Spec

/-! ## The first bit of an action -/

theorem Form.two_first {v : Nat} {x y : Bool} {s t : List Bool} (h1 : Form.field 2 v (x :: s))
    (h2 : Form.field 2 v (y :: t)) : x = y := by
  obtain ⟨l1, v1⟩ := h1
  obtain ⟨l2, v2⟩ := h2
  obtain ⟨a, rfl⟩ := List.length_eq_one_iff.1 (show s.length = 1 by simpa using l1)
  obtain ⟨b, rfl⟩ := List.length_eq_one_iff.1 (show t.length = 1 by simpa using l2)
  revert v1 v2
  simp only [Form.value]
  cases x <;> cases y <;> cases a <;> cases b <;> simp <;> omega

/-- All forms of an action but a forward begin with the same bit. -/
theorem Form.operand_first {cfg : Cfg} {a : Action} (hf : ∀ o, a ≠ .forward o) (ht : a.isTx = false)
    {x y : Bool} {s t : List Bool} (h1 : Form.operand cfg a (x :: s)) (h2 : Form.operand cfg a (y :: t)) : x = y := by
  cases a with
  | forward o => exact absurd rfl (hf o)
  | txStatus o => cases ht
  | status o | chunk o | logic o =>
    obtain ⟨a1, b1, e1, f1, -⟩ := h1
    obtain ⟨a2, b2, e2, f2, -⟩ := h2
    cases a1 with
    | nil => cases f1.1
    | cons p a1 =>
      cases a2 with
      | nil => cases f2.1
      | cons q a2 =>
        simp only [List.cons_append, List.cons.injEq] at e1 e2
        rw [e1.1, e2.1]
        exact Form.two_first f1 f2
  | requestTag o =>
    obtain ⟨a1, b1, e1, rfl, -⟩ := h1
    obtain ⟨a2, b2, e2, rfl, -⟩ := h2
    simp only [List.cons_append, List.cons.injEq] at e1 e2
    rw [e1.1, e2.1]
  | _ o =>
    obtain ⟨a1, b1, e1, ⟨c1, d1, rfl, rfl, -⟩, -⟩ := h1
    obtain ⟨a2, b2, e2, ⟨c2, d2, rfl, rfl, -⟩, -⟩ := h2
    simp only [List.cons_append, List.cons.injEq] at e1 e2
    rw [e1.1, e2.1]

/-- The first bit of a forward is not looked at. -/
theorem Form.forward_first {cfg : Cfg} {o : Op.Forward} {x y : Bool} {s : List Bool}
    (h : Form.operand cfg (.forward o) (x :: s)) : Form.operand cfg (.forward o) (y :: s) := by
  obtain ⟨a, b, e, f, g⟩ := h
  obtain ⟨p, rfl⟩ := List.length_eq_one_iff.1 f
  simp only [List.cons_append, List.nil_append, List.cons.injEq] at e
  exact ⟨[y], b, by rw [e.2]; rfl, rfl, g⟩

/-! ## What was written, as a form -/

theorem Action.operand_of_write {cfg : Cfg} {a : Action} (hw : a.WF cfg) {b : List Bool}
    (hb : a.write cfg = .ok b) :
    8 ∣ b.length ∧ 8 ≤ b.length ∧ Form.operand cfg a b ∧
      ∀ rest, opcodeOf a = bitsNat (((b ++ rest).drop 2).take 6) := by
  obtain ⟨b', hb', h8, hpos, hdec⟩ := decode_write hw
  rw [hb] at hb'; cases hb'
  have hd : ∀ rest, (dispatch cfg (opAt 2 (b ++ rest))).eval (b ++ rest) = .ok (a, rest) := by
    intro rest
    have := hdec rest
    rwa [decode, if_pos (by simp; omega)] at this
  have hf := fun rest => (dispatch_fits cfg (opAt 2 (b ++ rest)) a b rest).1 (hd rest)
  refine ⟨h8, hpos, (hf []).2, fun rest => ?_⟩
  rw [(hf rest).1, opAt, BitVec.toNat_ofNat]
  have := bitsNat_lt (((b ++ rest).drop 2).take 6)
  have hl : (((b ++ rest).drop 2).take 6).length = 6 := by simp; omega
  rw [hl] at this
  exact Nat.mod_eq_of_lt (by omega)

theorem Action.eval_of_operand {cfg : Cfg} {a : Action} {wire more s : List Bool} (hl : 8 ≤ s.length)
    (hv : Form.value ((s.drop 2).take 6) = opcodeOf a) (h : Form.operand cfg a wire) :
    (dispatch cfg (opAt 2 s)).eval (wire ++ more) = .ok (a, more) := by
  refine (dispatch_fits cfg _ a wire more).2 ⟨?_, h⟩
  rw [← hv, opAt, BitVec.toNat_ofNat]
  have := bitsNat_lt ((s.drop 2).take 6)
  have hl : ((s.drop 2).take 6).length = 6 := by simp; omega
  rw [hl] at this
  rw [Nat.mod_eq_of_lt (by omega), Form.value_eq]

/-! ## The bit kept back stays -/

theorem steppedBack_one {cfg : Cfg} (hs : cfg.seekClears = false) {s : List Bool} (h : s.length % 8 = 1)
    : steppedBack cfg s = (s.drop 8).take 1 ++ s.drop 1 := by
  rw [steppedBack, if_neg (by simp [hs]), wholeBytes, h]
  congr 1
  rw [List.drop_take, List.drop_drop]

theorem endTest_one {cfg : Cfg} {s : List Bool} (h : s.length % 8 = 1) : endTest cfg s = 0 := by
  rw [endTest, if_neg (by omega)]

theorem asked_keep {cfg : Cfg} (hs : cfg.seekClears = false) (limit : Nat) (s : List Bool) :
    asked cfg limit s = s := by
  rw [asked, if_neg (by simp [hs])]

/-- One action, read one bit into a byte. -/
theorem Action.late_step {cfg : Cfg} {a : Action} (hw : a.WF cfg) {b rest wire more : List Bool}
    (hb : a.write cfg = .ok b) (hne : rest ≠ [])
    (hv : Form.value (((b ++ rest).drop 2).take 6) = opcodeOf a)
    (he : ((b ++ rest).drop 8).take 1 ++ (b ++ rest).drop 1 = wire ++ more) (ho : Form.operand cfg a wire) :
    more = rest ∧ wire.length = b.length ∧
      ((∃ o, a = .forward o) ∨ ((b ++ rest).drop 8).take 1 = b.take 1) := by
  obtain ⟨h8, hpos, hob, -⟩ := operand_of_write hw hb
  obtain ⟨b', hb', -, -, hdec⟩ := decode_write hw
  rw [hb] at hb'; cases hb'
  obtain ⟨x, t, rfl, ht⟩ := write_cons hpos
  have hlen : ((((x :: t) ++ rest).drop 8).take 1).length = 1 := by
    have := List.length_pos_iff.2 hne
    simp; omega
  obtain ⟨y, hy⟩ := List.length_eq_one_iff.1 hlen
  have hev := eval_of_operand (cfg := cfg) (a := a) (s := (x :: t) ++ rest) (more := more) (by simp; omega) hv ho
  rw [← he, hy] at hev
  have hx : (dispatch cfg (opAt 2 ((x :: t) ++ rest))).eval (x :: ((x :: t) ++ rest).drop 1) = .ok (a, more) :=
    dispatch_first cfg _ hev hw.isTx hb
  have hdd := hdec rest
  rw [decode, if_pos (by simp; omega)] at hdd
  have e : (x :: t) ++ rest = x :: ((x :: t) ++ rest).drop 1 := rfl
  rw [← e, hdd] at hx
  simp only [Except.ok.injEq, Prod.mk.injEq, true_and] at hx
  subst hx
  have hl := congrArg List.length he
  simp only [List.length_append, hlen, List.length_drop, List.length_cons] at hl
  refine ⟨rfl, by simp; omega, ?_⟩
  by_cases hf : ∃ o, a = .forward o
  · exact .inl hf
  · right
    cases wire with
    | nil => simp at hl; omega
    | cons z w =>
      rw [hy] at he ⊢
      simp only [List.cons_append, List.nil_append, List.cons.injEq] at he
      rw [he.1]
      have := Form.operand_first (fun o h => hf ⟨o, h⟩) hw.isTx hob ho
      rw [this]; rfl

/-- A whole command, one bit into a byte, the bit kept back staying. -/
theorem reading_late {cfg : Cfg} (hs : cfg.seekClears = false) {limit size : Nat} {as : List Action}
    (has : ∀ a ∈ as, a.WF cfg) {bs tail : List Bool} (hb : W.list (Action.write cfg) as = .ok bs)
    (ht : tail.length % 8 = 1) {stop : Bool} {left : List Bool} {n : Nat}
    (hr : reading cfg limit size stop as (bs ++ tail) left n) :
    left = tail ∧ n = bs.length + 8 * as.length ∧ 8 ∣ bs.length := by
  induction as generalizing bs stop n with
  | nil =>
    cases hb
    obtain ⟨hl, hn⟩ := hr
    rw [asked_keep hs] at hl
    subst hl
    refine ⟨rfl, ?_, by simp⟩
    rcases hn with ⟨-, rfl⟩ | ⟨-, -, rfl⟩
    · rfl
    · rw [endTest_one ht]; rfl
  | cons a as ih =>
    obtain ⟨b, c, hb1, hc, rfl⟩ := W.seq_cons_ok.1 hb
    obtain ⟨c', hc', hc8, -⟩ := Reads.write (cfg := cfg) (as := as) fun x hx => has x (by simp [hx])
    have hcc : c = c' := by
      have : W.list (Action.write cfg) as = .ok c := hc
      rw [this] at hc'; cases hc'; rfl
    subst hcc
    have hwa := has a (by simp)
    obtain ⟨h8, hpos, -⟩ := Action.operand_of_write hwa hb1
    simp only [reading, asked_keep hs] at hr
    obtain ⟨-, -, h8s, hv, wire, more, m, he, ho, hm, hn⟩ := hr
    have hmod : (b ++ c ++ tail).length % 8 = 1 := by simp; omega
    rw [steppedBack_one hs hmod, List.append_assoc] at he
    rw [List.append_assoc] at hv
    obtain ⟨rfl, hw, -⟩ := Action.late_step hwa hb1 (by
      intro h0
      have := congrArg List.length h0
      rw [List.length_append, List.length_nil] at this
      omega) hv he ho
    obtain ⟨i1, i2, i3⟩ := ih (fun x hx => has x (by simp [hx])) hc hm
    rw [endTest_one hmod] at hn
    refine ⟨i1, ?_, by simp; omega⟩
    simp; omega

/-- When a command of one action comes back, the bit kept back staying. -/
theorem reading_late_one {cfg : Cfg} (hs : cfg.seekClears = false) {limit size : Nat} {a : Action}
    (hwa : a.WF cfg) {b tail : List Bool} (hb : a.write cfg = .ok b) (ht : tail.length % 8 = 1)
    (hsz : (b ++ tail).length / 8 ≤ size) :
    (∃ n, reading cfg limit size false [a] (b ++ tail) tail n) ↔
      ((∃ o, a = .forward o) ∨ ((b ++ tail).drop 8).take 1 = b.take 1) ∧
      ((a.isIndirectForward = true ∧ limit = 0) ∨
        (bytePosition size (b ++ tail) < limit ∧
          (a.isIndirectForward = true ∨ limit ≤ bytePosition size (b ++ tail) + b.length / 8))) := by
  obtain ⟨h8, hpos, hob, hop⟩ := Action.operand_of_write hwa hb
  have hmod : (b ++ tail).length % 8 = 1 := by simp; omega
  have hne : tail ≠ [] := by intro h0; subst h0; simp at ht
  have hpt : bytePosition size tail = bytePosition size (b ++ tail) + b.length / 8 := by
    unfold bytePosition
    rw [List.length_append] at hsz ⊢
    omega
  constructor
  · rintro ⟨n, hr⟩
    simp only [reading, asked_keep hs] at hr
    obtain ⟨hL, -, h8s, hv, wire, more, m, he, ho, ⟨-, hm⟩, hn⟩ := hr
    rw [steppedBack_one hs hmod] at he
    obtain ⟨rfl, hw, hbit⟩ := Action.late_step hwa hb hne hv he ho
    refine ⟨hbit, ?_⟩
    unfold limitReached at hL hm
    rw [hpt] at hm
    rcases hm with ⟨hm, -⟩ | ⟨hm, hm2, -⟩
    · right; exact ⟨by omega, .inr hm.2⟩
    · rcases hm2 with h0 | h0
      · exact absurd h0 hne
      · by_cases hz : limit = 0
        · exact .inl ⟨h0, hz⟩
        · exact .inr ⟨by omega, .inl h0⟩
  · rintro ⟨hbit, hlim⟩
    obtain ⟨m, hend⟩ : ∃ m, reading cfg limit size a.isIndirectForward [] tail tail m := by
      refine ⟨if limitReached limit (bytePosition size tail) then 0 else endTest cfg tail,
        (asked_keep hs _ _).symm, ?_⟩
      by_cases hr : limitReached limit (bytePosition size tail)
      · exact .inl ⟨hr, if_pos hr⟩
      · refine .inr ⟨hr, .inr ?_, if_neg hr⟩
        unfold limitReached at hr
        rw [hpt] at hr
        rcases hlim with h | ⟨h1, h2 | h2⟩
        · exact h.1
        · exact h2
        · omega
    have hL : ¬ limitReached limit (bytePosition size (b ++ tail)) := by
      unfold limitReached
      rcases hlim with h | h <;> omega
    have hst := steppedBack_one hs hmod
    obtain ⟨wire, hwire, ho⟩ : ∃ wire, steppedBack cfg (b ++ tail) = wire ++ tail ∧ Form.operand cfg a wire := by
      obtain ⟨x, t, rfl, htl⟩ := Action.write_cons hpos
      have hlen : ((((x :: t) ++ tail).drop 8).take 1).length = 1 := by simp; omega
      obtain ⟨y, hy⟩ := List.length_eq_one_iff.1 hlen
      rw [hst, hy]
      rcases hbit with ⟨o, rfl⟩ | hbit
      · exact ⟨y :: t, rfl, Form.forward_first hob⟩
      · rw [hy] at hbit
        have : y = x := by simpa using hbit
        subst this
        exact ⟨y :: t, rfl, hob⟩
    refine ⟨endTest cfg (b ++ tail) + 8 + wire.length + m, ?_⟩
    rw [reading]
    simp only [asked_keep hs]
    exact ⟨hL, trivial, by simp; omega, by rw [Form.value_eq, ← hop tail], wire, tail, m, hwire, ho, hend, rfl⟩

/-! ## The bit kept back is dropped -/

theorem wholeBytes_one {s : List Bool} (h : s.length % 8 = 1) : wholeBytes s = s.drop 1 := by
  rw [wholeBytes, h]

theorem wholeBytes_drop_one {s : List Bool} (h : s.length % 8 = 1) : wholeBytes (s.drop 1) = s.drop 1 := by
  rw [wholeBytes, List.length_drop, show (s.length - 1) % 8 = 0 by omega]; rfl

/-- A whole command, one bit into a byte, the bit kept back being dropped: only actions without operands are
read, and only a length limit can end them. -/
theorem reading_late_clears {cfg : Cfg} (hs : cfg.seekClears = true) {limit size : Nat} {as : List Action}
    (has : ∀ a ∈ as, a.WF cfg) {bs tail : List Bool} (hb : W.list (Action.write cfg) as = .ok bs)
    (ht : tail.length % 8 = 1) (h9 : 9 ≤ tail.length) {s left : List Bool} {n : Nat}
    (hst : s = bs ++ tail ∨ s = (bs ++ tail).drop 1)
    (hr : reading cfg limit size false as s left n) :
    limit ≠ 0 ∧ left = tail.drop 1 ∧ n = as.length * (16 + if cfg.endCounts then 8 else 0) ∧
      bs.length = 8 * as.length := by
  induction as generalizing bs s n with
  | nil =>
    cases hb
    rw [List.nil_append] at hst
    obtain ⟨hl, hn⟩ := hr
    have hlen : left.length = tail.length ∨ left.length = tail.length - 1 := by
      rw [hl]
      unfold asked
      rcases hst with rfl | rfl <;> split <;>
        simp only [wholeBytes_one ht, wholeBytes_drop_one ht, List.length_drop, or_true, true_or]
    rcases hn with ⟨hn, rfl⟩ | ⟨-, h0 | h0, -⟩
    · have h0 : limit ≠ 0 := hn.1
      refine ⟨h0, ?_, by simp, rfl⟩
      rw [hl, asked, if_pos ⟨h0, hs⟩]
      rcases hst with rfl | rfl
      · exact wholeBytes_one ht
      · exact wholeBytes_drop_one ht
    · rw [h0, List.length_nil] at hlen; omega
    · cases h0
  | cons a as ih =>
    obtain ⟨b, c, hb1, hc, rfl⟩ := W.seq_cons_ok.1 hb
    obtain ⟨c', hc', hc8, -⟩ := Reads.write (cfg := cfg) (as := as) fun x hx => has x (by simp [hx])
    have hcc : c = c' := by
      have : W.list (Action.write cfg) as = .ok c := hc
      rw [this] at hc'; cases hc'; rfl
    subst hcc
    have hwa := has a (by simp)
    obtain ⟨h8, hpos, -⟩ := Action.operand_of_write hwa hb1
    simp only [reading] at hr
    obtain ⟨-, -, h8s, hv, wire, more, m, he, ho, hm, hn⟩ := hr
    have hmod : (b ++ c ++ tail).length % 8 = 1 := by simp; omega
    have hwh : wholeBytes (asked cfg limit s) = (b ++ c ++ tail).drop 1 := by
      unfold asked
      rcases hst with rfl | rfl <;> split <;>
        simp only [wholeBytes_one hmod, wholeBytes_drop_one hmod]
    rw [steppedBack, if_pos hs, hwh, List.append_assoc] at he
    have hev := Action.eval_of_operand (cfg := cfg) (more := more) h8s hv ho
    rw [← he] at hev
    obtain ⟨hop, hb8, rfl⟩ := Action.ahead hwa hb1 (by
      intro h0
      have := congrArg List.length h0
      rw [List.length_append, List.length_nil] at this
      omega) hev
    have hi : a.isIndirectForward = false := by
      cases a <;> first | rfl | (exfalso; simp [opcodeOf] at hop)
    rw [hi] at hm
    obtain ⟨i1, i2, i3, i4⟩ := ih (fun x hx => has x (by simp [hx])) hc (.inr rfl) hm
    refine ⟨i1, i2, ?_, by simp; omega⟩
    have hl := congrArg List.length he
    simp only [List.length_append, List.length_drop] at hl
    have hs1 : asked cfg limit s = (b ++ c ++ tail).drop 1 := by
      rw [asked, if_pos ⟨i1, hs⟩]
      rcases hst with rfl | rfl
      · exact wholeBytes_one hmod
      · exact wholeBytes_drop_one hmod
    have hend : endTest cfg (asked cfg limit s) = if cfg.endCounts then 8 else 0 := by
      rw [hs1, endTest]
      have h1 : (b ++ c ++ tail).drop 1 ≠ [] := by
        intro h0
        have := congrArg List.length h0
        simp at this; omega
      have h2 : ((b ++ c ++ tail).drop 1).length % 8 = 0 := by rw [List.length_drop]; omega
      by_cases he : cfg.endCounts = true
      · rw [if_pos ⟨he, h1, h2⟩, if_pos he]
      · rw [if_neg (fun h => he h.1), if_neg he]
    rw [hend] at hn
    rw [hn, i3, List.length_cons, Nat.add_mul]
    omega

/-- In front of zeros, the only action read is the one made of zeros. -/
theorem reading_clears_zero {cfg : Cfg} (hs : cfg.seekClears = true) {limit size : Nat} {a : Action}
    (hwa : a.WF cfg) {b : List Bool} (hb : a.write cfg = .ok b)
    {left : List Bool} {n : Nat} (hr : reading cfg limit size false [a] (b ++ List.replicate 17 false) left n) :
    b = List.replicate 8 false ∧ size - 3 < limit ∧ limit ≤ size - 2 := by
  have hls : W.list (Action.write cfg) [a] = .ok b := by
    simp only [W.list, List.map, W.seq, hb, List.append_nil]
  obtain ⟨h0, hleft, -, hb8⟩ := reading_late_clears hs (by simpa using hwa) hls (by simp) (by simp) (.inl rfl) hr
  have hb8 : b.length = 8 := by simpa using hb8
  have hmod : (b ++ List.replicate 17 false).length % 8 = 1 := by simp; omega
  rw [reading] at hr
  have ha : asked cfg limit (b ++ List.replicate 17 false) = (b ++ List.replicate 17 false).drop 1 := by
    rw [asked, if_pos ⟨h0, hs⟩, wholeBytes_one hmod]
  simp only [ha] at hr
  obtain ⟨hpos, -, h8s, hv, wire, more, m, he, ho, ⟨-, hm⟩, -⟩ := hr
  have hl1 : ¬ limitReached limit (size - 3) := by
    have : bytePosition size ((b ++ List.replicate 17 false).drop 1) = size - 3 := by
      rw [bytePosition]; congr 1; simp; omega
    rwa [this] at hpos
  have hl2 : bytePosition size left = size - 2 := by rw [bytePosition, hleft]; rfl
  rw [steppedBack, if_pos hs, wholeBytes_drop_one hmod] at he
  have hev := Action.eval_of_operand (cfg := cfg) (more := more) h8s hv ho
  rw [← he] at hev
  obtain ⟨hop, -, -⟩ := Action.ahead hwa hb (by simp) hev
  refine ⟨?_, by unfold limitReached at hl1; omega, ?_⟩
  rotate_left
  · rw [hl2] at hm
    have hi : a.isIndirectForward = false := by
      cases a <;> first | rfl | (exfalso; simp [opcodeOf] at hop)
    rcases hm with ⟨hm, -⟩ | ⟨-, h | h, -⟩
    · exact hm.2
    · rw [hleft] at h; cases h
    · rw [hi] at h; cases h
  cases a with
  | nop o =>
    obtain ⟨⟨g, r⟩, c⟩ := o
    obtain rfl : b = [g, r, false, false, false, false, false, false] := by
      cases hb
      show [g] ++ ([r] ++ []) ++ (natBits 6 0 ++ []) = _
      rw [show natBits 6 0 = [false, false, false, false, false, false] by decide]; rfl
    obtain ⟨p, q, rfl, ⟨p1, p2, rfl, rfl, p3, p4, rfl, rfl, rfl⟩, -⟩ := ho
    simp only [List.cons_append, List.nil_append, List.drop_succ_cons, List.drop_zero, List.cons.injEq] at he
    obtain ⟨e1, e2, -⟩ := he
    rw [← e1, ← e2]; rfl
  | extension o =>
    exfalso
    obtain ⟨⟨g, r⟩, c⟩ := o
    obtain rfl : b = [g, r, true, true, true, true, true, true] := by
      cases hb
      show [g] ++ ([r] ++ []) ++ (natBits 6 63 ++ []) = _
      rw [show natBits 6 63 = [true, true, true, true, true, true] by decide]; rfl
    refine absurd hv ?_
    rw [show opcodeOf (.extension ⟨⟨g, r⟩, c⟩) = 63 from rfl]
    cases g <;> cases r <;> decide
  | _ => exfalso; simp [opcodeOf] at hop

/-- It is read. -/
theorem reading_clears_back {cfg : Cfg} (hs : cfg.seekClears = true) (hc : cfg.endCounts = false)
    {limit size : Nat} (h3 : 3 ≤ size) (hl : limit = size - 3 + 1) {a : Action} (hwa : a.WF cfg)
    (hb : a.write cfg = .ok (List.replicate 8 false)) :
    reading cfg limit size false [a] (List.replicate 8 false ++ List.replicate 17 false)
      (List.replicate 16 false) 16 := by
  obtain ⟨-, -, ho, hop⟩ := Action.operand_of_write hwa hb
  have h0 : opcodeOf a = 0 := hop []
  have ha : asked cfg limit (List.replicate 8 false ++ List.replicate 17 false) = List.replicate 24 false := by
    rw [asked, if_pos ⟨by omega, hs⟩]; rfl
  have he : ∀ s, endTest cfg s = 0 := by
    intro s; rw [endTest, if_neg (by simp [hc])]
  rw [reading]
  simp only [ha, he]
  refine ⟨?_, trivial, by simp, by rw [h0]; rfl, List.replicate 8 false, List.replicate 16 false, 0,
    by rw [steppedBack, if_pos hs]; rfl, ho, ⟨?_, .inl ⟨?_, rfl⟩⟩, by simp⟩
  · rintro ⟨-, h⟩
    simp only [bytePosition, List.length_replicate] at h
    omega
  · rw [asked, if_pos ⟨by omega, hs⟩]; rfl
  · refine ⟨by omega, ?_⟩
    simp only [bytePosition, List.length_replicate]
    omega

/-! ## At a byte boundary -/

theorem wholeBytes_zero {s : List Bool} (h : s.length % 8 = 0) : wholeBytes s = s := by
  rw [wholeBytes, h]; rfl

theorem asked_zero {cfg : Cfg} {limit : Nat} {s : List Bool} (h : s.length % 8 = 0) : asked cfg limit s = s := by
  rw [asked, wholeBytes_zero h]; split <;> rfl

theorem steppedBack_zero {cfg : Cfg} {s : List Bool} (h : s.length % 8 = 0) : steppedBack cfg s = s := by
  rw [steppedBack, wholeBytes_zero h, h, List.drop_of_length_le (by simp; omega)]; split <;> rfl

/-- A whole command at a byte boundary: every action counts a byte more than it has. -/
theorem reading_whole {cfg : Cfg} {limit size : Nat} {as : List Action}
    (has : ∀ a ∈ as, a.WF cfg) {bs tail : List Bool} (hb : W.list (Action.write cfg) as = .ok bs)
    (ht : tail.length % 8 = 0) {stop : Bool} {left : List Bool} {n : Nat}
    (hr : reading cfg limit size stop as (bs ++ tail) left n) :
    left = tail ∧ bs.length + 8 * as.length ≤ n := by
  induction as generalizing bs stop n with
  | nil =>
    cases hb
    obtain ⟨hl, hn⟩ := hr
    rw [List.nil_append, asked_zero ht] at hl
    exact ⟨hl, by simp⟩
  | cons a as ih =>
    obtain ⟨b, c, hb1, hc, rfl⟩ := W.seq_cons_ok.1 hb
    obtain ⟨c', hc', hc8, -⟩ := Reads.write (cfg := cfg) (as := as) fun x hx => has x (by simp [hx])
    have hcc : c = c' := by
      have : W.list (Action.write cfg) as = .ok c := hc
      rw [this] at hc'; cases hc'; rfl
    subst hcc
    have hwa := has a (by simp)
    obtain ⟨b', hb', h8, hpos, hdec⟩ := Action.decode_write hwa
    rw [hb1] at hb'; cases hb'
    have hmod : (b ++ c ++ tail).length % 8 = 0 := by simp; omega
    rw [reading] at hr
    simp only [asked_zero hmod, steppedBack_zero hmod] at hr
    obtain ⟨-, -, h8s, hv, wire, more, m, he, ho, hm, hn⟩ := hr
    have hev := Action.eval_of_operand (cfg := cfg) (more := more) h8s hv ho
    have hd := hdec (c ++ tail)
    rw [Action.decode, if_pos (by simp; omega)] at hd
    rw [← he, List.append_assoc, hd] at hev
    simp only [Except.ok.injEq, Prod.mk.injEq, true_and] at hev
    subst hev
    obtain ⟨i1, i2⟩ := ih (fun x hx => has x (by simp [hx])) hc hm
    have hl := congrArg List.length he
    simp only [List.length_append] at hl
    refine ⟨i1, ?_⟩
    simp only [List.length_append, List.length_cons]
    omega

end Dash7
