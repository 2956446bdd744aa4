import Verif.Model.Stream
import Verif.Lemmas.Command

/-!
# Readers started elsewhere
-/

namespace Dash7

/-- A reader over the data from `k` on, seen as a reader over all of the data. -/
def Rd.behind (r : Rd) (data : List U8) (k : Nat) : Rd := ⟨data, k + r.pos, r.left, r.bitsRead⟩

/-- What a result looks like over all of the data. -/
def R.behind {α : Type} (data : List U8) (k : Nat) : Except Err (α × Rd) → Except Err (α × Rd)
  | .ok (a, r) => .ok (a, r.behind data k)
  | .error e => .error e

/-- With `k` bytes in front of the data, `m` does what `m'` does without them, once `b` bits have been read. -/
structure R.Behind {α : Type} (k b : Nat) (m m' : R α) : Prop where
  moved : ∀ (data : List U8) (r : Rd), r.data = data.drop k → r.OK → b ≤ r.cur →
    m (r.behind data k) = R.behind data k (m' r)
  kept : ∀ (r : Rd), r.OK → ∀ a r', m' r = .ok (a, r') → r'.OK ∧ r'.data = r.data ∧ r.cur ≤ r'.cur

theorem Rd.readBits_behind (n : Nat) (data : List U8) (k : Nat) (r : Rd) (hd : r.data = data.drop k) :
    (r.behind data k).readBits n = R.behind data k (r.readBits n) := by
  unfold Rd.readBits R.behind Rd.behind
  dsimp only
  by_cases h : n ≤ r.left.length
  · rw [if_pos h, if_pos h]
  · rw [if_neg h, if_neg h, hd, List.length_drop, List.drop_drop]
    by_cases h2 : k + r.pos + (n - r.left.length + 7) / 8 ≤ data.length
    · rw [if_pos h2, if_pos (by omega), Nat.add_assoc]
    · rw [if_neg h2, if_neg (by omega)]

theorem P.run_behind {α : Type} (p : P α) (k b : Nat) : R.Behind k b p.run p.run := by
  constructor
  · intro data r hd hk hb
    induction p generalizing r with
    | pure a => rfl
    | fail f => rfl
    | bits n f ih =>
      rw [P.run_bits, P.run_bits, Rd.readBits_behind n data k r hd]
      by_cases hn : n ≤ r.rem.length
      · obtain ⟨r1, h1, st⟩ := Rd.readBits_ok hk hn
        rw [h1]
        exact ih _ r1 (st.data.trans hd) st.ok (by rw [st.cur]; omega)
      · rw [Rd.readBits_err hk hn]; rfl
  · intro r hk a r' h
    obtain ⟨-, n, st, -⟩ := P.run_ok' p hk h
    exact ⟨st.ok, st.data, by rw [st.cur]; omega⟩

theorem R.Behind.bind {α β : Type} {k b : Nat} {m m' : R α} {f f' : α → R β} (hm : R.Behind k b m m')
    (hf : ∀ a, R.Behind k b (f a) (f' a)) : R.Behind k b (R.bind m f) (R.bind m' f') := by
  constructor
  · intro data r hd hk hb
    unfold R.bind
    rw [hm.moved data r hd hk hb]
    cases h : m' r with
    | error e => rfl
    | ok x =>
      obtain ⟨a, r'⟩ := x
      obtain ⟨h1, h2, h3⟩ := hm.kept r hk a r' h
      exact (hf a).moved data r' (h2.trans hd) h1 (by omega)
  · intro r hk c r' h
    unfold R.bind at h
    cases h' : m' r with
    | error e => rw [h'] at h; cases h
    | ok x =>
      obtain ⟨a, r1⟩ := x
      rw [h'] at h
      obtain ⟨h1, h2, h3⟩ := hm.kept r hk a r1 h'
      obtain ⟨h4, h5, h6⟩ := (hf a).kept r1 h1 c r' h
      exact ⟨h4, h5.trans h2, by omega⟩

theorem R.Behind.pure {α : Type} {k b : Nat} (a : α) : R.Behind k b (R.pure a) (R.pure a) :=
  ⟨fun _ _ _ _ _ => rfl, fun r hk a r' h => by cases h; exact ⟨hk, rfl, Nat.le_refl _⟩⟩

theorem R.atEnd_behind (cfg : Cfg) (k b : Nat) : R.Behind k b (R.atEnd cfg) (R.atEnd cfg) := by
  constructor
  · intro data r hd hk hb
    unfold R.atEnd R.behind Rd.behind
    dsimp only
    by_cases h : r.left ≠ []
    · rw [if_pos h, if_pos h]
    · rw [if_neg h, if_neg h, hd, List.drop_drop]
      cases data.drop (k + r.pos) <;> rfl
  · intro r hk a r' h
    cases a with
    | true =>
      obtain ⟨rfl, -⟩ := R.atEnd_true h
      exact ⟨hk, rfl, Nat.le_refl _⟩
    | false =>
      obtain ⟨h1, h2, -, h4, -⟩ := R.atEnd_false hk h
      exact ⟨h1, h2, by omega⟩

theorem Action.read_behind (cfg : Cfg) (k b : Nat) : R.Behind k b (Action.read cfg) (Action.read cfg) := by
  have h8 : R.Behind k b (R.bind (P.pad 2).run fun _ => OpCode.read.run)
      (R.bind (P.pad 2).run fun _ => OpCode.read.run) :=
    (P.run_behind _ k b).bind fun _ => P.run_behind _ k b
  have key : Action.read cfg = R.bind (R.bind (P.pad 2).run fun _ => OpCode.read.run) fun code =>
      R.bind (R.seekBack cfg) fun _ => (Action.dispatch cfg code).run := by
    funext r
    simp only [Action.read, R.bind_eq, R.bind]
    cases (P.pad 2).run r <;> rfl
  have first : ∀ (r r' : Rd) (c : OpCode), r.OK →
      (R.bind (P.pad 2).run fun _ => OpCode.read.run) r = .ok (c, r') →
      r'.OK ∧ r'.data = r.data ∧ r'.cur = r.cur + 8 ∧ r'.left.length < 8 := by
    intro r r' c hk h
    unfold R.bind at h
    cases h1 : (P.pad 2).run r with
    | error e => rw [h1] at h; cases h
    | ok x =>
      obtain ⟨u, r1⟩ := x
      rw [h1] at h
      dsimp only at h
      obtain ⟨e1, n1, st1, g1⟩ := P.run_ok' _ hk h1
      obtain ⟨e2, n2, st2, g2⟩ := P.run_ok' _ st1.ok h
      have hn1 : n1 = 2 := by
        by_cases h2 : 2 ≤ r.rem.length
        · rw [pad_eval h2] at e1
          simp only [Except.ok.injEq, Prod.mk.injEq, true_and] at e1
          rw [← e1, List.length_drop] at g1
          omega
        · rw [pad_eval_err (by omega)] at e1; cases e1
      have hn2 : n2 = 6 := by
        by_cases h6 : 6 ≤ r1.rem.length
        · rw [opcode_eval h6] at e2
          simp only [Except.ok.injEq, Prod.mk.injEq] at e2
          rw [← e2.2, List.length_drop] at g2
          omega
        · rw [opcode_eval_err (by omega)] at e2; cases e2
      subst hn1 hn2
      exact ⟨st2.ok, st2.data.trans st1.data, by rw [st2.cur, st1.cur], st2.left_lt st1.ok (by omega)⟩
  constructor
  · intro data r hd hk hb
    rw [key]
    unfold R.bind
    have := h8.moved data r hd hk hb
    unfold R.bind at this
    rw [this]
    cases h : (R.bind (P.pad 2).run fun _ => OpCode.read.run) r with
    | error e => unfold R.bind at h; rw [h]; rfl
    | ok x =>
      obtain ⟨c, r'⟩ := x
      obtain ⟨h1, h2, h3, h4⟩ := first r r' c hk h
      unfold R.bind at h
      rw [h]
      have hl := h1.left8
      have hc : 1 ≤ r'.pos := by unfold Rd.cur at h3; omega
      have hok : Rd.OK { r' with pos := r'.pos - 1, left := if cfg.seekClears then [] else r'.left } := by
        refine ⟨?_, ?_, ?_⟩
        · have := h1.pos_le; dsimp only; omega
        · dsimp only; split
          · simp
          · omega
        · dsimp only
          split
          · intro h; exact absurd rfl h
          · intro h
            have := List.length_pos_iff.2 h
            unfold Rd.cur at h3
            omega
      have hr := (P.run_behind (Action.dispatch cfg c) k 0).moved data
        { r' with pos := r'.pos - 1, left := if cfg.seekClears then [] else r'.left } (h2.trans hd) hok (by omega)
      show (Action.dispatch cfg c).run ⟨data, k + r'.pos - 1, _, _⟩ = _
      rw [show k + r'.pos - 1 = k + (r'.pos - 1) by omega]
      exact hr
  · intro r hk a r' h
    obtain ⟨n, h1, h2, h3, -⟩ := Action.read_ok hk h
    have e1 := hk.rem_cur
    have e2 := h1.rem_cur
    rw [h2] at e2
    exact ⟨h1, h2, by omega⟩

namespace Command

/-- How much fuel there is does not matter, if it is enough. -/
theorem loop_fuel {cfg : Cfg} {L : U32} {f g : Nat} {acc : List Action} {r : Rd} (h : r.OK)
    (hf : r.rem.length < 8 * f) (hg : r.rem.length < 8 * g) : loop cfg L f acc r = loop cfg L g acc r := by
  induction f generalizing g acc r with
  | zero => omega
  | succ f ih =>
    cases g with
    | zero => omega
    | succ g =>
      rw [loop_succ, loop_succ]
      obtain ⟨b, r1, hb, hok1, hd1, hle1⟩ := validLength_ok cfg L h
      rw [hb]
      dsimp only
      cases b with
      | false => rfl
      | true =>
        rw [if_neg (by decide), if_neg (by decide)]
        obtain ⟨stop, r2, hE⟩ := R.atEnd_total cfg r1
        rw [hE]
        dsimp only
        cases stop with
        | true => rfl
        | false =>
          obtain ⟨hok2, hd2, hrem2, -⟩ := R.atEnd_false hok1 hE
          simp only [Bool.false_eq_true, if_false]
          by_cases hi : endsIndirect acc = true
          · rw [if_pos hi, if_pos hi]
          · rw [if_neg hi, if_neg hi]
            cases hr : Action.read cfg r2 with
            | error e => rfl
            | ok x =>
              obtain ⟨a, r3⟩ := x
              obtain ⟨n, hok3, hd3, hle3, hdec⟩ := Action.read_ok hok2 hr
              have := hdec.pos
              rw [hrem2] at hle3
              exact ih (g := g) hok3 (by omega) (by omega)

/-- The limit `L` with `k` bytes in front is the limit `L'` without them, once `b` bits have been read. -/
def SameLimit (k b : Nat) (L L' : U32) : Prop :=
  (L.toNat = 0 ↔ L'.toNat = 0) ∧ (L.toNat ≠ 0 → ∀ p, b ≤ 8 * p → (k + p < L.toNat ↔ p < L'.toNat))

theorem validLength_behind {cfg : Cfg} {k b : Nat} {L L' : U32} (hL : SameLimit k b L L') :
    R.Behind k b (validLength cfg L) (validLength cfg L') := by
  unfold validLength
  by_cases h0 : L.toNat = 0
  · rw [if_pos h0, if_pos (hL.1.1 h0)]
    exact .pure true
  · rw [if_neg h0, if_neg (fun h => h0 (hL.1.2 h))]
    constructor
    · intro data r hd hk hb
      simp only [R.bind, R.streamPosition, R.pure, R.behind, Rd.behind]
      have := hL.2 h0 r.pos (by unfold Rd.cur at hb; omega)
      rw [decide_eq_decide.2 this]
    · intro r hk a r' h
      have hl := hk.left8
      simp only [R.bind, R.streamPosition, R.pure, Except.ok.injEq, Prod.mk.injEq] at h
      obtain ⟨-, rfl⟩ := h
      refine ⟨⟨hk.pos_le, ?_, ?_⟩, rfl, ?_⟩
      · dsimp only; split
        · simp
        · exact hk.left_le
      · dsimp only; split
        · intro h; exact absurd rfl h
        · exact hk.left_pos
      · unfold Rd.cur
        dsimp only
        split
        · simp
        · omega

theorem loop_behind {cfg : Cfg} {k b : Nat} {L L' : U32} (hL : SameLimit k b L L') (fuel : Nat)
    (acc : List Action) : R.Behind k b (loop cfg L fuel acc) (loop cfg L' fuel acc) := by
  induction fuel generalizing acc with
  | zero => exact ⟨fun _ _ _ _ _ => rfl, fun r hk a r' h => by cases h⟩
  | succ fuel ih =>
    unfold loop
    refine (validLength_behind hL).bind fun valid => ?_
    cases valid with
    | false => exact .pure acc
    | true =>
      refine (R.atEnd_behind cfg k b).bind fun stop => ?_
      cases stop with
      | true => exact .pure acc
      | false =>
        show R.Behind k b (if endsIndirect acc = true then _ else _) (if endsIndirect acc = true then _ else _)
        split
        · exact .pure acc
        · exact (Action.read_behind cfg k b).bind fun a => ih _

theorem read_behind {cfg : Cfg} {k b : Nat} {L L' : U32} (hL : SameLimit k b L L') :
    R.Behind k b (read cfg L) (read cfg L') := by
  have key := fun fuel => (loop_behind (cfg := cfg) hL fuel []).bind fun as => R.Behind.pure (Command.mk as)
  constructor
  · intro data r hd hk hb
    have e : read cfg L (r.behind data k) =
      R.bind (loop cfg L (data.length + 1) []) (fun as => R.pure (Command.mk as)) (r.behind data k) := rfl
    rw [e, (key _).moved data r hd hk hb]
    unfold read R.bind
    have := hk.rem_cur
    have hlen : r.data.length ≤ data.length := by rw [hd, List.length_drop]; omega
    rw [loop_fuel (f := data.length + 1) (g := r.data.length + 1) hk (by omega) (by omega)]
  · intro r hk a r' h
    exact (key _).kept r hk a r' h

theorem SameLimit.zero (k b : Nat) : SameLimit k b 0 0 :=
  ⟨Iff.rfl, fun h => absurd rfl h⟩

end Command

theorem Trans.Frame.read_behind {cfg : Cfg} {k b : Nat} {L L' : U32} (hL : Command.SameLimit k b L L') :
    R.Behind k b (Trans.Frame.read cfg L) (Trans.Frame.read cfg L') :=
  (P.run_behind _ k b).bind fun _ => (Command.read_behind hL).bind fun _ => .pure _

theorem Net.Frame.read_behind {cfg : Cfg} {k b : Nat} {L L' : U32} (hL : Command.SameLimit k b L L') :
    R.Behind k b (Net.Frame.read cfg L) (Net.Frame.read cfg L') :=
  (P.run_behind _ k b).bind fun _ => (Trans.Frame.read_behind hL).bind fun _ => .pure _

end Dash7
