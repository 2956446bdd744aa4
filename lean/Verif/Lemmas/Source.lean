import Verif.Spec.Stream
import Verif.Lemmas.Stream
import Verif.Lemmas.Items
import Verif.Lemmas.Offset

/-!
# Sources used again
-/

namespace Dash7
open Spec

theorem readSource_behind {α : Type} {m m' : R α} {s : Source} (h : R.Behind s.pos 0 m m') (off : Nat) :
    readSource m s off = s.result (readSource m' s.ahead off) := by
  have hs : R.Behind s.pos 0 (startAt off m) (startAt off m') := by
    unfold startAt
    split
    · exact (P.run_behind _ _ _).bind fun _ => h
    · exact h
  have hm := hs.moved s.data (Rd.new (s.data.drop s.pos)) rfl (Rd.new_con _).toOK (Nat.zero_le _)
  unfold readSource Source.ahead
  have e : (Rd.new (s.data.drop s.pos)).behind s.data s.pos = ⟨s.data, s.pos, [], 0⟩ := rfl
  rw [e] at hm
  rw [hm]
  show (match R.behind s.data s.pos (startAt off m' (Rd.new (s.data.drop s.pos))) with
    | .ok (a, r) => _
    | .error e => _) = s.result (match startAt off m' (Rd.new (s.data.drop s.pos)) with
    | .ok (a, r) => _
    | .error e => _)
  cases startAt off m' (Rd.new (s.data.drop s.pos)) with
  | error e => rfl
  | ok x => rfl

theorem readSource_start {α : Type} (m : R α) (data : List U8) (off : Nat) :
    fromReader m data off = (readSource m ⟨data, 0⟩ off).map (fun x => (x.1, x.2.1)) := by
  have e : readSource m ⟨data, 0⟩ off = match startAt off m (Rd.new data) with
      | .ok (a, r) => .ok (r.bitsRead, a, ⟨r.data, r.pos⟩)
      | .error e => .error e := rfl
  rw [e]
  unfold fromReader
  cases startAt off m (Rd.new data) <;> rfl

theorem readSource_run {α : Type} (p : P α) (data : List U8) (off n : Nat) (a : α) (t : Source) :
    readSource p.run ⟨data, 0⟩ off = .ok (n, a, t) ↔ off ≤ 8 * data.length ∧
      ∃ s', p.eval ((bytesBits data).drop off) = .ok (a, s') ∧ n + s'.length = 8 * data.length ∧
        t = ⟨data, (n + 7) / 8⟩ := by
  obtain ⟨h1, h2⟩ := startAt_part data off
  have e : readSource p.run ⟨data, 0⟩ off = match startAt off p.run (Rd.new data) with
      | .ok (a, r) => .ok (r.bitsRead, a, ⟨r.data, r.pos⟩)
      | .error e => .error e := rfl
  rw [e]
  by_cases hle : off ≤ 8 * data.length
  · obtain ⟨r0, hp, hd, hrem, hb, hm⟩ := h1 hle
    rw [hm p.run, ← hrem]
    have hcur : r0.cur = off := by
      have := hp.toOK.rem_cur
      rw [hrem, hd, List.length_drop, bytesBits_length] at this
      omega
    have hlen : r0.rem.length + off = 8 * data.length := by
      rw [hrem, List.length_drop, bytesBits_length]; omega
    have pos : ∀ (r : Rd) (k : Nat), Rd.Step r0 r k → r.pos = (off + k + 7) / 8 := by
      intro r k st
      have h1 := st.cur
      have h2 := st.ok.left8
      have h3 := hp.lt
      unfold Rd.cur at h1 hcur
      rcases st.left with h4 | h4 <;> omega
    cases hr : p.run r0 with
    | error e =>
      rw [P.run_err' p hp.toOK hr]
      constructor
      · intro h; cases h
      · rintro ⟨-, s', h, -⟩; cases h
    | ok x =>
      obtain ⟨b, r⟩ := x
      obtain ⟨he, k, st, hk⟩ := P.run_ok' p hp.toOK hr
      rw [he]
      dsimp only
      simp only [Except.ok.injEq, Prod.mk.injEq, hle, true_and]
      rw [st.bitsRead, hb, st.data, hd, pos r k st]
      constructor
      · rintro ⟨rfl, rfl, rfl⟩
        exact ⟨_, ⟨rfl, rfl⟩, by omega, rfl⟩
      · rintro ⟨s', ⟨rfl, rfl⟩, hn, rfl⟩
        obtain rfl : n = off + k := by omega
        exact ⟨rfl, rfl, rfl⟩
  · rw [h2 hle p.run]
    constructor
    · intro h; cases h
    · rintro ⟨h, -⟩; exact absurd h hle

/-- The reader on a source, some bits skipped. -/
theorem startAt_source (s : Source) (hs : s.pos ≤ s.data.length) (off : Nat) :
    (off ≤ 8 * (s.data.length - s.pos) → ∃ r0 : Rd, r0.Part ∧ r0.data = s.data ∧
      r0.rem = (bytesBits (s.data.drop s.pos)).drop off ∧ r0.bitsRead = off ∧
        ∀ {α : Type} (m : R α), startAt off m ⟨s.data, s.pos, [], 0⟩ = m r0) ∧
    (¬ off ≤ 8 * (s.data.length - s.pos) → ∀ {α : Type} (m : R α),
      startAt off m ⟨s.data, s.pos, [], 0⟩ = .error .incomplete) := by
  have hp : (Rd.mk s.data s.pos [] 0).Part := ⟨⟨hs, by simp, by simp⟩, by simp⟩
  have hrem0 : (Rd.mk s.data s.pos [] 0).rem = bytesBits (s.data.drop s.pos) := rfl
  have hlen : (Rd.mk s.data s.pos [] 0).rem.length = 8 * (s.data.length - s.pos) := by
    rw [hrem0, bytesBits_length, List.length_drop]
  unfold startAt
  constructor
  · intro hle
    by_cases h0 : off = 0
    · subst h0
      exact ⟨_, hp, rfl, by rw [List.drop_zero, hrem0], rfl, fun m => by simp⟩
    · obtain ⟨r1, n, hr, st, hrem, hn⟩ := P.run_ok (P.pad off) hp.toOK
        (Action.pad_eval (n := off) (s := (Rd.mk s.data s.pos [] 0).rem) (by omega))
      rw [List.length_drop] at hn
      obtain rfl : n = off := by omega
      refine ⟨r1, ⟨st.ok, st.left_lt hp.toOK (by omega)⟩, st.data, by rw [hrem, hrem0], ?_, fun m => ?_⟩
      · rw [st.bitsRead]; exact Nat.zero_add _
      · rw [if_pos h0]
        simp only [R.bind, hr]
  · intro hle α m
    rw [if_pos (by omega)]
    have := P.run_err (P.pad off) hp.toOK
      (Action.pad_eval_err (n := off) (s := (Rd.mk s.data s.pos [] 0).rem) (by omega))
    simp only [R.bind, this]

theorem Takes.fromSource {α : Type} {m : R α} {T : Nat → α → List Bool → List Bool → Nat → Prop} (h : Takes m T)
    (f : Nat → List Bool → Nat) (hf : ∀ r r' a, r.Part → m r = .ok (a, r') → r'.pos = f r.data.length r'.rem)
    (s : Source) (hs : s.pos ≤ s.data.length) (off count : Nat) (a : α) (t : Source) :
    readSource m s off = .ok (count, a, t) ↔ off ≤ 8 * (s.data.length - s.pos) ∧
      ∃ left n, T s.data.length a ((Form.ofBytes (s.data.drop s.pos)).drop off) left n ∧ count = off + n ∧
        t = ⟨s.data, f s.data.length left⟩ := by
  rw [Form.ofBytes_eq]
  obtain ⟨h1, h2⟩ := startAt_source s hs off
  unfold readSource
  by_cases hle : off ≤ 8 * (s.data.length - s.pos)
  · obtain ⟨r0, hp, hd, hrem, hb, hm⟩ := h1 hle
    rw [hm m]
    constructor
    · intro he
      cases hr : m r0 with
      | error e => rw [hr] at he; cases he
      | ok x =>
        obtain ⟨b, r⟩ := x
        rw [hr] at he
        simp only [Except.ok.injEq, Prod.mk.injEq] at he
        obtain ⟨rfl, rfl, rfl⟩ := he
        obtain ⟨n, hT, -, hd', hb'⟩ := h.conv hp hr
        have hpos := hf _ _ _ hp hr
        rw [hd, hrem] at hT
        exact ⟨hle, r.rem, n, hT, by rw [hb', hb], by rw [hpos, hd', hd]⟩
    · rintro ⟨-, left, n, hT, rfl, rfl⟩
      rw [← hrem] at hT
      obtain ⟨r, hr, -, hd', hl, hb'⟩ := h.form hp (by rw [hd]; exact hT)
      have hpos := hf _ _ _ hp hr
      rw [hr]
      dsimp only
      rw [hb', hb, hd', hd, hpos, hd, hl]
  · rw [h2 hle m]
    constructor
    · intro h; cases h
    · rintro ⟨h, -⟩; exact absurd h hle

theorem Command.loop_fetched {cfg : Cfg} {fuel : Nat} {acc as : List Action} {r r' : Rd} (h : r.OK)
    (hr : loop cfg 0 fuel acc r = .ok (as, r')) : r'.left ≠ [] ∨ r'.rem = [] := by
  induction fuel generalizing acc r with
  | zero => cases hr
  | succ fuel ih =>
    rw [loop_succ] at hr
    have hv : validLength cfg 0 r = .ok (true, r) := rfl
    rw [hv] at hr
    dsimp only at hr
    rw [if_neg (by decide)] at hr
    obtain ⟨stop, r2, hE⟩ := R.atEnd_total cfg r
    rw [hE] at hr
    dsimp only at hr
    cases stop with
    | true =>
      obtain ⟨rfl, hrem⟩ := R.atEnd_true hE
      rw [if_pos rfl] at hr
      simp only [Except.ok.injEq, Prod.mk.injEq] at hr
      obtain ⟨-, rfl⟩ := hr
      exact .inr hrem
    | false =>
      simp only [Bool.false_eq_true, if_false] at hr
      obtain ⟨hok2, -⟩ := R.atEnd_false h hE
      by_cases hi : endsIndirect acc = true
      · rw [if_pos hi] at hr
        simp only [Except.ok.injEq, Prod.mk.injEq] at hr
        obtain ⟨-, rfl⟩ := hr
        refine .inl ?_
        unfold R.atEnd at hE
        split at hE
        · rename_i hl
          cases hE
          exact hl
        · split at hE
          · cases hE
          · rename_i b _ _
            cases hE
            exact fun h => absurd (congrArg List.length h) (by simp)
      · rw [if_neg hi] at hr
        split at hr
        · cases hr
        · rename_i a r3 h3
          obtain ⟨n, hok3, -⟩ := Action.read_ok hok2 h3
          exact ih hok3 hr

theorem Command.read_pos {cfg : Cfg} {c : Command} {r r' : Rd} (h : r.Part)
    (hr : Command.read cfg 0 r = .ok (c, r')) : r'.pos = r.data.length - (r'.rem.length - 1) / 8 := by
  obtain ⟨n, -, hok, hd, -⟩ := (Command.takes cfg 0).conv h hr
  have h1 := hok.rem_cur
  have h2 := hok.left8
  have h3 := hok.left_le
  have h4 := hok.pos_le
  rw [hd] at h1 h4
  unfold Rd.cur at h1
  rcases Command.loop_fetched h.toOK (Command.read_ok hr) with h5 | h5
  · have := List.length_pos_iff.2 h5
    omega
  · rw [h5] at h1 ⊢
    simp only [List.length_nil] at h1 ⊢
    omega

end Dash7
