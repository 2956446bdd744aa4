import Verif.Model.Ids
import Verif.Lemmas.Whole

/-!
# Reading of types with a unit `id_pat` variant
-/

namespace Dash7

variable {α : Type}

theorem startAt_stand (data : List U8) {off : Nat} (h : off ≤ 8 * data.length) :
    ∃ r, r.OK ∧ r.rem = (bytesBits data).drop off ∧ r.bitsRead = off ∧
      ∀ (α : Type) (m : R α), startAt off m (Rd.new data) = m r := by
  have hlen : (Rd.new data).rem.length = 8 * data.length := by rw [Rd.new_rem, bytesBits_length]
  by_cases h0 : off = 0
  · subst h0
    exact ⟨Rd.new data, (Rd.new_con data).toOK, by rw [Rd.new_rem, List.drop_zero], rfl, fun _ _ => rfl⟩
  · obtain ⟨r, n, hr, st, hrem, hn⟩ := P.run_ok (P.pad off) (Rd.new_con data).toOK
      (Action.pad_eval (n := off) (by omega))
    rw [Rd.new_rem] at hrem
    rw [List.length_drop, hlen] at hn
    refine ⟨r, st.ok, hrem, ?_, fun _ m => ?_⟩
    · rw [st.bitsRead, show (Rd.new data).bitsRead = 0 from rfl]; omega
    · unfold startAt
      rw [if_pos h0]
      unfold R.bind
      rw [hr]

/-- What is read, and how many bits are counted. -/
def P.tagged (cfg : Cfg) (width : Nat) (unit : U8 → Bool) (fields : U8 → P α) (s : List Bool) :
    Except Err (α × List Bool) :=
  match (P.uint 8 width).eval s with
  | .error e => .error e
  | .ok (i, s') => (fields i).eval (if unit i && !cfg.unitPatConsumes then s else s')

theorem readTagged_ok {cfg : Cfg} {width : Nat} {unit : U8 → Bool} {fields : U8 → P α} {r : Rd} (h : r.OK) {a : α}
    {s : List Bool} (he : P.tagged cfg width unit fields r.rem = .ok (a, s)) :
    ∃ r', readTagged cfg width unit fields r = .ok (a, r') ∧ r'.bitsRead + s.length = r.bitsRead + r.rem.length := by
  unfold P.tagged at he
  unfold readTagged
  cases h1 : (P.uint 8 width).eval r.rem with
  | error e => rw [h1] at he; cases he
  | ok q =>
    obtain ⟨i, s1⟩ := q
    rw [h1] at he
    obtain ⟨r1, n1, hr1, st1, hm1, hn1⟩ := P.run_ok _ h h1
    rw [hr1]
    dsimp only at he ⊢
    split
    · rename_i hu
      rw [if_pos hu] at he
      obtain ⟨r2, n2, hr2, st2, hm2, hn2⟩ := P.run_ok _ h he
      exact ⟨r2, hr2, by rw [st2.bitsRead]; omega⟩
    · rename_i hu
      rw [if_neg hu, ← hm1] at he
      obtain ⟨r2, n2, hr2, st2, hm2, hn2⟩ := P.run_ok _ st1.ok he
      rw [hm1] at hn2
      exact ⟨r2, hr2, by rw [st2.bitsRead, st1.bitsRead]; omega⟩

theorem readTagged_err {cfg : Cfg} {width : Nat} {unit : U8 → Bool} {fields : U8 → P α} {r : Rd} (h : r.OK) {e : Err}
    (he : P.tagged cfg width unit fields r.rem = .error e) : readTagged cfg width unit fields r = .error e := by
  unfold P.tagged at he
  unfold readTagged
  cases h1 : (P.uint 8 width).eval r.rem with
  | error e' => rw [h1] at he; cases he; rw [P.run_err _ h h1]
  | ok q =>
    obtain ⟨i, s1⟩ := q
    rw [h1] at he
    obtain ⟨r1, n1, hr1, st1, hm1, hn1⟩ := P.run_ok _ h h1
    rw [hr1]
    dsimp only at he ⊢
    split
    · rename_i hu
      rw [if_pos hu] at he
      exact P.run_err _ h he
    · rename_i hu
      rw [if_neg hu, ← hm1] at he
      exact P.run_err _ st1.ok he

theorem readTagged_fromBytes (cfg : Cfg) (width : Nat) (unit : U8 → Bool) (fields : U8 → P α) (data : List U8) (off : Nat) :
    derivedFromBytes (readTagged cfg width unit fields) (data, off) =
      if off ≤ 8 * data.length then
        match P.tagged cfg width unit fields ((bytesBits data).drop off) with
        | .error e => .error e
        | .ok (a, s) => .ok ((data.drop ((8 * data.length - s.length) / 8), (8 * data.length - s.length) % 8), a)
      else .error .incomplete := by
  unfold derivedFromBytes
  dsimp only
  by_cases h : off ≤ 8 * data.length
  · rw [if_pos h]
    obtain ⟨r, ho, hm, hb, hs⟩ := startAt_stand data h
    rw [hs, ← hm]
    cases ht : P.tagged cfg width unit fields r.rem with
    | error e => rw [readTagged_err ho ht]
    | ok q =>
      obtain ⟨a, s⟩ := q
      obtain ⟨r', hr', hb'⟩ := readTagged_ok ho ht
      rw [hr']
      have hl := congrArg List.length hm
      rw [List.length_drop, bytesBits_length] at hl
      have hk : r'.bitsRead = 8 * data.length - s.length := by omega
      dsimp only
      rw [hk, sliceFrom, if_pos (by omega)]
  · rw [if_neg h, startAt_beyond _ _ h]

theorem readTagged_tryFrom (cfg : Cfg) (width : Nat) (unit : U8 → Bool) (fields : U8 → P α) (data : List U8) :
    derivedTryFrom (readTagged cfg width unit fields) data =
      match P.tagged cfg width unit fields (bytesBits data) with
      | .error e => .error e
      | .ok (a, s) => if s ≠ [] then .error (.fault .parse) else .ok a := by
  have ho := (Rd.new_con data).toOK
  have hm := Rd.new_rem data
  unfold derivedTryFrom
  rw [← hm]
  cases ht : P.tagged cfg width unit fields (Rd.new data).rem with
  | error e => rw [readTagged_err ho ht]
  | ok q =>
    obtain ⟨a, s⟩ := q
    obtain ⟨r', hr', hb'⟩ := readTagged_ok ho ht
    rw [hr']
    have hl := congrArg List.length hm
    rw [bytesBits_length] at hl
    rw [show (Rd.new data).bitsRead = 0 from rfl] at hb'
    dsimp only
    cases s with
    | nil => rw [if_neg (by simp at hb'; omega), if_neg (by simp)]
    | cons b s => rw [if_pos (by simp at hb'; omega), if_pos (by simp)]

end Dash7
