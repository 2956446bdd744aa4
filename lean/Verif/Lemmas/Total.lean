import Verif.Lemmas.Entry

/-!
# Entry points on arbitrary input: errors, rests, continuations
-/

namespace Dash7

/-- A successful `pad_rest` gives a suffix; up to bit offset 8 it always succeeds. -/
theorem padRest_suffix {data : List U8} {off n : Nat} {rest : Rest}
    (h : padRest (data, off) n = .ok rest) : ∃ k, rest.1 = data.drop k := by
  unfold padRest at h
  split at h
  · cases h
    exact ⟨data.length, by simp⟩
  · generalize (if n % 8 = 0 then n / 8 else (n - n % 8) / 8) = idx at h
    simp only [sliceFrom] at h
    split at h
    · rename_i s hs
      split at hs
      · cases hs; cases h; exact ⟨_, rfl⟩
      · cases hs
    · cases h

theorem padRest_total (data : List U8) {off : Nat} (ho : off ≤ 8) (n : Nat) :
    ∃ rest, padRest (data, off) n = .ok rest := by
  unfold padRest
  split
  · exact ⟨_, rfl⟩
  · rename_i h
    have h : ¬ data.length * 8 + off ≤ n := h
    dsimp only [sliceFrom]
    have : (if n % 8 = 0 then n / 8 else (n - n % 8) / 8) ≤ data.length := by split <;> omega
    rw [if_pos this]
    exact ⟨_, rfl⟩

/-- Skipping bits in front: the state reached, or `Incomplete`. -/
theorem startAt_cases {α : Type} (off : Nat) (m : R α) (data : List U8) :
    (∃ r, r.OK ∧ r.data = data ∧ startAt off m (Rd.new data) = m r ∧ r.bitsRead = off) ∨
      startAt off m (Rd.new data) = .error .incomplete := by
  unfold startAt
  split
  · by_cases h : off ≤ (Rd.new data).rem.length
    · obtain ⟨r, n, hr, st, hrem, hn⟩ := P.run_ok (P.pad off) (Rd.new_con data).toOK
        (Action.pad_eval h)
      left
      refine ⟨r, st.ok, st.data, ?_, ?_⟩
      · unfold R.bind; rw [hr]
      · rw [List.length_drop] at hn
        rw [st.bitsRead, show (Rd.new data).bitsRead = 0 from rfl]; omega
    · right
      unfold R.bind
      rw [P.run_err (P.pad off) (Rd.new_con data).toOK (Action.pad_eval_err (by omega))]
  · rename_i h
    left
    exact ⟨Rd.new data, (Rd.new_con data).toOK, rfl, rfl, by simp at h; exact h.symm⟩

theorem Command.read_fault {cfg : Cfg} {L : U32} {r : Rd} (h : r.OK) {f : Fault}
    (hr : read cfg L r = .error (.fault f)) : f = .parse ∨ f = .invalidParam := by
  have := h.rem_cur
  exact loop_fault h (by omega) (read_error hr)

theorem R.atEnd_ext {cfg : Cfg} {r r' : Rd} (he : R.atEnd cfg r = .ok (false, r')) (t : List U8) :
    R.atEnd cfg (r.ext t) = .ok (false, r'.ext t) := by
  unfold R.atEnd at he ⊢
  split at he
  · rename_i hl
    cases he
    rw [if_pos (show (r.ext t).left ≠ [] from hl)]
  · rename_i hl
    rw [if_neg (show ¬ (r.ext t).left ≠ [] from hl)]
    split at he
    · cases he
    · rename_i b bs hd
      cases he
      have : (r.ext t).data.drop (r.ext t).pos = b :: (bs ++ t) := by
        show (r.data ++ t).drop r.pos = _
        have hlt : r.pos < r.data.length := by
          have := congrArg List.length hd
          simp at this; omega
        rw [List.drop_append_of_le_length (by omega), hd]; rfl
      rw [this]
      rfl

namespace Action

theorem decode_truncate {cfg : Cfg} {data : List U8} {a : Action} {s' : List Bool}
    (hd : decode cfg (bytesBits data) = .ok (a, s')) {k : Nat}
    (hk : 8 * k + s'.length < 8 * data.length) :
    decode cfg (bytesBits (data.take k)) = .error .incomplete := by
  unfold decode
  split
  · rename_i h8
    obtain ⟨c, hc, -, -, -, he, -⟩ := decode_ok hd
    have hop : opAt 2 (bytesBits (data.take k)) = opAt 2 (bytesBits data) := by
      rw [bytesBits_length, List.length_take] at h8
      have : 6 ≤ 8 * k - 2 := by
        rw [Nat.min_def] at h8
        split at h8 <;> omega
      unfold opAt
      rw [bytesBits_take, List.drop_take, List.take_take, Nat.min_eq_left this]
    rw [hop, bytesBits_take]
    apply P.eval_truncate _ he
    rw [bytesBits_length]
    omega
  · rfl

/-- The whole bytes an action was decoded from, and what is behind them. -/
theorem decode_span {cfg : Cfg} {data : List U8} {a : Action} {s' : List Bool}
    (hd : decode cfg (bytesBits data) = .ok (a, s')) :
    ∃ p q c, data = p ++ q ∧ s' = c ++ bytesBits q ∧ decode cfg (bytesBits p) = .ok (a, c) ∧
      (∀ k < p.length, decode cfg (bytesBits (p.take k)) = .error .incomplete) ∧
      c.length = if a.isTx then 2 else 0 := by
  obtain ⟨x, hx, hdec, -, -, -, hext⟩ := decode_ok hd
  have hl := congrArg List.length hx
  rw [bytesBits_length, List.length_append] at hl
  obtain ⟨n, m, hn, hm⟩ : ∃ n m, x.length + m = 8 * n ∧ m = if a.isTx then 2 else 0 := by
    cases ht : a.isTx with
    | true => obtain ⟨n, hn⟩ := hdec.dvd' ht; exact ⟨n, 2, hn, rfl⟩
    | false => obtain ⟨n, hn⟩ := hdec.dvd ht; exact ⟨n, 0, hn, rfl⟩
  have hm8 : m ≤ 2 := by rw [hm]; split <;> omega
  have hnl : n ≤ data.length := by omega
  have hq : s'.drop m = bytesBits (data.drop n) := by
    rw [bytesBits_drop, hx, ← hn, ← List.drop_drop, List.drop_left]
  have hp : x ++ s'.take m = bytesBits (data.take n) := by
    rw [bytesBits_take, hx, ← hn, List.take_append,
      List.take_of_length_le (show x.length ≤ x.length + m by omega), Nat.add_sub_cancel_left]
  have hdp : decode cfg (bytesBits (data.take n)) = .ok (a, s'.take m) := by rw [← hp]; exact hext _
  have hlm : (s'.take m).length = m := by rw [List.length_take]; omega
  have hpl : (data.take n).length = n := by rw [List.length_take]; omega
  refine ⟨data.take n, data.drop n, s'.take m, (List.take_append_drop _ _).symm, ?_, hdp, ?_, ?_⟩
  · rw [← hq, List.take_append_drop]
  · intro k hk
    refine decode_truncate hdp ?_
    omega
  · rw [hlm, hm]

theorem tryFrom_span {cfg : Cfg} {p q : List U8} {a : Action} {c : List Bool}
    (hd : decode cfg (bytesBits p) = .ok (a, c)) (hc : c.length = if a.isTx then 2 else 0) :
    tryFrom cfg (p ++ q) =
      if q.length ≤ (if a.isTx then 0 else 1) then .ok a else .error (.fault .parse) := by
  have hd' : decode cfg (bytesBits (p ++ q)) = .ok (a, c ++ bytesBits q) := by
    obtain ⟨x, hx, -, -, -, -, hext⟩ := decode_ok hd
    rw [bytesBits_append, hx, List.append_assoc]
    exact hext _
  cases ht : a.isTx with
  | false =>
    rw [ht] at hc
    have : c = [] := List.eq_nil_of_length_eq_zero hc
    subst this
    rw [tryFrom_ok hd' ht, List.nil_append, bytesBits_length]
    simp only [Bool.false_eq_true, if_false]
    by_cases h : q.length ≤ 1
    · rw [if_pos h, if_pos (by omega)]
    · rw [if_neg h, if_neg (by omega)]
  | true =>
    rw [ht] at hc
    simp only [if_true] at hc
    obtain ⟨r', hr, -, -, -, -, -, hb⟩ := read_aligned_ok (cfg := cfg) (Rd.new_aligned (p ++ q))
      (by rw [Rd.new_rem]; exact hd')
    rw [Rd.new_rem, bytesBits_length, List.length_append, List.length_append, bytesBits_length,
      hc, show (Rd.new (p ++ q)).bitsRead = 0 from rfl] at hb
    have hbr : r'.bitsRead = 8 * p.length + 6 := by omega
    have hpad : padRest (p ++ q, 0) (8 * p.length + 6) = .ok (q, 6) := by
      unfold padRest
      have h6 : (8 * p.length + 6) % 8 = 6 := by omega
      split
      · rename_i h
        have h : (p ++ q).length * 8 + 0 ≤ 8 * p.length + 6 := h
        rw [List.length_append] at h
        have : q = [] := List.eq_nil_of_length_eq_zero (by omega)
        rw [this, h6]
      · have hi : (8 * p.length + 6 - 6) / 8 = p.length := by omega
        simp only [h6, sliceFrom]
        rw [if_neg (show ¬ (6 = 0) by decide), hi, if_pos (by simp)]
        simp
    unfold tryFrom fromBytes Dash7.fromBytes
    dsimp only
    rw [startAt_zero, hr]
    dsimp only
    rw [hbr, hpad]
    dsimp only
    simp only [if_true]
    cases q with
    | nil => simp
    | cons x q => simp

theorem tryFrom_decode {cfg : Cfg} {data : List U8} {a : Action} (h : tryFrom cfg data = .ok a) :
    ∃ s', decode cfg (bytesBits data) = .ok (a, s') := by
  cases hd : decode cfg (bytesBits data) with
  | error e => rw [(fromBytes_err hd).2.2] at h; cases h
  | ok x =>
    obtain ⟨a', s'⟩ := x
    obtain ⟨p, q, c, rfl, -, hp, -, hc⟩ := decode_span hd
    rw [tryFrom_span hp hc] at h
    generalize (if a'.isTx then 0 else 1) = m at h
    split at h
    · cases h; exact ⟨s', rfl⟩
    · cases h

end Action

namespace Command

/-- A run of the loop which ended behind an indirect forward does the same on longer input. -/
theorem loop_ext {cfg : Cfg} {fuel : Nat} {acc as : List Action} {r r' : Rd}
    (hl : loop cfg 0 fuel acc r = .ok (as, r')) (hi : endsIndirect as = true) (t : List U8)
    {fuel' : Nat} (hf : fuel ≤ fuel') :
    ∃ r'', loop cfg 0 fuel' acc (r.ext t) = .ok (as, r'') := by
  induction fuel generalizing acc r fuel' with
  | zero => cases hl
  | succ fuel ih =>
    obtain ⟨fuel', rfl⟩ : ∃ f, fuel' = f + 1 := ⟨fuel' - 1, by omega⟩
    rw [loop_zero] at hl ⊢
    obtain ⟨stop, r1, hE⟩ := R.atEnd_total cfg r
    rw [hE] at hl
    dsimp only at hl
    cases stop with
    | true =>
      cases hl
      obtain ⟨stop', r2, hE'⟩ := R.atEnd_total cfg (r.ext t)
      rw [hE']
      dsimp only
      cases stop' with
      | true => exact ⟨_, rfl⟩
      | false => simp only [Bool.false_eq_true, if_false, hi, if_true]; exact ⟨_, rfl⟩
    | false =>
      rw [R.atEnd_ext hE t]
      simp only [Bool.false_eq_true, if_false] at hl ⊢
      split at hl
      · cases hl
        rename_i h
        simp only [h, if_true]
        exact ⟨_, rfl⟩
      · rename_i h
        rw [if_neg h]
        cases hr : Action.read cfg r1 with
        | error e => rw [hr] at hl; cases hl
        | ok p =>
          obtain ⟨a, r2⟩ := p
          rw [hr] at hl
          rw [(Action.read_ext cfg).ok t hr]
          exact ih hl (by omega)

theorem read_ext {cfg : Cfg} {r r' : Rd} {c : Command} (h : read cfg 0 r = .ok (c, r'))
    (hi : endsIndirect c.actions = true) (t : List U8) :
    ∃ r'', read cfg 0 (r.ext t) = .ok (c, r'') := by
  obtain ⟨r'', hr⟩ := loop_ext (read_ok h) hi t (fuel' := (r.ext t).data.length + 1)
    (by simp [Rd.ext])
  refine ⟨r'', ?_⟩
  unfold read
  show R.bind _ _ _ = _
  unfold R.bind
  rw [hr]
  rfl

end Command
end Dash7
