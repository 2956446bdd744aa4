import Verif.Spec.Offset
import Verif.Lemmas.Accept6
import Verif.Lemmas.Shift

/-!
# The reading loop at any bit position
-/

namespace Dash7
open Spec

/-- Fewer bits than a byte are kept back. -/
structure Rd.Part (r : Rd) : Prop extends r.OK where
  lt : r.left.length < 8

/-- Fewer bits than a byte are kept back, or the byte just fetched. -/
structure Rd.Ready (r : Rd) : Prop extends r.OK where
  or : r.left.length < 8 ∨ r.Con

theorem Rd.Part.left_eq {r : Rd} (h : r.Part) : r.left.length = r.rem.length % 8 := by
  rw [Rd.rem_length]
  have := h.lt
  omega

theorem Rd.Part.whole {r : Rd} (h : r.Part) : wholeBytes r.rem = bytesBits (r.data.drop r.pos) := by
  rw [wholeBytes, ← h.left_eq, Rd.rem, List.drop_left]

theorem Rd.Part.pos_eq {r : Rd} (h : r.Part) : bytePosition r.data.length r.rem = r.pos := by
  rw [bytePosition, Rd.rem_length]
  have := h.lt
  have := h.pos_le
  omega

theorem Action.read_any {cfg : Cfg} {r : Rd} (h : r.Ready) (h8 : 8 ≤ r.rem.length) :
    ∃ r2, read cfg r = (dispatch cfg (opAt 2 r.rem)).run r2 ∧ r2.Part ∧ r2.data = r.data ∧
      r2.bitsRead = r.bitsRead + 8 ∧ r2.rem = steppedBack cfg r.rem := by
  obtain ⟨r0, n0, hr0, st0, hrem0, hn0⟩ := P.run_ok (P.pad 2) h.toOK (pad_eval (n := 2) (by omega))
  obtain ⟨r1, n1, hr1, st1, hrem1, hn1⟩ := P.run_ok OpCode.read st0.ok
    (opcode_eval (s := r0.rem) (by rw [hrem0, List.length_drop]; omega))
  rw [List.length_drop] at hn0
  rw [List.length_drop, hrem0, List.length_drop] at hn1
  obtain rfl : n0 = 2 := by omega
  obtain rfl : n1 = 6 := by omega
  have hp : r1.Part := ⟨st1.ok, st1.left_lt st0.ok (by omega)⟩
  have hcur : r1.cur = r.cur + 8 := by rw [st1.cur, st0.cur]
  have hl8 := st1.ok.left8
  have hl8' := h.left8
  have hp1 := st1.ok.pos_le
  have hd : r1.data = r.data := st1.data.trans st0.data
  have hr1rem : r1.rem = r.rem.drop 8 := by rw [hrem1, hrem0, List.drop_drop]
  have hleft : r1.left.length = r.rem.length % 8 := by
    rw [hp.left_eq, hr1rem, List.length_drop]; omega
  have hlt := hp.lt
  have hrl := r.rem_length
  -- the whole bytes are those from the byte before on
  have hw : bytesBits (r.data.drop (r1.pos - 1)) = wholeBytes r.rem := by
    simp only [Rd.cur] at hcur
    rcases h.or with hlt' | hcon
    · have : r1.pos - 1 = r.pos := by omega
      rw [this, Rd.Part.whole ⟨h.toOK, hlt'⟩]
    · rw [wholeBytes, hcon.rem_eq, List.drop_drop, ← hcon.rem_eq]
      have : r.cur + r.rem.length % 8 = 8 * (r1.pos - 1) := by
        simp only [Rd.cur]; omega
      rw [this, bytesBits_drop]
  have hr1l : r1.left = ((wholeBytes r.rem).take 8).drop (8 - r.rem.length % 8) := by
    have e : r1.left = r1.rem.take r1.left.length := by
      rw [Rd.rem, List.take_left]
    rw [e, hr1rem, hleft, wholeBytes, List.drop_take, List.drop_drop]
    have : r.rem.length % 8 + (8 - r.rem.length % 8) = 8 := by omega
    have h' : 8 - (8 - r.rem.length % 8) = r.rem.length % 8 := by omega
    rw [this, h']
  refine ⟨{ r1 with pos := r1.pos - 1, left := if cfg.seekClears then [] else r1.left }, ?_, ⟨⟨?_, ?_, ?_⟩, ?_⟩, hd,
    ?_, ?_⟩
  · simp only [read, R.bind_eq, R.bind]
    rw [hr0]
    dsimp only
    rw [hr1]
    dsimp only
    rw [hrem0]
    rfl
  · dsimp only; omega
  · dsimp only; split
    · simp
    · omega
  · dsimp only
    intro hne
    split at hne
    · exact absurd rfl hne
    · have : 0 < r1.left.length := List.length_pos_iff.2 hne
      simp only [Rd.cur] at hcur
      have := h.left_le
      omega
  · dsimp only; split
    · simp
    · exact hlt
  · dsimp only; rw [st1.bitsRead, st0.bitsRead]
  · have e : ∀ l, Rd.rem { r1 with pos := r1.pos - 1, left := l } = l ++ wholeBytes r.rem := by
      intro l
      rw [← hw, ← hd]; rfl
    rw [e, steppedBack]
    split
    · rfl
    · rw [hr1l]

/-- Reading one action from any position. -/
theorem Action.read_any_ok {cfg : Cfg} {r r' : Rd} (h : r.Ready) {a : Action} (hr : read cfg r = .ok (a, r')) :
    r'.Part ∧ r'.data = r.data ∧ 8 ≤ r.rem.length ∧ Form.value ((r.rem.drop 2).take 6) = opcodeOf a ∧
      ∃ wire, steppedBack cfg r.rem = wire ++ r'.rem ∧ Form.operand cfg a wire ∧ 8 ≤ wire.length ∧
        r'.bitsRead = r.bitsRead + 8 + wire.length := by
  by_cases h8 : 8 ≤ r.rem.length
  · obtain ⟨r2, he, hp2, hd, hb, hrem⟩ := read_any (cfg := cfg) h h8
    rw [he] at hr
    obtain ⟨hev, n, st, hn⟩ := P.run_ok' _ hp2.toOK hr
    obtain ⟨c, hc, -⟩ := P.eval_ok _ hev
    have hl := congrArg List.length hc
    rw [List.length_append] at hl
    obtain rfl : n = c.length := by omega
    rw [hc] at hev
    obtain ⟨hop, hF⟩ := (dispatch_fits cfg _ _ _ _).1 hev
    have hpos := (dispatch_post cfg _ _ _ _ hev).2.pos
    refine ⟨⟨st.ok, st.left_lt hp2.toOK (by omega)⟩, st.data.trans hd, h8, ?_, c, by rw [← hrem, hc], hF, hpos, ?_⟩
    · rw [hop]
      have := opAt_bits (c := r.rem) (s' := []) h8
      rw [List.append_nil] at this
      rw [this, Form.value_eq]
    · rw [st.bitsRead, hb]
  · rw [read_short h.toOK (by omega)] at hr
    cases hr

theorem Action.read_any_form {cfg : Cfg} {r : Rd} (h : r.Ready) {a : Action} (h8 : 8 ≤ r.rem.length)
    (hop : Form.value ((r.rem.drop 2).take 6) = opcodeOf a) {wire more : List Bool}
    (hs : steppedBack cfg r.rem = wire ++ more) (hF : Form.operand cfg a wire) :
    ∃ r', read cfg r = .ok (a, r') ∧ r'.Part ∧ r'.data = r.data ∧ r'.rem = more ∧ 8 ≤ wire.length ∧
      r'.bitsRead = r.bitsRead + 8 + wire.length := by
  obtain ⟨r2, he, hp2, hd, hb, hrem⟩ := read_any (cfg := cfg) h h8
  have hop' : opcodeOf a = (opAt 2 r.rem).code.toNat := by
    have := opAt_bits (c := r.rem) (s' := []) h8
    rw [List.append_nil] at this
    rw [this, ← hop, Form.value_eq]
  have hev := (dispatch_fits cfg (opAt 2 r.rem) a wire more).2 ⟨hop', hF⟩
  have hpos := (dispatch_post cfg _ _ _ _ hev).2.pos
  rw [← hs, ← hrem] at hev
  obtain ⟨r', n, hr', st, hrem', hn⟩ := P.run_ok _ hp2.toOK hev
  have hl := congrArg List.length hs
  rw [← hrem, List.length_append] at hl
  obtain rfl : n = wire.length := by omega
  exact ⟨r', by rw [he, hr'], ⟨st.ok, st.left_lt hp2.toOK (by omega)⟩, st.data.trans hd, hrem', hpos,
    by rw [st.bitsRead, hb]⟩

theorem steppedBack_length (cfg : Cfg) {s : List Bool} (h : 8 ≤ s.length) :
    (steppedBack cfg s).length ≤ s.length := by
  unfold steppedBack wholeBytes
  split
  · simp
  · simp; omega

/-- Testing for the end. -/
theorem R.atEnd_part {cfg : Cfg} {r : Rd} (h : r.Part) :
    ∃ r', R.atEnd cfg r = .ok (r.rem.isEmpty, r') ∧ r'.Ready ∧ r'.data = r.data ∧ r'.rem = r.rem ∧
      r'.bitsRead = r.bitsRead + endTest cfg r.rem := by
  obtain ⟨r', hr⟩ := R.atEnd_rem (cfg := cfg) h.toOK
  refine ⟨r', hr, ?_⟩
  by_cases hl : r.left = []
  · have hm : r.rem.length % 8 = 0 := by rw [← h.left_eq, hl]; rfl
    cases he : r.rem.isEmpty with
    | true =>
      rw [he] at hr
      obtain ⟨rfl, h0⟩ := R.atEnd_true hr
      exact ⟨⟨h.toOK, .inl h.lt⟩, rfl, rfl, by simp [endTest, h0]⟩
    | false =>
      rw [he] at hr
      obtain ⟨hok, hd, hrem, hc, hne, -, -, h1, h2⟩ := R.atEnd_false h.toOK hr
      refine ⟨⟨hok, .inr ⟨hok, ?_⟩⟩, hd, hrem, ?_⟩
      · rw [hrem, hd, hc]
        simp only [Rd.rem, Rd.cur, hl, List.nil_append, List.length_nil, Nat.sub_zero]
        exact bytesBits_drop _ _
      · unfold endTest
        cases hcc : cfg.endCounts with
        | true => rw [h1 hl hcc, if_pos ⟨rfl, hne, hm⟩]
        | false => rw [h2 hcc]; simp
  · have := Command.atEnd_left (cfg := cfg) hl
    rw [this] at hr
    simp only [Except.ok.injEq, Prod.mk.injEq] at hr
    obtain ⟨-, rfl⟩ := hr
    refine ⟨⟨h.toOK, .inl h.lt⟩, rfl, rfl, ?_⟩
    have : r.rem.length % 8 ≠ 0 := by
      rw [← h.left_eq]; exact fun h0 => hl (List.length_eq_zero_iff.1 h0)
    simp [endTest, this]

namespace Command

/-- Testing the length limit. -/
theorem validLength_part {cfg : Cfg} {L : U32} {r : Rd} (h : r.Part) :
    ∃ r', validLength cfg L r =
        .ok (!decide (limitReached L.toNat (bytePosition r.data.length (asked cfg L.toNat r.rem))), r') ∧
      r'.Part ∧ r'.data = r.data ∧ r'.rem = asked cfg L.toNat r.rem ∧ r'.bitsRead = r.bitsRead := by
  unfold validLength
  by_cases hL : L.toNat = 0
  · rw [if_pos hL]
    refine ⟨r, ?_, h, rfl, by simp [asked, hL], rfl⟩
    simp [R.pure, limitReached, hL]
  · rw [if_neg hL]
    have key : ∀ l, (l = [] ∨ l = r.left) → Rd.Part { r with left := l } := by
      rintro l (rfl | rfl)
      · exact ⟨⟨h.pos_le, by simp, by simp⟩, by simp⟩
      · exact h
    have hp := key (if cfg.seekClears then [] else r.left) (by split <;> simp)
    have hrem : Rd.rem { r with left := if cfg.seekClears then [] else r.left } = asked cfg L.toNat r.rem := by
      unfold asked
      cases hs : cfg.seekClears with
      | true => simp only [hL, ne_eq, not_false_eq_true, and_true, if_true]; rw [h.whole]; rfl
      | false => simp
    refine ⟨_, ?_, hp, rfl, hrem, rfl⟩
    simp only [R.bind, R.streamPosition, R.pure, Except.ok.injEq, Prod.mk.injEq, and_true]
    have := hp.pos_eq
    rw [hrem] at this
    rw [this]
    simp only [limitReached, hL, ne_eq, not_false_eq_true, true_and]
    simp only [← decide_not, Nat.not_le]

theorem loop_part_conv {cfg : Cfg} {L : U32} {fuel : Nat} {acc as' : List Action} {r r' : Rd} (h : r.Part)
    (hr : loop cfg L fuel acc r = .ok (as', r')) :
    ∃ as n, as' = acc ++ as ∧ reading cfg L.toNat r.data.length (endsIndirect acc) as r.rem r'.rem n ∧
      r'.OK ∧ r'.data = r.data ∧ r'.bitsRead = r.bitsRead + n := by
  induction fuel generalizing acc r with
  | zero => cases hr
  | succ fuel ih =>
    rw [loop_succ] at hr
    obtain ⟨r0, h0, hp0, hd0, hm0, hb0⟩ := validLength_part (cfg := cfg) (L := L) h
    rw [h0] at hr
    dsimp only at hr
    by_cases hlim : limitReached L.toNat (bytePosition r.data.length (asked cfg L.toNat r.rem))
    · rw [if_pos (by simp [hlim])] at hr
      simp only [Except.ok.injEq, Prod.mk.injEq] at hr
      obtain ⟨rfl, rfl⟩ := hr
      exact ⟨[], 0, by simp, ⟨hm0, .inl ⟨hm0 ▸ hlim, rfl⟩⟩, hp0.toOK, hd0, by omega⟩
    · rw [if_neg (by simp [hlim])] at hr
      obtain ⟨r1, h1, hp1, hd1, hm1, hb1⟩ := R.atEnd_part (cfg := cfg) hp0
      rw [h1] at hr
      dsimp only at hr
      by_cases he : r0.rem = []
      · rw [if_pos (by simp [he])] at hr
        simp only [Except.ok.injEq, Prod.mk.injEq] at hr
        obtain ⟨rfl, rfl⟩ := hr
        refine ⟨[], _, by simp, ⟨hm1.trans hm0, .inr ⟨?_, .inl (hm1.trans he), rfl⟩⟩, hp1.toOK, hd1.trans hd0, ?_⟩
        · rw [hm1, hm0]; exact hlim
        · rw [hb1, hb0, hm1]
      · rw [if_neg (by simpa using he)] at hr
        by_cases hi : endsIndirect acc = true
        · rw [if_pos hi] at hr
          simp only [Except.ok.injEq, Prod.mk.injEq] at hr
          obtain ⟨rfl, rfl⟩ := hr
          refine ⟨[], _, by simp, ⟨hm1.trans hm0, .inr ⟨?_, .inr hi, rfl⟩⟩, hp1.toOK, hd1.trans hd0, ?_⟩
          · rw [hm1, hm0]; exact hlim
          · rw [hb1, hb0, hm1]
        · rw [if_neg hi] at hr
          split at hr
          · cases hr
          · rename_i a r2 h2
            obtain ⟨hp2, hd2, h8, hop, wire, hs, hF, -, hb2⟩ := Action.read_any_ok hp1 h2
            obtain ⟨as, n, rfl, hread, hok, hd, hb⟩ := ih hp2 hr
            rw [hm1, hm0] at h8 hop hs
            rw [hd2, hd1, hd0] at hread hd
            rw [endsIndirect_concat] at hread
            refine ⟨a :: as, endTest cfg (asked cfg L.toNat r.rem) + 8 + wire.length + n, by simp, ?_, hok, hd, ?_⟩
            · exact ⟨hlim, by simpa using hi, h8, hop, wire, _, n, hs, hF, hread, rfl⟩
            · rw [hb, hb2, hb1, hb0, hm0]; omega

theorem reading_length {cfg : Cfg} {limit size : Nat} {as : List Action} {stop : Bool} {s left : List Bool} {n : Nat}
    (h : reading cfg limit size stop as s left n) : 8 * as.length ≤ s.length := by
  induction as generalizing stop s n with
  | nil => simp
  | cons a as ih =>
    obtain ⟨-, -, h8, -, wire, more, m, hs, hF, hread, -⟩ := h
    have h1 := ih hread
    have h2 := congrArg List.length hs
    have h3 := steppedBack_length cfg h8
    have h4 : (asked cfg limit s).length ≤ s.length := by
      unfold asked wholeBytes; split <;> simp
    have h5 : 8 ≤ wire.length :=
      (Action.dispatch_post cfg a.opcode wire [] a
        ((Action.dispatch_fits cfg _ _ _ _).2 ⟨(Action.opcode_toNat a).symm, hF⟩)).2.pos
    rw [List.length_append] at h2
    simp only [List.length_cons]; omega

theorem loop_part_form {cfg : Cfg} {L : U32} {fuel : Nat} {acc as : List Action} {r : Rd} (h : r.Part)
    {left : List Bool} {n : Nat} (hf : as.length < fuel)
    (hread : reading cfg L.toNat r.data.length (endsIndirect acc) as r.rem left n) :
    ∃ r', loop cfg L fuel acc r = .ok (acc ++ as, r') ∧ r'.OK ∧ r'.data = r.data ∧ r'.rem = left ∧
      r'.bitsRead = r.bitsRead + n := by
  induction as generalizing fuel acc r n with
  | nil =>
    obtain ⟨fuel, rfl⟩ : ∃ k, fuel = k + 1 := ⟨fuel - 1, by simp at hf; omega⟩
    obtain ⟨rfl, hcase⟩ := hread
    rw [loop_succ]
    obtain ⟨r0, h0, hp0, hd0, hm0, hb0⟩ := validLength_part (cfg := cfg) (L := L) h
    rw [h0]
    dsimp only
    rcases hcase with ⟨hlim, rfl⟩ | ⟨hlim, hstop, rfl⟩
    · rw [if_pos (by simp [hlim])]
      exact ⟨r0, by simp, hp0.toOK, hd0, hm0, hb0⟩
    · rw [if_neg (by simp [hlim])]
      obtain ⟨r1, h1, hp1, hd1, hm1, hb1⟩ := R.atEnd_part (cfg := cfg) hp0
      rw [h1]
      dsimp only
      refine ⟨r1, ?_, hp1.toOK, hd1.trans hd0, hm1.trans hm0, by rw [hb1, hb0, hm0]⟩
      by_cases he : r0.rem = []
      · rw [if_pos (by simp [he])]; simp
      · rw [if_neg (by simpa using he), if_pos (hstop.resolve_left (hm0 ▸ he))]; simp
  | cons a as ih =>
    obtain ⟨fuel, rfl⟩ : ∃ k, fuel = k + 1 := ⟨fuel - 1, by simp at hf; omega⟩
    obtain ⟨hlim, hi, h8, hop, wire, more, m, hs, hF, hread, rfl⟩ := hread
    rw [loop_succ]
    obtain ⟨r0, h0, hp0, hd0, hm0, hb0⟩ := validLength_part (cfg := cfg) (L := L) h
    rw [h0]
    dsimp only
    rw [if_neg (by simp [hlim])]
    obtain ⟨r1, h1, hp1, hd1, hm1, hb1⟩ := R.atEnd_part (cfg := cfg) hp0
    have he : r0.rem ≠ [] := by
      rw [hm0]; intro h0; rw [h0] at h8; simp at h8
    rw [h1]
    dsimp only
    rw [if_neg (by simpa using he), if_neg (by simp [hi])]
    obtain ⟨r2, h2, hp2, hd2, hm2, -, hb2⟩ := Action.read_any_form (cfg := cfg) (r := r1) hp1 (a := a)
      (by rw [hm1, hm0]; exact h8) (by rw [hm1, hm0]; exact hop) (by rw [hm1, hm0]; exact hs) hF
    rw [h2]
    dsimp only
    have hd' : r2.data = r.data := by rw [hd2, hd1, hd0]
    obtain ⟨r', hr', hok, hd, hm, hb⟩ := ih (fuel := fuel) (acc := acc ++ [a]) hp2 (by simpa using hf)
      (by rw [endsIndirect_concat, hd', hm2]; exact hread)
    refine ⟨r', by rw [hr']; simp, hok, hd.trans hd', hm, ?_⟩
    rw [hb, hb2, hb1, hb0, hm0]; omega

end Command

/-! ## Readers at any position -/

/-- `m` reads `a` from `s`, stopping in front of `left` and counting `n` bits, exactly if `T` says so. -/
structure Takes {α : Type} (m : R α) (T : Nat → α → List Bool → List Bool → Nat → Prop) : Prop where
  conv : ∀ {r r' : Rd} {a : α}, r.Part → m r = .ok (a, r') →
    ∃ n, T r.data.length a r.rem r'.rem n ∧ r'.OK ∧ r'.data = r.data ∧ r'.bitsRead = r.bitsRead + n
  form : ∀ {r : Rd} {a : α} {left : List Bool} {n : Nat}, r.Part → T r.data.length a r.rem left n →
    ∃ r', m r = .ok (a, r') ∧ r'.OK ∧ r'.data = r.data ∧ r'.rem = left ∧ r'.bitsRead = r.bitsRead + n

theorem Fits.ok {α : Type} {p : P α} {F : α → Form} (hp : Fits p F) {r r' : Rd} {a : α} (h : r.OK)
    (hr : p.run r = .ok (a, r')) :
    ∃ c, F a c ∧ r.rem = c ++ r'.rem ∧ r'.OK ∧ r'.data = r.data ∧ r'.bitsRead = r.bitsRead + c.length ∧
      (r.Part → r'.Part) := by
  obtain ⟨he, n, st, hn⟩ := P.run_ok' p h hr
  obtain ⟨c, hc, -⟩ := P.eval_ok p he
  have hl := congrArg List.length hc
  rw [List.length_append] at hl
  obtain rfl : n = c.length := by omega
  refine ⟨c, (hp a c _).1 (hc ▸ he), hc, st.ok, st.data, st.bitsRead, fun hp => ⟨st.ok, ?_⟩⟩
  have := hp.lt
  rcases st.left with h | h <;> omega

theorem Fits.form {α : Type} {p : P α} {F : α → Form} (hp : Fits p F) {r : Rd} {a : α} (h : r.OK)
    {c s : List Bool} (hF : F a c) (hs : r.rem = c ++ s) :
    ∃ r', p.run r = .ok (a, r') ∧ r'.OK ∧ r'.data = r.data ∧ r'.rem = s ∧
      r'.bitsRead = r.bitsRead + c.length ∧ (r.Part → r'.Part) := by
  have he := (hp a c s).2 hF
  rw [← hs] at he
  obtain ⟨r', n, hr, st, hrem, hn⟩ := P.run_ok p h he
  have hl := congrArg List.length hs
  rw [List.length_append] at hl
  obtain rfl : n = c.length := by omega
  refine ⟨r', hr, st.ok, st.data, hrem, st.bitsRead, fun hp => ⟨st.ok, ?_⟩⟩
  have := hp.lt
  rcases st.left with h | h <;> omega

theorem Command.takes (cfg : Cfg) (L : U32) : Takes (Command.read cfg L)
    (fun size c s left n => reading cfg L.toNat size false c.actions s left n) where
  conv h hr := by
    obtain ⟨as, m, has, hread, hok, hd, hb⟩ := loop_part_conv h (Command.read_ok hr)
    rw [List.nil_append] at has
    refine ⟨m, ?_, hok, hd, hb⟩
    rw [has]; exact hread
  form {r c left n} h hread := by
    have h1 := reading_length hread
    have h2 := h.toOK.rem_cur
    obtain ⟨r', hr, hok, hd, hm, hb⟩ := loop_part_form (fuel := r.data.length + 1) (acc := []) h (by omega) hread
    refine ⟨r', ?_, hok, hd, hm, hb⟩
    unfold Command.read
    change R.bind _ _ _ = _
    unfold R.bind
    rw [hr]
    rfl

theorem Action.takes (cfg : Cfg) : Takes (Action.read cfg)
    (fun _ a s left n => actionReading cfg a s left n) where
  conv {r r' a} h hr := by
    obtain ⟨hp, hd, h8, hop, wire, hs, hF, -, hb'⟩ := read_any_ok ⟨h.toOK, .inl h.lt⟩ hr
    exact ⟨8 + wire.length, ⟨h8, hop, wire, hs, hF, rfl⟩, hp.toOK, hd, by omega⟩
  form {r a left n} h hread := by
    obtain ⟨h8, hop, wire, hs, hF, rfl⟩ := hread
    obtain ⟨r', hr, hp, hd, hm, -, hb⟩ := read_any_form ⟨h.toOK, .inl h.lt⟩ h8 hop hs hF
    exact ⟨r', hr, hp.toOK, hd, hm, by omega⟩

/-- From the start of some bytes, some bits skipped. -/
theorem startAt_part (data : List U8) (off : Nat) :
    (off ≤ 8 * data.length → ∃ r0 : Rd, r0.Part ∧ r0.data = data ∧ r0.rem = (bytesBits data).drop off ∧
      r0.bitsRead = off ∧ ∀ {α : Type} (m : R α), startAt off m (Rd.new data) = m r0) ∧
    (¬ off ≤ 8 * data.length → ∀ {α : Type} (m : R α), startAt off m (Rd.new data) = .error .incomplete) := by
  have hp : (Rd.new data).Part := ⟨(Rd.new_con data).toOK, by simp [Rd.new]⟩
  unfold startAt
  constructor
  · intro hle
    by_cases h0 : off = 0
    · subst h0
      exact ⟨Rd.new data, hp, rfl, by simp, rfl, fun m => by simp⟩
    · obtain ⟨r1, n, hr, st, hrem, hn⟩ := P.run_ok (P.pad off) hp.toOK
        (Action.pad_eval (n := off) (s := (Rd.new data).rem) (by simpa using hle))
      rw [Rd.new_rem] at hrem hn
      rw [List.length_drop, bytesBits_length] at hn
      obtain rfl : n = off := by omega
      refine ⟨r1, ⟨st.ok, st.left_lt hp.toOK (by omega)⟩, st.data, hrem, ?_, fun m => ?_⟩
      · rw [st.bitsRead]; simp [Rd.new]
      · rw [if_pos h0]
        simp only [R.bind, hr]
  · intro hle α m
    rw [if_pos (by omega)]
    have := P.run_err (P.pad off) hp.toOK (Action.pad_eval_err (n := off) (s := (Rd.new data).rem) (by simpa using hle))
    simp only [R.bind, this]

section
variable {α : Type} {m : R α} {T : Nat → α → List Bool → List Bool → Nat → Prop}

/-- The count and value, started anywhere. -/
theorem Takes.start (h : Takes m T) (data : List U8) (off : Nat) (a : α) (k : Nat) :
    (∃ r, startAt off m (Rd.new data) = .ok (a, r) ∧ r.bitsRead = k) ↔
      off ≤ 8 * data.length ∧
        ∃ left n, T data.length a ((Form.ofBytes data).drop off) left n ∧ k = off + n := by
  rw [Form.ofBytes_eq]
  obtain ⟨h1, h2⟩ := startAt_part data off
  by_cases hle : off ≤ 8 * data.length
  · obtain ⟨r0, hp, hd, hrem, hb, hm⟩ := h1 hle
    rw [hm m]
    constructor
    · rintro ⟨r, hr, rfl⟩
      obtain ⟨n, hT, -, -, hb'⟩ := h.conv hp hr
      rw [hd, hrem] at hT
      exact ⟨hle, r.rem, n, hT, by rw [hb', hb]⟩
    · rintro ⟨-, left, n, hT, rfl⟩
      rw [← hrem] at hT
      obtain ⟨r, hr, -, -, -, hb'⟩ := h.form hp (by rw [hd]; exact hT)
      exact ⟨r, hr, by rw [hb', hb]⟩
  · rw [h2 hle m]
    constructor
    · rintro ⟨r, hr, -⟩; cases hr
    · rintro ⟨h, -⟩; exact absurd h hle

theorem Takes.fromReader (h : Takes m T) (data : List U8) (off : Nat) (a : α) (k : Nat) :
    Dash7.fromReader m data off = .ok (k, a) ↔ off ≤ 8 * data.length ∧
        ∃ left n, T data.length a ((Form.ofBytes data).drop off) left n ∧ k = off + n := by
  rw [← h.start]
  unfold Dash7.fromReader
  constructor
  · intro he
    split at he
    · rename_i b r hr
      cases he
      exact ⟨r, hr, rfl⟩
    · cases he
  · rintro ⟨r, hr, rfl⟩
    rw [hr]

theorem padRest_given (data : List U8) (off n : Nat) (rest : Rest) :
    padRest (data, off) n = .ok rest ↔ ¬ cutsTooFar data off n ∧ rest = handedBack data off n := by
  unfold padRest handedBack cutsTooFar sliceFrom
  dsimp only
  rw [Nat.mul_comm]
  have hidx : (if n % 8 = 0 then n / 8 else (n - n % 8) / 8) = n / 8 := by split <;> omega
  rw [hidx]
  split
  · rename_i hle
    simp only [Except.ok.injEq]
    constructor
    · rintro rfl; exact ⟨by omega, rfl⟩
    · rintro ⟨-, rfl⟩; rfl
  · rename_i hle
    split
    · rename_i s hs
      split at hs
      · cases hs
        simp only [Except.ok.injEq]
        constructor
        · rintro rfl; exact ⟨by omega, rfl⟩
        · rintro ⟨-, rfl⟩; rfl
      · cases hs
    · rename_i e hs
      split at hs
      · cases hs
      · constructor
        · intro h; cases h
        · rintro ⟨h, -⟩; omega

theorem Takes.fromBytes (h : Takes m T) (data : List U8) (off : Nat) (a : α) (rest : Rest) :
    Dash7.fromBytes m (data, off) = .ok (rest, a) ↔ off ≤ 8 * data.length ∧
        ∃ left n, T data.length a ((Form.ofBytes data).drop off) left n ∧
          ¬ cutsTooFar data off (off + n) ∧ rest = handedBack data off (off + n) := by
  have key : Dash7.fromBytes m (data, off) = .ok (rest, a) ↔
      ∃ k, (∃ r, startAt off m (Rd.new data) = .ok (a, r) ∧ r.bitsRead = k) ∧
        ¬ cutsTooFar data off k ∧ rest = handedBack data off k := by
    unfold Dash7.fromBytes
    dsimp only
    constructor
    · intro he
      split at he
      · cases he
      · rename_i b r hr
        split at he
        · rename_i rest' hrest
          cases he
          exact ⟨_, ⟨r, hr, rfl⟩, (padRest_given _ _ _ _).1 hrest⟩
        · cases he
    · rintro ⟨k, ⟨r, hr, rfl⟩, hrest⟩
      rw [hr]
      dsimp only
      rw [(padRest_given _ _ _ _).2 hrest]
  rw [key]
  simp only [h.start]
  constructor
  · rintro ⟨k, ⟨hle, left, n, hT, rfl⟩, hr⟩
    exact ⟨hle, left, n, hT, hr⟩
  · rintro ⟨hle, left, n, hT, hr⟩
    exact ⟨_, ⟨hle, left, n, hT, rfl⟩, hr⟩

theorem Takes.derivedFromBytes (h : Takes m T) (data : List U8) (off : Nat) (a : α) (rest : Rest) :
    Dash7.derivedFromBytes m (data, off) = .ok (rest, a) ↔ off ≤ 8 * data.length ∧
        ∃ left n, T data.length a ((Form.ofBytes data).drop off) left n ∧
          (off + n) / 8 ≤ data.length ∧ rest = (data.drop ((off + n) / 8), (off + n) % 8) := by
  have key : Dash7.derivedFromBytes m (data, off) = .ok (rest, a) ↔
      ∃ k, (∃ r, startAt off m (Rd.new data) = .ok (a, r) ∧ r.bitsRead = k) ∧
        k / 8 ≤ data.length ∧ rest = (data.drop (k / 8), k % 8) := by
    unfold Dash7.derivedFromBytes sliceFrom
    dsimp only
    constructor
    · intro he
      split at he
      · cases he
      · rename_i b r hr
        split at he
        · rename_i s hs
          split at hs
          · cases hs; cases he
            exact ⟨_, ⟨r, hr, rfl⟩, by assumption, rfl⟩
          · cases hs
        · cases he
    · rintro ⟨k, ⟨r, hr, rfl⟩, hle, rfl⟩
      rw [hr]
      dsimp only
      rw [if_pos hle]
  rw [key]
  simp only [h.start]
  constructor
  · rintro ⟨k, ⟨hle, left, n, hT, rfl⟩, hr⟩
    exact ⟨hle, left, n, hT, hr⟩
  · rintro ⟨hle, left, n, hT, hr⟩
    exact ⟨_, ⟨hle, left, n, hT, rfl⟩, hr⟩

theorem Takes.derivedTryFrom (h : Takes m T) (data : List U8) (a : α) :
    Dash7.derivedTryFrom m data = .ok a ↔
        ∃ left n, T data.length a (Form.ofBytes data) left n ∧ n / 8 = data.length := by
  have key : Dash7.derivedTryFrom m data = .ok a ↔
      ∃ k, (∃ r, startAt 0 m (Rd.new data) = .ok (a, r) ∧ r.bitsRead = k) ∧ k / 8 = data.length := by
    unfold Dash7.derivedTryFrom startAt
    rw [if_neg (by simp)]
    constructor
    · intro he
      split at he
      · cases he
      · rename_i b r hr
        split at he
        · cases he
        · cases he
          exact ⟨_, ⟨r, hr, rfl⟩, by omega⟩
    · rintro ⟨k, ⟨r, hr, rfl⟩, hk⟩
      rw [hr]
      simp [hk]
  rw [key]
  simp only [h.start, List.drop_zero, Nat.zero_add]
  constructor
  · rintro ⟨k, ⟨-, left, n, hT, rfl⟩, hr⟩
    exact ⟨left, k, hT, hr⟩
  · rintro ⟨left, n, hT, hr⟩
    exact ⟨_, ⟨by omega, left, n, hT, rfl⟩, hr⟩

end

end Dash7
