import Verif.Lemmas.Total
import Verif.Spec.Growing

/-!
# Reading input that grows

What a reader does on the beginning of some input, and on all of it: a refusal stays, and a value stays or is continued.
-/

namespace Dash7

/-- A reader whose refusals are final, and whose value on longer input is the same unless it stopped at the end of
the input; then the value on longer input continues it. -/
structure R.Grows {α : Type} (m : R α) (pre : α → α → Prop) : Prop where
  ok : ∀ {r r' : Rd} {a : α}, r.OK → m r = .ok (a, r') →
    r'.OK ∧ r'.data = r.data ∧ ((∀ t, m (r.ext t) = .ok (a, r'.ext t)) ∨
      r'.rem = [] ∧ ∀ t b r'', m (r.ext t) = .ok (b, r'') → pre a b)
  fault : ∀ {r : Rd} {f : Fault}, r.OK → m r = .error (.fault f) → ∀ t, m (r.ext t) = .error (.fault f)

/-- At least as much is counted as was read. -/
def R.Counts {α : Type} (m : R α) : Prop :=
  ∀ (r r' : Rd) (a : α), r.OK → r.cur ≤ r.bitsRead → m r = .ok (a, r') → r'.cur ≤ r'.bitsRead

theorem P.run_grows {α : Type} (p : P α) (pre : α → α → Prop) : R.Grows p.run pre where
  ok h hr := by
    obtain ⟨-, n, st, -⟩ := P.run_ok' p h hr
    exact ⟨st.ok, st.data, .inl fun t => (P.run_ext p).ok t hr⟩
  fault _ hr t := (P.run_ext p).fault t hr

theorem P.run_counts {α : Type} (p : P α) : R.Counts p.run := by
  intro r r' a h hc hr
  obtain ⟨-, n, st, -⟩ := P.run_ok' p h hr
  rw [st.cur, st.bitsRead]
  omega

theorem R.bind_done {α β : Type} {m : R α} {f : α → R β} {r r' : Rd} {b : β} (h : R.bind m f r = .ok (b, r')) :
    ∃ a r1, m r = .ok (a, r1) ∧ f a r1 = .ok (b, r') := by
  unfold R.bind at h
  cases hm : m r with
  | error e => rw [hm] at h; cases h
  | ok p =>
    obtain ⟨a, r1⟩ := p
    rw [hm] at h
    exact ⟨a, r1, rfl, h⟩

theorem R.bind_error {α β : Type} {m : R α} {f : α → R β} {r : Rd} {e : Err} (h : R.bind m f r = .error e) :
    m r = .error e ∨ ∃ a r1, m r = .ok (a, r1) ∧ f a r1 = .error e := by
  unfold R.bind at h
  cases hm : m r with
  | error e' => rw [hm] at h; cases h; exact .inl rfl
  | ok p =>
    obtain ⟨a, r1⟩ := p
    rw [hm] at h
    exact .inr ⟨a, r1, rfl, h⟩

/-- What follows a parser. -/
theorem R.Grows.after {α β : Type} {p : P α} {f : α → R β} {pre : β → β → Prop} (h : ∀ a, (f a).Grows pre) :
    (R.bind p.run f).Grows pre where
  ok := by
    intro r r' b hok hr
    obtain ⟨a, r1, h1, h2⟩ := R.bind_done hr
    obtain ⟨-, n, st, -⟩ := P.run_ok' p hok h1
    obtain ⟨o, d, hx⟩ := (h a).ok st.ok h2
    have hb : ∀ t, R.bind p.run f (r.ext t) = f a (r1.ext t) := fun t => by
      unfold R.bind
      rw [(P.run_ext p).ok t h1]
    refine ⟨o, d.trans st.data, ?_⟩
    rcases hx with hx | ⟨he, hx⟩
    · exact .inl fun t => (hb t).trans (hx t)
    · exact .inr ⟨he, fun t b r'' hb' => hx t b r'' (by rw [← hb t]; exact hb')⟩
  fault := by
    intro r f' hok hr t
    rcases R.bind_error hr with h1 | ⟨a, r1, h1, h2⟩
    · unfold R.bind; rw [(P.run_ext p).fault t h1]
    · obtain ⟨-, n, st, -⟩ := P.run_ok' p hok h1
      unfold R.bind
      rw [(P.run_ext p).ok t h1]
      exact (h a).fault st.ok h2 t

theorem R.Counts.after {α β : Type} {p : P α} {f : α → R β} (h : ∀ a, (f a).Counts) : (R.bind p.run f).Counts := by
  intro r r' b hok hc hr
  obtain ⟨a, r1, h1, h2⟩ := R.bind_done hr
  obtain ⟨-, n, st, -⟩ := P.run_ok' p hok h1
  exact h a _ _ _ st.ok (P.run_counts p _ _ _ hok hc h1) h2

theorem R.Grows.map {α β : Type} {m : R α} {f : α → β} {pre : α → α → Prop} {pre' : β → β → Prop} (h : m.Grows pre)
    (hf : ∀ a b, pre a b → pre' (f a) (f b)) : (R.bind m fun a => R.pure (f a)).Grows pre' where
  ok := by
    intro r r' b hok hr
    obtain ⟨a, r1, h1, h2⟩ := R.bind_done hr
    cases h2
    obtain ⟨o, d, hx⟩ := h.ok hok h1
    refine ⟨o, d, ?_⟩
    rcases hx with hx | ⟨he, hx⟩
    · exact .inl fun t => by unfold R.bind; rw [hx t]; rfl
    · refine .inr ⟨he, fun t b r'' hb => ?_⟩
      obtain ⟨c, r2, h3, h4⟩ := R.bind_done hb
      cases h4
      exact hf _ _ (hx t c _ h3)
  fault := by
    intro r f' hok hr t
    rcases R.bind_error hr with h1 | ⟨a, r1, h1, h2⟩
    · unfold R.bind; rw [h.fault hok h1 t]
    · cases h2

theorem R.Counts.map {α β : Type} {m : R α} {f : α → β} (h : m.Counts) :
    (R.bind m fun a => R.pure (f a)).Counts := by
  intro r r' b hok hc hr
  obtain ⟨a, r1, h1, h2⟩ := R.bind_done hr
  cases h2
  exact h _ _ _ hok hc h1

/-- A parser behind, which wants at least a bit: then the value does not depend on the end of the input. -/
theorem R.Grows.before {α β γ : Type} {m : R α} {p : P β} {f : α → β → γ} {pre : α → α → Prop} (h : m.Grows pre)
    (hp : p.eval [] = .error .incomplete) :
    (R.bind m fun a => R.bind p.run fun b => R.pure (f a b)).Grows (fun _ _ => False) where
  ok := by
    intro r r' c hok hr
    obtain ⟨a, r1, h1, h2⟩ := R.bind_done hr
    obtain ⟨b, r2, h3, h4⟩ := R.bind_done h2
    cases h4
    obtain ⟨o, d, hx⟩ := h.ok hok h1
    obtain ⟨he, n, st, -⟩ := P.run_ok' p o h3
    refine ⟨st.ok, st.data.trans d, ?_⟩
    rcases hx with hx | ⟨he', -⟩
    · refine .inl fun t => ?_
      unfold R.bind
      rw [hx t]
      dsimp only
      rw [(P.run_ext p).ok t h3]
      rfl
    · rw [he', hp] at he; cases he
  fault := by
    intro r f' hok hr t
    rcases R.bind_error hr with h1 | ⟨a, r1, h1, h2⟩
    · unfold R.bind; rw [h.fault hok h1 t]
    · obtain ⟨o, d, hx⟩ := h.ok hok h1
      rcases R.bind_error h2 with h3 | ⟨b, r2, h3, h4⟩
      · rcases hx with hx | ⟨he', -⟩
        · unfold R.bind
          rw [hx t]
          dsimp only
          rw [(P.run_ext p).fault t h3]
        · have := P.run_err' p o h3
          rw [he', hp] at this
          cases this
      · cases h4

theorem R.atEnd_counts (cfg : Cfg) : R.Counts (R.atEnd cfg) := by
  intro r r' b h hc hr
  cases b with
  | true => obtain ⟨rfl, -⟩ := R.atEnd_true hr; exact hc
  | false =>
    obtain ⟨-, -, -, hcur, -, hle, -⟩ := R.atEnd_false h hr
    omega

theorem Action.read_counts (cfg : Cfg) : R.Counts (Action.read cfg) := by
  intro r r' a h hc hr
  by_cases h8 : 8 ≤ r.rem.length
  case neg => rw [Action.read_short h (by omega)] at hr; cases hr
  unfold Action.read at hr
  obtain ⟨u, r1, h1, hr⟩ := R.bind_done hr
  obtain ⟨c, r2, h2, hr⟩ := R.bind_done hr
  obtain ⟨u', r3, h3, hr⟩ := R.bind_done hr
  obtain ⟨e1, n1, st1, l1⟩ := P.run_ok' _ h h1
  obtain ⟨e2, n2, st2, l2⟩ := P.run_ok' _ st1.ok h2
  rw [pad_eval (by omega)] at e1
  simp only [Except.ok.injEq, Prod.mk.injEq, true_and] at e1
  have d1 := congrArg List.length e1
  rw [List.length_drop] at d1
  rw [opcode_eval (by omega)] at e2
  simp only [Except.ok.injEq, Prod.mk.injEq] at e2
  have d2 := congrArg List.length e2.2
  rw [List.length_drop] at d2
  have hle := st2.ok.left_le
  have hl8 := st2.ok.left8
  have hpl := st2.ok.pos_le
  have hcur2 : r2.cur = r.cur + 8 := by rw [st2.cur, st1.cur]; omega
  have hb2 : r2.bitsRead = r.bitsRead + 8 := by rw [st2.bitsRead, st1.bitsRead]; omega
  simp only [R.seekBack, Except.ok.injEq, Prod.mk.injEq, true_and] at h3
  have hleft : r3.left.length ≤ r2.left.length := by
    rw [← h3]; dsimp only; split <;> simp
  have hpos : r3.pos = r2.pos - 1 := by rw [← h3]
  have hdata : r3.data = r2.data := by rw [← h3]
  have hbits : r3.bitsRead = r2.bitsRead := by rw [← h3]
  have ok3 : r3.OK := by
    refine ⟨by rw [hpos, hdata]; omega, by omega, fun hne => ?_⟩
    have : 0 < r3.left.length := List.length_pos_iff.2 hne
    unfold Rd.cur at hcur2
    omega
  obtain ⟨-, n, st, -⟩ := P.run_ok' _ ok3 hr
  rw [st.cur, st.bitsRead, hbits, hb2]
  have : r3.cur ≤ r2.cur := by
    unfold Rd.cur at *
    omega
  omega

namespace Command

theorem validLength_ext (cfg : Cfg) (L : U32) (t : List U8) {r r1 : Rd} {b : Bool}
    (h : validLength cfg L r = .ok (b, r1)) : validLength cfg L (r.ext t) = .ok (b, r1.ext t) := by
  unfold validLength at h ⊢
  split at h
  · rename_i h0
    rw [if_pos h0]
    cases h
    rfl
  · rename_i h0
    rw [if_neg h0]
    cases h
    rfl

/-- The loop appends. -/
theorem loop_continues {cfg : Cfg} {L : U32} {fuel : Nat} {acc as : List Action} {r r' : Rd}
    (hl : loop cfg L fuel acc r = .ok (as, r')) : acc <+: as := by
  induction fuel generalizing acc r with
  | zero => cases hl
  | succ fuel ih =>
    rw [loop_succ] at hl
    repeat' split at hl
    all_goals first | cases hl; done | (cases hl; exact List.prefix_rfl) | skip
    exact (List.prefix_append _ _).trans (ih hl)

theorem loop_grows {cfg : Cfg} {L : U32} {fuel : Nat} {acc : List Action} {r : Rd} (h : r.OK) (t : List U8) {fuel' : Nat}
    (hf : fuel ≤ fuel') :
    (∀ f, f ≠ .panic → loop cfg L fuel acc r = .error (.fault f) →
      loop cfg L fuel' acc (r.ext t) = .error (.fault f)) ∧
    ∀ as r', loop cfg L fuel acc r = .ok (as, r') → loop cfg L fuel' acc (r.ext t) = .ok (as, r'.ext t) ∨
      r'.rem = [] ∧ ∀ bs r'', loop cfg L fuel' acc (r.ext t) = .ok (bs, r'') → as <+: bs := by
  induction fuel generalizing acc r fuel' with
  | zero => exact ⟨fun f hf h => by cases h; exact (hf rfl).elim, fun as r' h => by cases h⟩
  | succ fuel ih =>
    obtain ⟨fuel', rfl⟩ : ∃ f, fuel' = f + 1 := ⟨fuel' - 1, by omega⟩
    obtain ⟨b, r0, hb, hok0, -, -⟩ := validLength_ok cfg L h
    rw [loop_succ, loop_succ, hb, validLength_ext cfg L t hb]
    dsimp only
    cases b with
    | false =>
      simp only [if_true]
      exact ⟨fun f _ h => (by cases h), fun as r' h => (by cases h; exact .inl rfl)⟩
    | true =>
      simp only [Bool.true_eq_false, if_false]
      obtain ⟨stop, r1, hE⟩ := R.atEnd_total cfg r0
      cases stop with
      | true =>
        obtain ⟨rfl, hrem⟩ := R.atEnd_true hE
        rw [hE]
        simp only [if_true]
        refine ⟨fun f _ h => (by cases h), fun as r' h => ?_⟩
        cases h
        refine .inr ⟨hrem, fun bs r'' hl => ?_⟩
        repeat' split at hl
        all_goals first | cases hl; done | (cases hl; exact List.prefix_rfl) | skip
        exact (List.prefix_append _ _).trans (loop_continues hl)
      | false =>
        rw [hE, R.atEnd_ext hE t]
        simp only [Bool.false_eq_true, if_false]
        obtain ⟨ok1, -⟩ := R.atEnd_false hok0 hE
        by_cases hi : endsIndirect acc = true
        · rw [if_pos hi, if_pos hi]
          exact ⟨fun f _ h => (by cases h), fun as r' h => (by cases h; exact .inl rfl)⟩
        · rw [if_neg hi, if_neg hi]
          cases hr : Action.read cfg r1 with
          | error e =>
            refine ⟨fun f _ h => ?_, fun as r' h => by cases h⟩
            cases h
            rw [(Action.read_ext cfg).fault t hr]
          | ok p =>
            obtain ⟨a, r2⟩ := p
            rw [(Action.read_ext cfg).ok t hr]
            obtain ⟨-, ok2, -⟩ := Action.read_ok ok1 hr
            exact ih ok2 (by omega)

theorem loop_counts {cfg : Cfg} {fuel : Nat} {acc : List Action} : R.Counts (loop cfg 0 fuel acc) := by
  intro r r' as h hc hl
  induction fuel generalizing acc r with
  | zero => cases hl
  | succ fuel ih =>
    rw [loop_zero] at hl
    obtain ⟨stop, r1, hE⟩ := R.atEnd_total cfg r
    have hc1 := R.atEnd_counts cfg _ _ _ h hc hE
    rw [hE] at hl
    dsimp only at hl
    split at hl
    · cases hl; exact hc1
    · rename_i hs
      split at hl
      · cases hl; exact hc1
      · have ok1 : r1.OK := by
          cases stop with
          | true => exact (hs rfl).elim
          | false => exact (R.atEnd_false h hE).1
        split at hl
        · cases hl
        · rename_i a r2 hr
          obtain ⟨-, ok2, -⟩ := Action.read_ok ok1 hr
          exact ih _ ok2 (Action.read_counts cfg _ _ _ ok1 hc1 hr) hl

theorem read_grows (cfg : Cfg) (L : U32) : (read cfg L).Grows Spec.continuesCommand where
  ok := by
    intro r r' c h hr
    obtain ⟨as, r1, hl, he⟩ := R.bind_done hr
    cases he
    obtain ⟨ps, -, ok', hd, -⟩ := loop_ok h hl
    refine ⟨ok', hd, ?_⟩
    by_cases hrem : r'.rem = []
    · right
      refine ⟨hrem, fun t d r'' hd => ?_⟩
      obtain ⟨bs, r2, hl', he⟩ := R.bind_done hd
      cases he
      rcases (loop_grows (cfg := cfg) (L := L) (acc := []) h t (fuel' := (r.ext t).data.length + 1)
        (by simp [Rd.ext])).2 _ _ hl with h' | ⟨-, h'⟩
      · rw [hl'] at h'
        cases h'
        exact List.prefix_rfl
      · exact h' _ _ hl'
    · left
      intro t
      rcases (loop_grows (cfg := cfg) (L := L) (acc := []) h t (fuel' := (r.ext t).data.length + 1)
        (by simp [Rd.ext])).2 _ _ hl with h' | ⟨h', -⟩
      · unfold read R.bind
        rw [h']
        rfl
      · exact (hrem h').elim
  fault := by
    intro r f h hr t
    have hf := read_fault h hr
    rcases R.bind_error hr with hl | ⟨as, r1, hl, he⟩
    · have := (loop_grows (cfg := cfg) (L := L) (acc := []) h t (fuel' := (r.ext t).data.length + 1)
        (by simp [Rd.ext])).1 f (by rintro rfl; simp at hf) hl
      unfold read R.bind
      rw [this]
    · cases he

theorem read_counts (cfg : Cfg) : (read cfg 0).Counts := by
  intro r r' c h hc hr
  obtain ⟨as, r1, hl, he⟩ := R.bind_done hr
  cases he
  exact loop_counts _ _ _ h hc hl

end Command

theorem Trans.Frame.read_grows (cfg : Cfg) (L : U32) : (Trans.Frame.read cfg L).Grows Spec.continuesTransport :=
  R.Grows.after fun _ => (Command.read_grows cfg L).map fun _ _ h => ⟨rfl, h⟩

theorem Trans.Frame.read_counts (cfg : Cfg) : (Trans.Frame.read cfg 0).Counts :=
  R.Counts.after fun _ => (Command.read_counts cfg).map

theorem Net.Frame.read_grows (cfg : Cfg) (L : U32) : (Net.Frame.read cfg L).Grows Spec.continuesNetwork :=
  R.Grows.after fun _ => (Trans.Frame.read_grows cfg L).map fun _ _ h => ⟨rfl, h⟩

theorem Net.Frame.read_counts (cfg : Cfg) : (Net.Frame.read cfg 0).Counts :=
  R.Counts.after fun _ => (Trans.Frame.read_counts cfg).map

theorem ForegroundFrame.read_grows (cfg : Cfg) : (ForegroundFrame.read cfg).Grows fun _ _ => False :=
  R.Grows.after fun _ => (Net.Frame.read_grows cfg _).before (by cases cfg; rename_i b _ _ _; cases b <;> rfl)

end Dash7
