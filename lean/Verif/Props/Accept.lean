import Verif.Lemmas.Accept6
import Verif.Props.Ends

/-!
# C54, C55: what the decoders accept

`Verif.Spec.Accept` is a grammar: for every value, the strings of bits that stand for it.
-/

namespace Dash7
open Sample

/-! ## C54 -/

/-- **C54** `Action::from_bytes` gives the action `a` exactly when the input begins with a form of `a`. -/
theorem C54_from_bytes (cfg : Cfg) (data : List U8) (a : Action) :
    (∃ rest, Action.fromBytes cfg (data, 0) = .ok (rest, a)) ↔
      ∃ wire rest, Form.ofBytes data = wire ++ rest ∧ Form.action cfg a wire := by
  rw [Form.ofBytes_eq]
  constructor
  · rintro ⟨rest, h⟩
    cases hd : Action.decode cfg (bytesBits data) with
    | error e => rw [(Action.fromBytes_err hd).1] at h; cases h
    | ok x =>
      obtain ⟨a', s'⟩ := x
      obtain ⟨r', hr, -⟩ := Action.read_aligned_ok (cfg := cfg) (Rd.new_aligned data)
        (by rw [Rd.new_rem]; exact hd)
      have : a' = a := by
        unfold Action.fromBytes Dash7.fromBytes at h
        dsimp only at h
        rw [startAt_zero, hr] at h
        dsimp only at h
        split at h
        · cases h; rfl
        · cases h
      subst this
      obtain ⟨c, hc, -⟩ := Action.decode_ok hd
      exact ⟨c, s', hc, (Action.decode_iff cfg a' c s').1 (hc ▸ hd)⟩
  · rintro ⟨c, s', hc, hf⟩
    have hd := (Action.decode_iff cfg a c s').2 hf
    rw [← hc] at hd
    obtain ⟨r', hr, -⟩ := Action.read_aligned_ok (cfg := cfg) (Rd.new_aligned data)
      (by rw [Rd.new_rem]; exact hd)
    obtain ⟨rest, hrest⟩ := padRest_total data (off := 0) (by decide) r'.bitsRead
    refine ⟨rest, ?_⟩
    unfold Action.fromBytes Dash7.fromBytes
    dsimp only
    rw [startAt_zero, hr]
    dsimp only
    rw [hrest]

/-- **C54** `Action::try_from` gives the action `a` exactly when the input is a form of `a`, followed by at
most one byte that nobody looks at, or, behind a TX status, by the bits up to the end of the byte. -/
theorem C54_try_from (cfg : Cfg) (data : List U8) (a : Action) :
    Action.tryFrom cfg data = .ok a ↔
      ∃ wire junk, Form.ofBytes data = wire ++ junk ∧ Form.action cfg a wire ∧
        junk.length ≤ if a.isTx then 2 else 8 := by
  rw [Form.ofBytes_eq]
  constructor
  · intro h
    obtain ⟨s', hd⟩ := Action.tryFrom_decode h
    obtain ⟨c, hc, -⟩ := Action.decode_ok hd
    refine ⟨c, s', hc, (Action.decode_iff cfg a c s').1 (hc ▸ hd), ?_⟩
    obtain ⟨p, q, t, rfl, rfl, hp, -, ht⟩ := Action.decode_span hd
    rw [Action.tryFrom_span hp ht] at h
    rw [List.length_append, ht, bytesBits_length]
    cases hx : a.isTx with
    | true =>
      rw [hx] at h
      simp only [if_true] at h ⊢
      by_cases hq : q.length ≤ 0
      · omega
      · rw [if_neg hq] at h; cases h
    | false =>
      rw [hx] at h
      simp only [Bool.false_eq_true, if_false] at h ⊢
      by_cases hq : q.length ≤ 1
      · omega
      · rw [if_neg hq] at h; cases h
  · rintro ⟨c, s', hc, hf, hl⟩
    have hd := (Action.decode_iff cfg a c s').2 hf
    rw [← hc] at hd
    obtain ⟨p, q, t, rfl, rfl, hp, -, ht⟩ := Action.decode_span hd
    rw [Action.tryFrom_span hp ht]
    rw [List.length_append, ht, bytesBits_length] at hl
    cases hx : a.isTx with
    | true =>
      rw [hx] at hl
      simp only [if_true] at hl ⊢
      rw [if_pos (by omega)]
    | false =>
      rw [hx] at hl
      simp only [Bool.false_eq_true, if_false] at hl ⊢
      rw [if_pos (by omega)]

/-- **C54** No string of bits is a form of two actions, or begins with forms of two actions. -/
theorem C54_unambiguous (cfg : Cfg) (a b : Action) (v w x y : List Bool)
    (ha : Form.action cfg a v) (hb : Form.action cfg b w) (h : v ++ x = w ++ y) : a = b ∧ v = w := by
  have h1 := (Action.decode_iff cfg a v x).2 ha
  have h2 := (Action.decode_iff cfg b w y).2 hb
  rw [h, h2] at h1
  simp only [Except.ok.injEq, Prod.mk.injEq] at h1
  obtain ⟨rfl, rfl⟩ := h1
  exact ⟨rfl, List.append_cancel_right h⟩

/-- A form, put together by hand: flag, reserved bit, opcode, id. -/
theorem tag_form (cfg : Cfg) : Form.action cfg tag (Form.ofBytes [180, 7]) :=
  ⟨[true], _, rfl, rfl, [false], _, rfl, rfl, [true, true, false, true, false, false], _, rfl,
    ⟨rfl, rfl, rfl⟩, [false, false, false, false, false, true, true, true], [], rfl, ⟨rfl, rfl⟩, rfl⟩

/-- The reserved bit may be set, and there may be a byte too much. -/
theorem tag_form' (cfg : Cfg) : Form.action cfg tag (Form.ofBytes [0xF4, 7]) :=
  ⟨[true], _, rfl, rfl, [true], _, rfl, rfl, [true, true, false, true, false, false], _, rfl,
    ⟨rfl, rfl, rfl⟩, [false, false, false, false, false, true, true, true], [], rfl, ⟨rfl, rfl⟩, rfl⟩

example (cfg : Cfg) (junk : U8) : Action.tryFrom cfg [0xF4, 7, junk] = .ok tag :=
  (C54_try_from cfg _ _).2 ⟨_, Form.ofBytes [junk], rfl, tag_form' cfg, Nat.le_refl 8⟩

/-- A request for root permission. -/
def Sample.permission : Action :=
  .permissionRequest ⟨⟨false, true⟩, ⟨10⟩, .root, .dash7 #v[1, 2, 3, 4, 5, 6, 7, 8]⟩

/-- The decoder takes level 1 and nothing above it. -/
example : Action.tryFrom spec [0x4A, 1, 0x42, 1, 2, 3, 4, 5, 6, 7, 8] = .ok Sample.permission ∧
    ∀ level ∈ [2, 3, 0x42, 0xFF],
      ¬ ∃ a, Action.tryFrom spec [0x4A, level, 0x42, 1, 2, 3, 4, 5, 6, 7, 8] = .ok a := by
  refine ⟨by decide +kernel, ?_⟩
  intro level hl
  simp only [List.mem_cons, List.not_mem_nil, or_false] at hl
  rcases hl with rfl | rfl | rfl | rfl
  all_goals
    rintro ⟨a, ha⟩
    refine absurd (ha.symm.trans (b := Action.tryFrom spec _) (c := .error (.fault .parse)) ?_) (by simp)
    decide +kernel

/-! ## C55 -/

theorem reads_iff (cfg : Cfg) (as : List Action) (c s' : List Bool) (ht : ∀ a ∈ as, a.isTx = false) :
    Reads cfg as (c ++ s') s' ↔ Form.actions cfg as c := by
  induction as generalizing c with
  | nil =>
    show _ ↔ c = []
    constructor
    · intro h
      generalize hs : c ++ s' = s at h
      cases h
      simpa using hs
    · rintro rfl
      exact .nil _
  | cons a as ih =>
    have ih := fun c => ih c (fun x hx => ht x (by simp [hx]))
    show _ ↔ ∃ x y, c = x ++ y ∧ Form.action cfg a x ∧ Form.actions cfg as y
    constructor
    · intro h
      generalize hs : c ++ s' = s at h
      cases h with
      | cons hd hta hR =>
        obtain ⟨x, hx, -⟩ := Action.decode_ok hd
        obtain ⟨y, rfl, -⟩ := hR.length
        have hxd := hd
        rw [hx] at hxd
        rw [hx, ← List.append_assoc] at hs
        have := List.append_cancel_right hs
        subst this
        exact ⟨x, y, rfl, (Action.decode_iff _ _ _ _).1 hxd, (ih y).1 hR⟩
    · rintro ⟨x, y, rfl, hx, hy⟩
      refine .cons ?_ (ht a (by simp)) ((ih y).2 hy)
      rw [List.append_assoc]
      exact (Action.decode_iff _ _ _ _).2 hx

/-- **C55** `Command::from_bytes` gives a command without TX status exactly when the input is made of forms
of its actions. Only behind an indirect forward, which is always the last action, may there be more, and
all but the first `Spec.dropped` bytes of it is the rest. -/
theorem C55_from_bytes_partial (cfg : Cfg) (data : List U8) (c : Command) (rest : Rest)
    (ht : ∀ a ∈ c.actions, a.isTx = false) :
    Command.fromBytes cfg (data, 0) = .ok (rest, c) ↔
      ∃ wire more, data = wire ++ more ∧ Form.actions cfg c.actions (Form.ofBytes wire) ∧
        Spec.forwardLast c.actions ∧ (more = [] ∨ Spec.endsWithForward c.actions) ∧
        rest = (more.drop (Spec.dropped cfg c.actions.length), 0) := by
  constructor
  · intro h
    obtain ⟨p, q, rfl, -, hR, hi, hq, hr⟩ := Command.fromBytes_conv h ht
    rw [lost_eq] at hr
    refine ⟨p, q, rfl, ?_, hi, hq.imp_right (Command.endsIndirect_iff _).1, hr⟩
    rw [Form.ofBytes_eq]
    exact (reads_iff cfg _ _ [] ht).1 (hR [])
  · rintro ⟨p, q, rfl, hf, hi, hq, rfl⟩
    rw [Form.ofBytes_eq] at hf
    have hR := (reads_iff cfg _ _ (bytesBits q) ht).2 hf
    rw [← bytesBits_append] at hR
    have hq' : bytesBits q = [] ∨ Command.endsIndirect c.actions = true := by
      rcases hq with rfl | hq
      · exact .inl rfl
      · exact .inr ((Command.endsIndirect_iff _).2 hq)
    obtain ⟨p', q', hpq, hqq, -, hfb⟩ := Command.fromBytes_ok hR hi hq'
    have := bytesBits_inj hqq
    subst this
    rw [hfb, lost_eq]

/-- **C55** `Command::try_from` gives a command without TX status exactly when the input is made of forms of
its actions, followed, behind an indirect forward only, by no more bytes than get lost there. -/
theorem C55_try_from_partial (cfg : Cfg) (data : List U8) (c : Command)
    (ht : ∀ a ∈ c.actions, a.isTx = false) :
    Command.tryFrom cfg data = .ok c ↔
      ∃ wire junk, data = wire ++ junk ∧ Form.actions cfg c.actions (Form.ofBytes wire) ∧
        Spec.forwardLast c.actions ∧
        (junk = [] ∨ Spec.endsWithForward c.actions ∧ junk.length ≤ Spec.dropped cfg c.actions.length) := by
  constructor
  · intro h
    unfold Command.tryFrom at h
    split at h
    · cases h
    · rename_i rest c' hf
      split at h
      · cases h
      · rename_i hne
        cases h
        obtain ⟨p, q, rfl, hfm, hi, hq, rfl⟩ := (C55_from_bytes_partial cfg data c rest ht).1 hf
        refine ⟨p, q, rfl, hfm, hi, ?_⟩
        rcases hq with rfl | hq
        · exact .inl rfl
        · refine .inr ⟨hq, ?_⟩
          simpa using hne
  · rintro ⟨p, q, rfl, hfm, hi, hq⟩
    have := (C55_from_bytes_partial cfg (p ++ q) c _ ht).2
      ⟨p, q, rfl, hfm, hi, hq.imp_right (·.1), rfl⟩
    unfold Command.tryFrom
    rw [this]
    dsimp only
    rw [if_neg]
    rcases hq with rfl | ⟨-, hq⟩
    · simp
    · simpa using hq

/-- **C55** Outside the wizzilab build there is no TX status to exclude. -/
theorem C55_try_from_no_tx (cfg : Cfg) (hv : cfg.variant ≠ .wizzilab) (data : List U8) (c : Command) :
    Command.tryFrom cfg data = .ok c ↔
      ∃ wire junk, data = wire ++ junk ∧ Form.actions cfg c.actions (Form.ofBytes wire) ∧
        Spec.forwardLast c.actions ∧
        (junk = [] ∨ Spec.endsWithForward c.actions ∧ junk.length ≤ Spec.dropped cfg c.actions.length) := by
  have key : (∀ a ∈ c.actions, a.isTx = false) ∨ ∃ a ∈ c.actions, a.isTx = true := by
    generalize c.actions = as
    induction as with
    | nil => exact .inl (by simp)
    | cons a as ih =>
      cases hx : a.isTx with
      | true => exact .inr ⟨a, by simp, hx⟩
      | false =>
        rcases ih with h | ⟨b, hb, hbx⟩
        · exact .inl (by simpa using ⟨hx, h⟩)
        · exact .inr ⟨b, by simp [hb], hbx⟩
  rcases key with h | ⟨a, ha, hx⟩
  · exact C55_try_from_partial cfg data c h
  · constructor
    · intro h
      exfalso
      unfold Command.tryFrom at h
      split at h
      · cases h
      · rename_i rest c' hf
        split at h
        · cases h
        · cases h
          obtain ⟨r', hr, -⟩ := Command.fromBytes_read hf
          obtain ⟨ps, hps, -, -, hd, -⟩ := Command.loop_ok (Rd.new_fresh data).toOK (Command.read_ok hr)
          rw [hps, List.nil_append] at ha
          obtain ⟨p, hp, rfl⟩ := List.mem_map.1 ha
          exact hv ((hd p hp).variant hx)
    · rintro ⟨p, q, -, hf, -⟩
      exfalso
      generalize Form.ofBytes p = w at hf
      generalize c.actions = as at ha hf
      induction as generalizing w with
      | nil => cases ha
      | cons b bs ih =>
        obtain ⟨x, y, -, hb, hbs⟩ := hf
        rcases List.mem_cons.1 ha with rfl | ha
        · have := (Action.decode_iff cfg a x []).2 hb
          obtain ⟨_, -, hn, -⟩ := Action.decode_ok this
          exact hv (hn.variant hx)
        · exact ih y ha hbs

/-- Two actions in a row. -/
example (cfg : Cfg) : Command.tryFrom cfg [180, 7, 0xF4, 7] = .ok ⟨[tag, tag]⟩ := by
  refine (C55_try_from_partial cfg _ ⟨[tag, tag]⟩ (by decide)).2
    ⟨[180, 7, 0xF4, 7], [], rfl, ?_, by decide, .inl rfl⟩
  exact ⟨Form.ofBytes [180, 7], _, rfl, tag_form cfg, Form.ofBytes [0xF4, 7], [], rfl, tag_form' cfg, rfl⟩

#print axioms C54_from_bytes
#print axioms C54_try_from
#print axioms C54_unambiguous
#print axioms C55_from_bytes_partial
#print axioms C55_try_from_partial
#print axioms C55_try_from_no_tx

end Dash7
