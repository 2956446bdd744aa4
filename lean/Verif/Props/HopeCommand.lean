import Verif.Spec.Lost
import Verif.Props.Hope
import Verif.Props.Offset
import Verif.Props.Spoil

/-!
# C68: commands in which TX states come up
-/

namespace Dash7
open Spec Sample

theorem asked_unlimited (cfg : Cfg) (s : List Bool) : asked cfg 0 s = s := by simp [asked]

theorem not_limit_zero (n : Nat) : ¬ limitReached 0 n := by simp [limitReached]

theorem shut_iff {cfg : Cfg} {code : Nat} {s : List Bool} : HopelessOperand cfg code s ↔ Shut cfg code s := by
  unfold HopelessOperand Shut byteAt
  simp only [Form.value_eq]
  constructor
  · rintro (h | h | h)
    · exact .inr (.inl h)
    · exact .inr (.inr h)
    · exact .inl h
  · rintro (h | h | h)
    · exact .inr (.inr h)
    · exact .inl h
    · exact .inr (.inl h)

/-- Where the reader steps back to the byte boundary and nothing comes twice. -/
def Even (cfg : Cfg) (s : List Bool) : Prop :=
  s.length % 8 = 0 ∨ s.length % 8 = 2 ∧ cfg.variant = .wizzilab ∧ cfg.seekClears = true

theorem Even.stepped {cfg : Cfg} {s : List Bool} (h : Even cfg s) : steppedBack cfg s = wholeBytes s := by
  unfold steppedBack
  split
  · rfl
  · rename_i hc
    rcases h with h | ⟨-, -, h⟩
    · rw [h]; simp
    · exact absurd h hc

theorem wholeBytes_length (s : List Bool) : (wholeBytes s).length = s.length - s.length % 8 := by
  rw [wholeBytes, List.length_drop]

theorem wholeBytes_append {s t : List Bool} (h : 8 ∣ t.length) : wholeBytes (s ++ t) = wholeBytes s ++ t := by
  have : (s ++ t).length % 8 = s.length % 8 := by rw [List.length_append]; omega
  rw [wholeBytes, this, List.drop_append_of_le_length (by omega), wholeBytes]

theorem Even.append {cfg : Cfg} {s t : List Bool} (h : Even cfg s) (ht : 8 ∣ t.length) : Even cfg (s ++ t) := by
  unfold Even at h ⊢
  have : (s ++ t).length % 8 = s.length % 8 := by rw [List.length_append]; omega
  rw [this]
  exact h

theorem operand_ends {cfg : Cfg} {a : Action} {wire : List Bool} (h : Form.operand cfg a wire) :
    8 ≤ wire.length ∧ (a.isTx = false → 8 ∣ wire.length) ∧ (a.isTx = true → 8 ∣ wire.length + 2) ∧
      (a.isTx = true → cfg.variant = .wizzilab) := by
  have hp := (Action.dispatch_post cfg a.opcode wire [] a
    ((Action.dispatch_fits cfg _ _ _ _).2 ⟨(Action.opcode_toNat a).symm, h⟩)).2
  exact ⟨hp.pos, hp.dvd, hp.dvd', hp.variant⟩

theorem Even.step {cfg : Cfg} (hv : cfg.variant = .wizzilab → cfg.seekClears = true) {s more wire : List Bool}
    {a : Action} (h : Even cfg s) (hs : steppedBack cfg s = wire ++ more) (hF : Form.operand cfg a wire) :
    Even cfg more := by
  rw [h.stepped] at hs
  have hl := congrArg List.length hs
  rw [wholeBytes_length, List.length_append] at hl
  obtain ⟨-, h1, h2, h3⟩ := operand_ends hF
  cases ht : a.isTx with
  | false => left; have := h1 ht; omega
  | true => right; have := h2 ht; exact ⟨by omega, h3 ht, hv (h3 ht)⟩

theorem continuing_even {cfg : Cfg} (hv : cfg.variant = .wizzilab → cfg.seekClears = true) {size : Nat}
    {as : List Action} {s left : List Bool} (h : Even cfg s) (hc : continuing cfg 0 size as s left) : Even cfg left := by
  induction as generalizing s with
  | nil => obtain ⟨rfl, -⟩ := hc; exact h
  | cons a as ih =>
    obtain ⟨-, -, more, n, ⟨-, -, wire, hs, hF, -⟩, hc⟩ := hc
    rw [asked_unlimited] at hs
    exact ih (h.step hv hs hF) hc

theorem continuing_append {cfg : Cfg} (hv : cfg.variant = .wizzilab → cfg.seekClears = true) {size size' : Nat}
    {as : List Action} {s left t : List Bool} (ht : 8 ∣ t.length) (h : Even cfg s)
    (hc : continuing cfg 0 size as s left) : continuing cfg 0 size' as (s ++ t) (left ++ t) := by
  induction as generalizing s with
  | nil =>
    obtain ⟨rfl, -, hne⟩ := hc
    exact ⟨(asked_unlimited cfg _).symm, not_limit_zero _, by simp [hne]⟩
  | cons a as ih =>
    obtain ⟨-, hi, more, n, ⟨h8, hop, wire, hs, hF, hn⟩, hc⟩ := hc
    rw [asked_unlimited] at h8 hop hs
    refine ⟨not_limit_zero _, hi, more ++ t, n, ?_, ih (h.step hv hs hF) hc⟩
    rw [asked_unlimited]
    refine ⟨by simp; omega, ?_, wire, ?_, hF, hn⟩
    · rw [List.drop_append_of_le_length (by omega), List.take_append_of_le_length (by simp; omega)]
      exact hop
    · rw [(h.append ht).stepped, wholeBytes_append ht, ← h.stepped, hs, List.append_assoc]

theorem reading_after {cfg : Cfg} {size : Nat} {as bs : List Action} {s left l : List Bool} {n : Nat}
    (hc : continuing cfg 0 size as s left) (hb : reading cfg 0 size false bs left l n) :
    ∃ m, reading cfg 0 size false (as ++ bs) s l m := by
  induction as generalizing s with
  | nil => obtain ⟨rfl, -⟩ := hc; exact ⟨n, hb⟩
  | cons a as ih =>
    obtain ⟨-, hi, more, k, ⟨h8, hop, wire, hs, hF, -⟩, hc⟩ := hc
    obtain ⟨m, hm⟩ := ih hc
    exact ⟨_, not_limit_zero _, rfl, h8, hop, wire, more, m, hs, hF, by rw [hi]; exact hm, rfl⟩

/-- All that was read is counted. -/
theorem reading_counts {cfg : Cfg} {size : Nat} {as : List Action} {stop : Bool} {s : List Bool} {n : Nat}
    (h : reading cfg 0 size stop as s [] n) : s.length ≤ n := by
  induction as generalizing s stop n with
  | nil => obtain ⟨h, -⟩ := h; rw [asked_unlimited] at h; simp [← h]
  | cons a as ih =>
    obtain ⟨-, -, h8, -, wire, more, m, hs, -, hr, hn⟩ := h
    rw [asked_unlimited] at hs h8
    have h1 := ih hr
    have hl := congrArg List.length hs
    rw [List.length_append] at hl
    have h2 : s.length ≤ (steppedBack cfg s).length + 7 := by
      unfold steppedBack
      split
      · rw [wholeBytes_length]; omega
      · rw [List.length_append, wholeBytes_length]; omega
    omega

theorem reading_one {cfg : Cfg} {size : Nat} {a : Action} {bs : List Action} {s more : List Bool} {n : Nat}
    (h8 : 8 ≤ s.length) (h : (Action.dispatch cfg (opAt 2 s)).eval (steppedBack cfg s) = .ok (a, more))
    (hb : reading cfg 0 size a.isIndirectForward bs more [] n) : ∃ m, reading cfg 0 size false (a :: bs) s [] m := by
  obtain ⟨wire, hw, -⟩ := P.eval_ok _ h
  rw [hw] at h
  obtain ⟨hop, hF⟩ := (Action.dispatch_fits cfg _ _ _ _).1 h
  refine ⟨_, not_limit_zero _, rfl, by rw [asked_unlimited]; exact h8, ?_, wire, more, n, by rw [asked_unlimited]; exact hw, hF,
    hb, rfl⟩
  rw [asked_unlimited, hop, Form.value_eq]
  have := Action.opAt_bits (c := s) (s' := []) h8
  rw [List.append_nil] at this
  rw [this]

theorem reading_end (cfg : Cfg) (size : Nat) (stop : Bool) : reading cfg 0 size stop [] [] [] 0 :=
  ⟨(asked_unlimited cfg []).symm, .inr ⟨not_limit_zero _, .inl rfl, by simp [endTest]⟩⟩

theorem reading_nop {cfg : Cfg} {size : Nat} {s : List Bool} (h : s.length = 2) (he : Even cfg s) :
    ∃ m, reading cfg 0 size false [.nop ⟨⟨false, false⟩, ⟨0⟩⟩] (s ++ List.replicate 8 false) [] m := by
  refine reading_one (more := []) (by simp) ?_ (reading_end cfg size _)
  rw [(he.append (by simp)).stepped, wholeBytes_append (by simp)]
  match s, h with
  | [x, y], _ => cases cfg; rfl

/-- The command begun can be ended with one action more, or two. -/
theorem reading_more {cfg : Cfg} (hv : cfg.variant = .wizzilab → cfg.seekClears = true) {left : List Bool} (size : Nat)
    (he : Even cfg left) (hne : left ≠ []) (hr : refuses cfg left .incomplete)
    (hc : ¬ (8 ≤ left.length ∧ HopelessOperand cfg (Form.value ((left.drop 2).take 6)) (wholeBytes left))) :
    ∃ t bs n, 8 ∣ t.length ∧ bs ≠ [] ∧ reading cfg 0 size false bs (left ++ t) [] n := by
  have hr' : left.length < 8 ∧ Err.incomplete = .incomplete ∨ 8 ≤ left.length ∧
      (Action.dispatch cfg (opAt 2 left)).eval (steppedBack cfg left) = .error .incomplete := by
    obtain ⟨data, off, hle, hs, hf⟩ := hr
    obtain ⟨r, hp, hrem, hf⟩ := (Action.fromReader_error hle _).1 hf
    rw [Action.read_error hp.ready, hrem, hs] at hf
    exact hf
  rcases hr' with ⟨h8, -⟩ | ⟨h8, hd⟩
  · have h2 : left.length = 2 := by
      have := List.length_pos_iff.2 hne
      rcases he with h | ⟨h, -⟩ <;> omega
    obtain ⟨m, hm⟩ := reading_nop (size := size) h2 he
    exact ⟨_, _, m, by simp, by simp, hm⟩
  · rw [he.stepped] at hd
    rcases Action.dispatch_hope cfg _ (by rw [wholeBytes_length]; omega) hd with hs | ⟨t, a, ha⟩
    · refine absurd ⟨h8, ?_⟩ hc
      rw [shut_iff, Form.value_eq]
      have := Action.opAt_bits (c := left) (s' := []) h8
      rw [List.append_nil] at this
      rwa [← this]
    · have hop : ∀ u, opAt 2 (left ++ u) = opAt 2 left := by
        intro u
        unfold opAt
        rw [List.drop_append_of_le_length (by omega), List.take_append_of_le_length (by simp; omega)]
      have hw := ha
      rw [show wholeBytes left ++ t = (wholeBytes left ++ t) ++ [] by simp] at hw
      obtain ⟨-, hF⟩ := (Action.dispatch_fits cfg _ _ _ _).1 hw
      obtain ⟨-, h1, h2, h3⟩ := operand_ends hF
      rw [List.length_append, wholeBytes_length] at h1 h2
      cases ht : a.isTx with
      | false =>
        have h1 := h1 ht
        have ht8 : 8 ∣ t.length := by omega
        obtain ⟨m, hm⟩ := reading_one (cfg := cfg) (size := size) (s := left ++ t) (by simp; omega)
          (by rw [hop, (he.append ht8).stepped, wholeBytes_append ht8]; exact ha) (reading_end cfg size _)
        exact ⟨t, _, m, ht8, by simp, hm⟩
      | true =>
        have h2 := h2 ht
        have hv := h3 ht
        have hi : a.isIndirectForward = false := by cases a <;> first | rfl | cases ht
        obtain ⟨m, hm⟩ := reading_nop (cfg := cfg) (size := size) (s := [false, false]) rfl
          (.inr ⟨rfl, hv, by simp [*]⟩)
        have ht8 : 8 ∣ (t ++ ([false, false] ++ List.replicate 8 false)).length := by simp; omega
        obtain ⟨m, hm⟩ := reading_one (cfg := cfg) (size := size) (a := a)
          (s := left ++ (t ++ ([false, false] ++ List.replicate 8 false))) (by simp; omega)
          (by rw [hop, (he.append ht8).stepped, wholeBytes_append ht8, ← List.append_assoc]
              exact P.eval_extend _ ha _) (by rw [hi]; exact hm)
        exact ⟨_, _, m, ht8, by simp, hm⟩

theorem continuing_left {cfg : Cfg} {size : Nat} {as : List Action} {s left : List Bool}
    (hc : continuing cfg 0 size as s left) : left ≠ [] := by
  induction as generalizing s with
  | nil => exact hc.2.2
  | cons a as ih => obtain ⟨-, -, more, -, -, hc⟩ := hc; exact ih hc

theorem even_bytes (cfg : Cfg) (data : List U8) : Even cfg (Form.ofBytes data) := by
  left; rw [Form.ofBytes_eq, bytesBits_length]; omega

theorem reading_size {cfg : Cfg} {size size' : Nat} {as : List Action} {stop : Bool} {s left : List Bool} {n : Nat}
    (h : reading cfg 0 size stop as s left n) : reading cfg 0 size' stop as s left n := by
  induction as generalizing s stop n with
  | nil =>
    obtain ⟨h, hx⟩ := h
    refine ⟨h, .inr ?_⟩
    rcases hx with ⟨hx, -⟩ | ⟨-, hx⟩
    · exact absurd hx (not_limit_zero _)
    · exact ⟨not_limit_zero _, hx⟩
  | cons a as ih =>
    obtain ⟨-, hi, h8, hop, wire, more, m, hs, hF, hr, hn⟩ := h
    exact ⟨not_limit_zero _, hi, h8, hop, wire, more, m, hs, hF, ih hr, hn⟩

/-- **C68** (partial: where TX states come up, seeking the reader must drop the bits kept back) If a command is
`Incomplete`, some actions could be read, and then one more is `Incomplete`; unless that one is beyond help, some more
input gives a command of these actions and more. -/
theorem C68_command_continues_partial (cfg : Cfg) (hv : cfg.variant = .wizzilab → cfg.seekClears = true)
    (data : List U8) (h : Command.tryFrom cfg data = .error .incomplete) (hl : ¬ LostCommand cfg data) :
    ∃ as left, continuing cfg 0 data.length as (Form.ofBytes data) left ∧ refuses cfg left .incomplete ∧
      ∃ more bs, bs ≠ [] ∧ Command.tryFrom cfg (data ++ more) = .ok ⟨as ++ bs⟩ := by
  rcases C50_try_from_only cfg data _ h with ⟨as, left, hc, hr⟩ | ⟨h, -⟩
  · have he := continuing_even hv (even_bytes cfg data) hc
    refine ⟨as, left, hc, hr, ?_⟩
    obtain ⟨t, bs, n, ht, hbs, hread⟩ := reading_more hv 0 he (continuing_left hc) hr
      fun hx => hl ⟨as, left, hc, hx⟩
    refine ⟨packBits t, bs, hbs, ?_⟩
    have hb : Form.ofBytes (data ++ packBits t) = Form.ofBytes data ++ t := by
      rw [Form.ofBytes_eq, Form.ofBytes_eq, bytesBits_append, bytesBits_packBits t ht]
    obtain ⟨m, hm⟩ := reading_after (continuing_append hv ht (even_bytes cfg data) hc)
      (reading_size (size' := (data ++ packBits t).length) hread)
    rw [C58_command_try]
    refine ⟨[], m, by rw [hb]; exact hm, ?_⟩
    have := reading_counts hm
    rw [← hb, Form.ofBytes_eq, bytesBits_length] at this
    exact this
  · cases h

/-- **C68** (the same assumption) Nothing makes the commands left out a command: their bytes are refused whatever
follows. -/
theorem C68_command_lost_partial (cfg : Cfg) (hv : cfg.variant = .wizzilab → cfg.seekClears = true)
    (data more : List U8) (h : LostCommand cfg data) : ∃ e, Command.tryFrom cfg (data ++ more) = .error e := by
  obtain ⟨as, left, hc, h8, hx⟩ := h
  have he := continuing_even hv (even_bytes cfg data) hc
  have ht : 8 ∣ (Form.ofBytes more).length := by rw [Form.ofBytes_eq, bytesBits_length]; omega
  have hb : Form.ofBytes (data ++ more) = Form.ofBytes data ++ Form.ofBytes more := by
    simp only [Form.ofBytes_eq, bytesBits_append]
  have hc' := continuing_append (size' := (data ++ more).length) hv ht (even_bytes cfg data) hc
  rw [← hb] at hc'
  have hop : opAt 2 (left ++ Form.ofBytes more) = opAt 2 left := by
    unfold opAt
    rw [List.drop_append_of_le_length (by omega), List.take_append_of_le_length (by simp; omega)]
  cases hd : (Action.dispatch cfg (opAt 2 left)).eval (wholeBytes left ++ Form.ofBytes more) with
  | ok x =>
    exfalso
    rw [shut_iff, Form.value_eq] at hx
    have := Action.opAt_bits (c := left) (s' := []) h8
    rw [List.append_nil] at this
    rw [← this] at hx
    exact Action.dispatch_lost (by rw [wholeBytes_length]; omega) (by rw [wholeBytes_length]; omega) hx _ _ _ hd
  | error e =>
    refine ⟨e, (C50_spoils cfg (data ++ more) 0 (by omega) as _ e (by rw [List.drop_zero]; exact hc') ?_).2 rfl⟩
    obtain ⟨d, off, hle, hs⟩ := some_input (left ++ Form.ofBytes more)
    refine ⟨d, off, hle, hs, (Action.fromReader_error hle e).2 ?_⟩
    obtain ⟨r0, hp, -, hrem, -, -⟩ := (startAt_part d off).1 hle
    refine ⟨r0, hp, by rw [Form.ofBytes_eq, hrem], ?_⟩
    rw [Action.read_error hp.ready, hrem, ← Form.ofBytes_eq, hs, (he.append ht).stepped, wholeBytes_append ht, hop]
    exact .inr ⟨by simp; omega, hd⟩

/-- **C68** (partial: the same assumption) Asked for more input, more input makes a command exactly if the bytes are not
beyond help. -/
theorem C68_command_exact_partial (cfg : Cfg) (hv : cfg.variant = .wizzilab → cfg.seekClears = true)
    (data : List U8) (h : Command.tryFrom cfg data = .error .incomplete) :
    (∃ more c, Command.tryFrom cfg (data ++ more) = .ok c) ↔ ¬ LostCommand cfg data := by
  constructor
  · rintro ⟨more, c, hc⟩ hl
    obtain ⟨e, he⟩ := C68_command_lost_partial cfg hv data more hl
    rw [he] at hc
    cases hc
  · intro hl
    obtain ⟨as, left, -, -, more, bs, -, hm⟩ := C68_command_continues_partial cfg hv data h hl
    exact ⟨more, _, hm⟩

/-- A TX state cut short, behind a tag: the state is completed, and a no-operation follows. -/
example : Command.tryFrom wizzilab [0x74, 0x07, 0x66, 0x03, 0x5C, 0, 0] = .error .incomplete ∧
    (Command.tryFrom wizzilab ([0x74, 0x07, 0x66, 0x03, 0x5C, 0, 0] ++ List.replicate 15 0)).isOk = true := by
  decide +kernel

/-- A TX state is read completely; by itself it is no command, its two bits left over are taken for the beginning of one
more action. -/
example : Command.tryFrom wizzilab [0x66, 0x00, 0x40, 0x00] = .error .incomplete ∧
    Command.tryFrom wizzilab [0x66, 0x00, 0x40, 0x00, 0x00] =
      .ok ⟨[.txStatus ⟨⟨0⟩, ⟨0x10, .other []⟩⟩, .nop ⟨⟨false, false⟩, ⟨0⟩⟩]⟩ := by decide +kernel

/-- The state of a LoRaWAN interface has begun, behind a tag; nothing helps. -/
example : Command.tryFrom spec [0x74, 0x07, 0x62, 0x02] = .error .incomplete ∧
    LostCommand spec [0x74, 0x07, 0x62, 0x02] := by
  refine ⟨by decide +kernel, [.requestTag ⟨false, ⟨52⟩, 7⟩], Form.ofBytes [0x62, 0x02], ?_, by decide, .inr (.inl ?_)⟩
  · refine ⟨not_limit_zero _, rfl, Form.ofBytes [0x62, 0x02], _, ⟨by decide, by decide, Form.ofBytes [0x74, 0x07], by decide,
      ((Action.dispatch_fits spec ⟨52⟩ _ _ []).1 rfl).2, rfl⟩, by decide, not_limit_zero _, by decide⟩
  · decide

#print axioms C68_command_continues_partial
#print axioms C68_command_lost_partial
#print axioms C68_command_exact_partial

end Dash7
