import Verif.Spec.LostBits
import Verif.Lemmas.HopeFrame
import Verif.Props.HopeCommand
import Verif.Props.ChecksumAll

/-!
# Completing commands that need not begin at a byte boundary
-/

namespace Dash7
open Spec

theorem asked_append (cfg : Cfg) (limit : Nat) {s t : List Bool} (h : 8 ∣ t.length) :
    asked cfg limit (s ++ t) = asked cfg limit s ++ t := by
  unfold asked
  split
  · exact wholeBytes_append h
  · rfl

theorem wholeBytes_idem (s : List Bool) : wholeBytes (wholeBytes s) = wholeBytes s := by
  have : (wholeBytes s).length % 8 = 0 := by rw [wholeBytes_length]; omega
  rw [wholeBytes, this, List.drop_zero]

theorem asked_idem (cfg : Cfg) (limit : Nat) (s : List Bool) :
    asked cfg limit (asked cfg limit s) = asked cfg limit s := by
  unfold asked
  split
  · exact wholeBytes_idem s
  · rfl

theorem bytePosition_append {size : Nat} {s t : List Bool} (h : 8 ∣ t.length) :
    bytePosition (size + t.length / 8) (s ++ t) = bytePosition size s := by
  unfold bytePosition
  rw [List.length_append]
  omega

theorem endTest_append (cfg : Cfg) {s t : List Bool} (hs : s ≠ []) (h : 8 ∣ t.length) :
    endTest cfg (s ++ t) = endTest cfg s := by
  have h1 : (s ++ t).length % 8 = s.length % 8 := by rw [List.length_append]; omega
  unfold endTest
  rw [h1]
  simp [hs]

theorem stepped_clear {cfg : Cfg} (hc : cfg.seekClears = true) (s : List Bool) : steppedBack cfg s = wholeBytes s := by
  rw [steppedBack, if_pos hc]

theorem code_front {s t : List Bool} (h : 8 ≤ s.length) : ((s ++ t).drop 2).take 6 = (s.drop 2).take 6 := by
  rw [List.drop_append_of_le_length (by omega), List.take_append_of_le_length (by rw [List.length_drop]; omega)]

/-- What is read does not change with what is appended. -/
theorem continuing_longer {cfg : Cfg} (hc : cfg.seekClears = true) {limit size : Nat} {as : List Action}
    {s left t : List Bool} (ht : 8 ∣ t.length) (h : continuing cfg limit size as s left) :
    continuing cfg limit (size + t.length / 8) as (s ++ t) (left ++ t) := by
  induction as generalizing s with
  | nil =>
    obtain ⟨rfl, hl, hne⟩ := h
    refine ⟨(asked_append cfg limit ht).symm, ?_, by simp [hne]⟩
    rw [bytePosition_append ht]
    exact hl
  | cons a as ih =>
    obtain ⟨hl, hi, more, n, ⟨h8, hop, wire, hs, hF, hn⟩, h⟩ := h
    refine ⟨?_, hi, more ++ t, n, ?_, ih h⟩
    · rw [asked_append cfg limit ht, bytePosition_append ht]
      exact hl
    · rw [asked_append cfg limit ht]
      refine ⟨by rw [List.length_append]; omega, by rw [code_front h8]; exact hop, wire, ?_, hF, hn⟩
      rw [stepped_clear hc] at hs ⊢
      rw [wholeBytes_append ht, hs, List.append_assoc]

/-- At most two bits are in front of the byte boundary. -/
theorem continuing_short {cfg : Cfg} (hc : cfg.seekClears = true) {limit size : Nat} {as : List Action}
    {s left : List Bool} (hs : s.length % 8 ≤ 2) (h : continuing cfg limit size as s left) : left.length % 8 ≤ 2 := by
  have ask : ∀ s : List Bool, s.length % 8 ≤ 2 → (asked cfg limit s).length % 8 ≤ 2 := by
    intro s hs
    unfold asked
    split
    · rw [wholeBytes_length]; omega
    · exact hs
  induction as generalizing s with
  | nil => obtain ⟨rfl, -⟩ := h; exact ask s hs
  | cons a as ih =>
    obtain ⟨-, -, more, n, ⟨-, -, wire, hw, hF, -⟩, h⟩ := h
    refine ih ?_ h
    rw [stepped_clear hc] at hw
    have hl := congrArg List.length hw
    rw [wholeBytes_length, List.length_append] at hl
    obtain ⟨-, h1, h2, -⟩ := operand_ends hF
    cases ht : a.isTx with
    | false => have := h1 ht; omega
    | true => have := h2 ht; omega

/-- It can be told what to append to `s`, so that a command is read up to the end of it, whatever comes behind. -/
def Closes (cfg : Cfg) (limit size : Nat) (stop : Bool) (s : List Bool) : Prop :=
  ∃ t bs A d, 8 ∣ t.length ∧ ∀ u : List Bool, 8 ∣ u.length →
    reading cfg limit (size + (t ++ u).length / 8) stop bs (s ++ (t ++ u)) u (A + if u = [] then 0 else d)

namespace Closes

variable {cfg : Cfg} {limit size : Nat} {stop : Bool} {s : List Bool}

theorem reading_asked {size : Nat} {bs : List Action} {left : List Bool} {n : Nat}
    (h : reading cfg limit size stop bs (asked cfg limit s) left n) : reading cfg limit size stop bs s left n := by
  cases bs with
  | nil => unfold reading at h ⊢; rw [asked_idem] at h; exact h
  | cons b bs => unfold reading at h ⊢; rw [asked_idem] at h; exact h

theorem of_asked (h : Closes cfg limit size stop (asked cfg limit s)) : Closes cfg limit size stop s := by
  obtain ⟨t, bs, A, d, ht, h⟩ := h
  refine ⟨t, bs, A, d, ht, fun u hu => reading_asked ?_⟩
  rw [asked_append cfg limit (by rw [List.length_append]; omega)]
  exact h u hu

theorem at_limit (hc : cfg.seekClears = true) (hs : s.length < 8) (hl : limitReached limit size) :
    Closes cfg limit size stop s := by
  refine ⟨[], [], 0, 0, by simp, fun u hu => ?_⟩
  have ha : asked cfg limit (s ++ ([] ++ u)) = u := by
    rw [List.nil_append, asked_append cfg limit hu, asked, if_pos ⟨hl.1, hc⟩, wholeBytes]
    rw [show s.length % 8 = s.length by omega, List.drop_length, List.nil_append]
  refine ⟨ha.symm, .inl ⟨?_, by simp⟩⟩
  have := bytePosition_append (size := size) (s := []) (t := u) hu
  rw [List.nil_append] at this
  rw [List.nil_append, this]
  exact hl

theorem stopped (cfg : Cfg) (limit size : Nat) : Closes cfg limit size true [] := by
  by_cases hl : limitReached limit size
  · refine ⟨[], [], 0, 0, by simp, fun u hu => ?_⟩
    have ha : asked cfg limit u = u := by
      have := asked_append cfg limit (s := []) hu
      rw [List.nil_append] at this
      rw [this]
      unfold asked wholeBytes; simp
    have := bytePosition_append (size := size) (s := []) (t := u) hu
    rw [List.nil_append] at this
    exact ⟨by simpa using ha.symm, .inl ⟨by rw [List.nil_append, this]; exact hl, by simp⟩⟩
  · refine ⟨[], [], 0, if cfg.endCounts then 8 else 0, by simp, fun u hu => ?_⟩
    have ha : asked cfg limit u = u := by
      have := asked_append cfg limit (s := []) hu
      rw [List.nil_append] at this
      rw [this]
      unfold asked wholeBytes; simp
    have := bytePosition_append (size := size) (s := []) (t := u) hu
    rw [List.nil_append] at this
    refine ⟨by simpa using ha.symm, .inr ⟨by rw [List.nil_append, this]; exact hl, .inr rfl, ?_⟩⟩
    have h0 : u.length % 8 = 0 := by omega
    unfold endTest
    by_cases hu0 : u = [] <;> cases cfg.endCounts <;> simp [hu0, h0]

/-- One action more. -/
theorem step (hc : cfg.seekClears = true) (ha : asked cfg limit s = s) (hl : ¬ limitReached limit (bytePosition size s))
    {t wire more : List Bool} {a : Action} (ht : 8 ∣ t.length) (h8 : 8 ≤ (s ++ t).length)
    (hop : Form.value (((s ++ t).drop 2).take 6) = opcodeOf a) (hw : wholeBytes s ++ t = wire ++ more)
    (hF : Form.operand cfg a wire) (h : Closes cfg limit (size + t.length / 8) a.isIndirectForward more) :
    Closes cfg limit size false s := by
  obtain ⟨t', bs, A, d, ht', h⟩ := h
  refine ⟨t ++ t', a :: bs, endTest cfg (s ++ t) + 8 + wire.length + A, d, by rw [List.length_append]; omega,
    fun u hu => ?_⟩
  have hx : 8 ∣ (t' ++ u).length := by rw [List.length_append]; omega
  have hxx : 8 ∣ (t ++ (t' ++ u)).length := by rw [List.length_append]; omega
  have hask : asked cfg limit (s ++ (t ++ t' ++ u)) = s ++ (t ++ (t' ++ u)) := by
    rw [List.append_assoc, asked_append cfg limit hxx, ha]
  unfold reading
  dsimp only
  rw [hask]
  refine ⟨?_, rfl, ?_, ?_, wire, more ++ (t' ++ u), A + (if u = [] then 0 else d), ?_, hF, ?_, ?_⟩
  · rw [List.append_assoc, bytePosition_append hxx]; exact hl
  · simp only [List.length_append] at h8 ⊢; omega
  · rw [← List.append_assoc, code_front h8]; exact hop
  · rw [stepped_clear hc, wholeBytes_append hxx, ← List.append_assoc, hw, List.append_assoc]
  · have hsz : size + (t ++ t' ++ u).length / 8 = size + t.length / 8 + (t' ++ u).length / 8 := by
      simp only [List.length_append] at hx ⊢; omega
    rw [hsz]
    exact h u hu
  · have : s ++ t ≠ [] := by intro h0; rw [h0] at h8; simp at h8
    rw [← List.append_assoc, endTest_append cfg this hx]
    omega

/-- An indirect forward, wherever the bits of its code are looked for. -/
theorem forward_at (cfg : Cfg) {s : List Bool} (hs : s.length ≤ 2) : ∃ t a, 8 ∣ t.length ∧ 8 ≤ t.length ∧
    Form.value (((s ++ t).drop 2).take 6) = opcodeOf a ∧ Form.operand cfg a t ∧ a.isIndirectForward = true := by
  have key : ∀ {t : List Bool} {a : Action}, 8 ∣ t.length → 8 ≤ t.length →
      (Action.dispatch cfg (opAt 2 (s ++ t))).eval t = .ok (a, []) → a.isIndirectForward = true →
      ∃ t a, 8 ∣ t.length ∧ 8 ≤ t.length ∧ Form.value (((s ++ t).drop 2).take 6) = opcodeOf a ∧
        Form.operand cfg a t ∧ a.isIndirectForward = true := by
    intro t a ht h8 hd hi
    have h8' : 8 ≤ (s ++ t).length := by rw [List.length_append]; omega
    obtain ⟨hop, hF⟩ := (Action.dispatch_fits cfg _ _ t []).1 (by rw [List.append_nil]; exact hd)
    refine ⟨t, a, ht, h8, ?_, hF, hi⟩
    rw [hop, Form.value_eq]
    have := Action.opAt_bits (c := s ++ t) (s' := []) h8'
    rw [List.append_nil] at this
    rw [this]
  match s, hs with
  | [], _ =>
    exact key (t := bytesBits [0x33]) (a := .indirectForward ⟨⟨false, false⟩, ⟨51⟩, none⟩) (by decide) (by decide)
      (by rcases cfg with ⟨v, a, b, c, d⟩; cases v <;> rfl) rfl
  | [x], _ =>
    exact key (t := bytesBits [0x66]) (a := .indirectForward ⟨⟨false, true⟩, ⟨38⟩, none⟩) (by decide) (by decide)
      (by rcases cfg with ⟨v, a, b, c, d⟩; cases v <;> rfl) rfl
  | [x, y], _ =>
    exact key (t := bytesBits [0xCC, 0]) (a := .indirectForward ⟨⟨true, true⟩, ⟨12⟩, some .host⟩) (by decide) (by decide)
      (by rcases cfg with ⟨v, a, b, c, d⟩; cases v <;> rfl) rfl
  | _ :: _ :: _ :: _, h => simp at h

theorem short (hc : cfg.seekClears = true) (hs : s.length ≤ 2) : Closes cfg limit size false s := by
  by_cases hl : limitReached limit size
  · exact at_limit hc (by omega) hl
  · refine of_asked ?_
    have hs' : (asked cfg limit s).length ≤ 2 := by
      unfold asked
      split
      · rw [wholeBytes_length]; omega
      · exact hs
    obtain ⟨t, a, ht, h8, hop, hF, hi⟩ := forward_at cfg hs'
    refine step hc (asked_idem cfg limit s) ?_ ht (by rw [List.length_append]; omega) hop (more := []) (wire := t) ?_ hF ?_
    · rw [bytePosition, show (asked cfg limit s).length / 8 = 0 by omega]; exact hl
    · rw [wholeBytes, show (asked cfg limit s).length % 8 = (asked cfg limit s).length by omega]; simp
    · rw [hi]; exact stopped _ _ _

/-- What is continued can be closed if the rest can. -/
theorem after (hc : cfg.seekClears = true) {as : List Action} {left : List Bool}
    (h : continuing cfg limit size as s left) (hl : Closes cfg limit size false left) : Closes cfg limit size false s := by
  induction as generalizing s with
  | nil => obtain ⟨rfl, -⟩ := h; exact of_asked hl
  | cons a as ih =>
    obtain ⟨hlim, hi, more, n, ⟨h8, hop, wire, hs, hF, -⟩, h⟩ := h
    rw [stepped_clear hc] at hs
    refine of_asked (step hc (asked_idem cfg limit s) hlim (t := []) (by simp) (by simpa using h8) (by simpa using hop)
      (by simpa using hs) hF ?_)
    rw [hi]
    exact ih h

/-- An action that runs out of input, and is not beyond help. -/
theorem cut (hc : cfg.seekClears = true) (ha : asked cfg limit s = s) (hl : ¬ limitReached limit (bytePosition size s))
    (h2 : s.length % 8 ≤ 2) (hr : refuses cfg s .incomplete)
    (hh : ¬ (8 ≤ s.length ∧ HopelessOperand cfg (Form.value ((s.drop 2).take 6)) (wholeBytes s))) :
    Closes cfg limit size false s := by
  have hr' : s.length < 8 ∧ Err.incomplete = .incomplete ∨ 8 ≤ s.length ∧
      (Action.dispatch cfg (opAt 2 s)).eval (steppedBack cfg s) = .error .incomplete := by
    obtain ⟨data, off, hle, hs, hf⟩ := hr
    obtain ⟨r, hp, hrem, hf⟩ := (Action.fromReader_error hle _).1 hf
    rw [Action.read_error hp.ready, hrem, hs] at hf
    exact hf
  rcases hr' with ⟨h8, -⟩ | ⟨h8, hd⟩
  · exact short hc (by omega)
  · rw [stepped_clear hc] at hd
    have hbits := Action.opAt_bits (c := s) (s' := []) h8
    rw [List.append_nil] at hbits
    rcases Action.dispatch_hope cfg _ (by rw [wholeBytes_length]; omega) hd with hs | ⟨t, a, hx⟩
    · refine absurd ⟨h8, ?_⟩ hh
      rw [shut_iff, Form.value_eq, ← hbits]
      exact hs
    · rw [show wholeBytes s ++ t = (wholeBytes s ++ t) ++ [] by simp] at hx
      obtain ⟨hop, hF⟩ := (Action.dispatch_fits cfg _ _ _ _).1 hx
      have hop : Form.value ((s.drop 2).take 6) = opcodeOf a := by rw [hop, Form.value_eq, ← hbits]
      obtain ⟨-, h1, h3, -⟩ := operand_ends hF
      rw [List.length_append, wholeBytes_length] at h1 h3
      cases htx : a.isTx with
      | false =>
        have h1 := h1 htx
        refine step hc ha hl (t := t) (wire := wholeBytes s ++ t) (more := []) (a := a) (by omega)
          (by rw [List.length_append]; omega) (by rw [code_front h8]; exact hop) (by simp) hF ?_
        cases a.isIndirectForward with
        | true => exact stopped _ _ _
        | false => exact short hc (by simp)
      | true =>
        have h3 := h3 htx
        have hi : a.isIndirectForward = false := by cases a <;> first | rfl | cases htx
        refine step hc ha hl (t := t ++ [false, false]) (wire := wholeBytes s ++ t) (more := [false, false]) (a := a)
          (by rw [List.length_append, List.length_cons, List.length_singleton]; omega)
          (by rw [List.length_append]; omega) (by rw [code_front h8]; exact hop) (by simp) hF ?_
        rw [hi]
        exact short hc (by simp)

theorem continuing_asked {as : List Action} {left : List Bool} (h : continuing cfg limit size as s left) :
    asked cfg limit left = left ∧ ¬ limitReached limit (bytePosition size left) := by
  induction as generalizing s with
  | nil => obtain ⟨rfl, h, -⟩ := h; exact ⟨asked_idem _ _ _, h⟩
  | cons a as ih => obtain ⟨-, -, _, _, -, h⟩ := h; exact ih h

/-- A command that runs out of input in an action, and is not beyond help. -/
theorem cut_command (hc : cfg.seekClears = true) (h2 : s.length % 8 ≤ 2) {as : List Action} {left : List Bool}
    (h : continuing cfg limit size as s left) (hr : refuses cfg left .incomplete) (hno : ¬ LostActions cfg limit size s) :
    Closes cfg limit size false s := by
  obtain ⟨ha, hl⟩ := continuing_asked h
  exact after hc h (cut hc ha hl (continuing_short hc h2 h) hr fun hx => hno ⟨as, left, h, hx⟩)

/-- A command that was read up to the end of the input. -/
theorem whole (hc : cfg.seekClears = true) {as : List Action} {n : Nat} (h : reading cfg limit size stop as s [] n) :
    Closes cfg limit size stop s := by
  induction as generalizing stop s n with
  | nil =>
    obtain ⟨hs, h⟩ := h
    refine of_asked ?_
    rw [← hs]
    have hp : bytePosition size [] = size := by simp [bytePosition]
    rw [hp] at h
    rcases h with ⟨h, -⟩ | ⟨-, -, -⟩
    · exact at_limit hc (by simp) h
    · cases stop with
      | true => exact stopped _ _ _
      | false => exact short hc (by simp)
  | cons a as ih =>
    obtain ⟨hlim, rfl, h8, hop, wire, more, m, hs, hF, h, -⟩ := h
    rw [stepped_clear hc] at hs
    exact of_asked (step hc (asked_idem cfg limit s) hlim (t := []) (by simp) (by simpa using h8) (by simpa using hop)
      (by simpa using hs) hF (ih h))

end Closes

/-- If a command ends in front of something, it does so whatever comes behind that. -/
theorem reading_longer {cfg : Cfg} (hc : cfg.seekClears = true) {limit size : Nat} {stop : Bool} {as : List Action}
    {s left u : List Bool} {n : Nat} (hne : left ≠ []) (hu : 8 ∣ u.length)
    (h : reading cfg limit size stop as s left n) :
    reading cfg limit (size + u.length / 8) stop as (s ++ u) (left ++ u) n := by
  induction as generalizing stop s n with
  | nil =>
    obtain ⟨rfl, h⟩ := h
    refine ⟨(asked_append cfg limit hu).symm, ?_⟩
    rw [bytePosition_append hu, endTest_append cfg hne hu]
    rcases h with h | ⟨h1, h2, h3⟩
    · exact .inl h
    · exact .inr ⟨h1, .inr (h2.resolve_left hne), h3⟩
  | cons a as ih =>
    obtain ⟨hlim, hst, h8, hop, wire, more, m, hs, hF, h, hn⟩ := h
    unfold reading
    dsimp only
    rw [asked_append cfg limit hu]
    have hne' : asked cfg limit s ≠ [] := by intro h0; rw [h0] at h8; simp at h8
    refine ⟨?_, hst, by rw [List.length_append]; omega, by rw [code_front h8]; exact hop, wire, more ++ u, m, ?_, hF, ih h, ?_⟩
    · rw [bytePosition_append hu]; exact hlim
    · rw [stepped_clear hc] at hs ⊢
      rw [wholeBytes_append hu, hs, List.append_assoc]
    · rw [endTest_append cfg hne' hu]; exact hn

end Dash7
