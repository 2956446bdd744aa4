import Verif.Lemmas.Alike3
import Verif.Props.Flip
import Verif.Props.Shortest

/-!
# C94: damage that keeps the length does not go unnoticed
-/

namespace Dash7

open Sample

/-- With nothing to spare, a string of the same length fits just if it agrees in all that matters. -/
theorem Whole.bytes {F : Form} {m : List Mark} (h : Whole F m) {x y : List U8} (hF : F (Form.ofBytes x))
    (hm : m.length = 8 * x.length) (hl : y.length = x.length) :
    F (Form.ofBytes y) ↔ Alike.Same m (Form.ofBytes x) (Form.ofBytes y) :=
  h.all _ _ hF (by rw [Form.ofBytes_length, hm]) (by rw [Form.ofBytes_length, hm, hl])

/-- **C94** for actions (all but those carrying an access profile or a PHY status of 64 bytes or more): whatever
arrives in place of the encoding, with as many bytes, decodes to the action sent just if it has the same bits wherever the
decoder looks at them, compressed numbers counting as the numbers they stand for. -/
theorem C94_action_partial (cfg : Cfg) (a : Action) (hw : a.WF cfg) (hl : Ignored.large a = false)
    (x : List U8) (hx : a.toBytes cfg = .ok x) (y : List U8) (hy : y.length = x.length) :
    Action.tryFrom cfg y = .ok a ↔ Alike.Same (Alike.action cfg.variant a) (Form.ofBytes x) (Form.ofBytes y) := by
  have whole := Whole.action cfg a hw.isTx hw.plain hl
  have hm := (Alike.action_marks cfg.variant a).trans (Ignored.action_length hw hx)
  have key : ∀ y : List U8, y.length = x.length →
      (Action.tryFrom cfg y = .ok a ↔ Form.action cfg a (Form.ofBytes y)) := by
    intro y hy
    rw [C54_try_from]
    constructor
    · rintro ⟨wire, junk, he, hf, -⟩
      have h1 := whole.min wire hf
      have h2 := congrArg List.length he
      rw [Form.ofBytes_length, List.length_append] at h2
      have : junk = [] := List.eq_nil_of_length_eq_zero (by omega)
      subst this
      rw [he, List.append_nil]; exact hf
    · intro hf
      exact ⟨Form.ofBytes y, [], by simp, hf, by simp⟩
  obtain ⟨x', hx', hr⟩ := C02_action_roundtrip cfg a hw
  rw [hx] at hx'; cases hx'
  rw [key y hy]
  exact whole.bytes ((key x rfl).1 hr) hm hy

/-- **C94** for commands (none of whose actions carries an access profile or a PHY status of 64 bytes or more). -/
theorem C94_command_partial (cfg : Cfg) (c : Command) (hw : c.WF cfg) (hl : ∀ a ∈ c.actions, Ignored.large a = false)
    (x : List U8) (hx : c.toBytes cfg = .ok x) (y : List U8) (hy : y.length = x.length) :
    Command.tryFrom cfg y = .ok c ↔ Alike.Same (Alike.command cfg.variant c) (Form.ofBytes x) (Form.ofBytes y) := by
  have ht : ∀ a ∈ c.actions, a.isTx = false := fun a ha => (hw.1 a ha).isTx
  have whole := Whole.actions cfg c.actions fun a ha => ⟨ht a ha, (hw.1 a ha).plain, hl a ha⟩
  have hm : (c.actions.flatMap (Alike.action cfg.variant)).length = 8 * x.length :=
    (Alike.command_marks cfg.variant c.actions).trans (Ignored.command_length hw.1 hx)
  have key : ∀ y : List U8, y.length = x.length →
      (Command.tryFrom cfg y = .ok c ↔ Form.actions cfg c.actions (Form.ofBytes y)) := by
    intro y hy
    rw [C55_try_from_partial cfg y c ht]
    constructor
    · rintro ⟨wire, junk, rfl, hf, -⟩
      have h1 := whole.min _ hf
      rw [Form.ofBytes_length] at h1
      rw [List.length_append] at hy
      have : junk = [] := List.eq_nil_of_length_eq_zero (by omega)
      subst this
      rw [List.append_nil]; exact hf
    · intro hf
      exact ⟨y, [], by simp, hf, hw.2, .inl rfl⟩
  obtain ⟨x', hx', hr⟩ := C01_command_roundtrip cfg c hw
  rw [hx] at hx'; cases hx'
  rw [key y hy]
  exact whole.bytes ((key x rfl).1 hr) hm hy

/-- **C94** Where every bit matters, whatever else arrives with as many bytes is noticed. -/
theorem C94_strict (cfg : Cfg) (c : Command) (hw : c.WF cfg) (hl : ∀ a ∈ c.actions, Ignored.large a = false)
    (hs : ∀ a ∈ c.actions, ∀ m ∈ Alike.action cfg.variant a, m = Mark.heed)
    (x : List U8) (hx : c.toBytes cfg = .ok x) (y : List U8) (hy : y.length = x.length) :
    Command.tryFrom cfg y = .ok c ↔ y = x := by
  rw [C94_command_partial cfg c hw hl x hx y hy]
  have hm : (Alike.command cfg.variant c).length = 8 * x.length :=
    (Alike.command_marks cfg.variant c.actions).trans (Ignored.command_length hw.1 hx)
  have he : Alike.command cfg.variant c = Alike.heed (8 * x.length) := by
    refine List.eq_replicate_iff.2 ⟨hm, fun m h => ?_⟩
    obtain ⟨a, ha, h⟩ := List.mem_flatMap.1 h
    exact hs a ha m h
  rw [he, Alike.Same.heed (Form.ofBytes_length x) (by rw [Form.ofBytes_length, hy]), Form.ofBytes_eq, Form.ofBytes_eq]
  exact ⟨fun h => (bytesBits_inj h).symm, fun h => by rw [h]⟩

/-- A forward to a DASH7 interface with a timeout of 4. -/
def Sample.four : Action :=
  .forward ⟨true, ⟨50⟩, .dash7 ⟨⟨false, true, .fifoFast, .any⟩, ⟨4, false⟩, ⟨0, false⟩, addressee⟩⟩

/-- Numbers have several forms: of the fourth byte, `0x04` (4) on the way, three bits may be changed to make it
`0x21` (1 times 4), though none of these bits is one that the decoder does not look at. -/
theorem C94_number_violates :
    four.WF spec ∧ Ignored.large four = false ∧ ∃ x y : List U8, four.toBytes spec = .ok x ∧ y.length = x.length ∧
      Action.tryFrom spec y = .ok four ∧ y ≠ x ∧ x[3]? = some 0x04 ∧ y = x.set 3 0x21 ∧
      ∀ i, 24 ≤ i → i < 32 → (Ignored.action .spec four)[i]? = some false := by
  refine ⟨by decide +kernel, by decide +kernel, _, _, rfl, ?_, ?_, ?_, ?_, rfl, ?_⟩
  · decide +kernel
  · decide +kernel
  · decide +kernel
  · decide +kernel
  · intro i h1 h2
    have h : ∀ j : Fin 8, (Ignored.action .spec four)[24 + j.val]? = some false := by decide +kernel
    have := h ⟨i - 24, by omega⟩
    rwa [show 24 + (i - 24) = i from by omega] at this

/-- Actions carrying an access profile or a PHY status of 64 bytes or more: one byte of any value below 64 may stand for
the two bytes of the length, and all that follows be shifted by one byte, with a byte of any value at the end. -/
theorem C94_large_violates (cfg : Cfg) (a : Action) (hw : a.WF cfg) (hl : Spec.spare a = 1) (x : List U8)
    (hx : a.toBytes cfg = .ok x) (b : U8) (hb : b.toNat < 64) (last : U8) :
    Action.tryFrom cfg (Ignored.shorter a x b ++ [last]) = .ok a ∧ (Ignored.shorter a x b ++ [last]).length = x.length := by
  have hl' : Ignored.large a = true := by unfold Spec.spare at hl; split at hl <;> simp_all
  obtain ⟨h1, h2⟩ := Form.shorter hw hl' hx hb
  refine ⟨(C54_try_from cfg _ a).2 ⟨_, Form.ofBytes [last], Form.ofBytes_append _ _, h1, ?_⟩, ?_⟩
  · rw [Form.ofBytes_length, hw.isTx]; exact Nat.le_refl _
  · rw [List.length_append, h2]; rfl

/-- An action meeting these hypotheses. -/
example : echo.WF spec ∧ Spec.spare echo = 1 ∧ ∃ x, echo.toBytes spec = .ok x ∧ (0x3F : U8).toNat < 64 :=
  ⟨by decide +kernel, by decide +kernel, _, rfl, by decide⟩

/-- A command with actions of seven kinds meets the hypotheses of C94_command_partial. -/
example : Sample.command.WF spec ∧ (∀ a ∈ Sample.command.actions, Ignored.large a = false) ∧
    ∃ x, Sample.command.toBytes spec = .ok x := by
  refine ⟨by decide +kernel, by decide +kernel, ?_⟩
  obtain ⟨x, hx, -⟩ := C01_command_roundtrip spec Sample.command (by decide +kernel)
  exact ⟨x, hx⟩

/-- Every bit of a request to read matters. -/
example : (Command.mk [readData, readData]).WF spec ∧
    (∀ a ∈ [readData, readData], Ignored.large a = false) ∧
    (∀ a ∈ [readData, readData], ∀ m ∈ Alike.action spec.variant a, m = Mark.heed) ∧
    ∃ x, (Command.mk [readData, readData]).toBytes spec = .ok x ∧ x.length = 12 := by
  refine ⟨by decide +kernel, by decide +kernel, by decide +kernel, _, rfl, by decide +kernel⟩

end Dash7

#print axioms Dash7.C94_action_partial
#print axioms Dash7.C94_command_partial
#print axioms Dash7.C94_strict
#print axioms Dash7.C94_number_violates
#print axioms Dash7.C94_large_violates
