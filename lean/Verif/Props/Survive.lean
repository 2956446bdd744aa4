import Verif.Lemmas.Ahead

/-!
# C61: exactly the well-formed actions and commands come back
-/

namespace Dash7
open Sample

/-- **C61** An action comes back from its own encoding exactly if it is well-formed. -/
theorem C61_action (cfg : Cfg) (a : Action) :
    (∃ bytes, a.toBytes cfg = .ok bytes ∧ Action.tryFrom cfg bytes = .ok a) ↔ a.WF cfg := by
  constructor
  · rintro ⟨bytes, hb, ht⟩
    cases htx : a.isTx with
    | true =>
      cases a <;> try cases htx
      rw [(C41_action_violates cfg _ bytes hb).2] at ht
      cases ht
    | false =>
      obtain ⟨wire, junk, he, hf, -⟩ := (C54_try_from cfg bytes a).1 ht
      unfold Action.toBytes at hb
      cases hw : a.write cfg with
      | error e => rw [hw] at hb; cases hb
      | ok w =>
        rw [hw] at hb
        simp only [W.toBytes, Except.ok.injEq] at hb
        subst hb
        have h8 : 8 ∣ w.length := by
          have := Action.mod8 cfg a htx _ hw
          omega
        rw [Form.ofBytes_eq, bytesBits_packBits _ h8] at he
        refine actions_survive (as := [a]) (w := w) (c := wire) (r := junk) (by simpa using htx) ?_ ?_ he a (by simp)
        · simp [W.list, W.seq, hw]
        · exact ⟨wire, [], by simp, hf, rfl⟩
  · exact fun h => let ⟨b, h1, h2⟩ := C02_action_roundtrip cfg a h; ⟨b, h1, h2⟩

/-- **C61** A command comes back from its own encoding exactly if it is well-formed. -/
theorem C61_command (cfg : Cfg) (c : Command) :
    (∃ bytes, c.toBytes cfg = .ok bytes ∧ Command.tryFrom cfg bytes = .ok c) ↔ c.WF cfg := by
  constructor
  · rintro ⟨bytes, hb, ht⟩
    unfold Command.toBytes Command.write at hb
    cases hw : W.list (Action.write cfg) c.actions with
    | error e => rw [hw] at hb; cases hb
    | ok w =>
      rw [hw] at hb
      simp only [W.toBytes, Except.ok.injEq] at hb
      subst hb
      have hbits : Form.ofBytes (packBits w) = w ++ List.replicate ((8 - w.length % 8) % 8) false := by
        rw [Form.ofBytes_eq, packBits_zeros, bytesBits_packBits]
        rw [List.length_append, List.length_replicate]
        omega
      have hwf : ∀ a ∈ c.actions, a.WF cfg := by
        obtain ⟨left, n, hr, -⟩ := (C58_command_try cfg _ c).1 ht
        rw [hbits] at hr
        refine reading_survive hw ?_ ?_ hr
        · rw [List.length_replicate]
          omega
        · rw [List.length_append, List.length_replicate]
          omega
      have htx : ∀ a ∈ c.actions, a.isTx = false := fun a ha => (hwf a ha).isTx
      obtain ⟨-, -, -, -, hi, -⟩ := (C55_try_from_partial cfg _ c htx).1 ht
      exact ⟨hwf, hi⟩
  · exact fun h => let ⟨b, h1, h2⟩ := C01_command_roundtrip cfg c h; ⟨b, h1, h2⟩

/-- Both sides are met, and both are missed: a well-formed command; a stored opcode which is not that of the action; an
indirect forward that is not the last action; a mask of the wrong length; a status type that is not that of the
status. -/
example : command.WF spec ∧ ¬ (Command.mk [.nop ⟨⟨false, false⟩, ⟨1⟩⟩]).WF spec ∧
    ¬ (Command.mk [indirect, tag]).WF spec ∧
    ¬ (Command.mk [.status ⟨.action, ⟨34⟩, .interface ⟨.host, .host⟩⟩]).WF spec ∧
    ¬ (Command.mk [.actionQuery ⟨⟨false, false⟩, ⟨8⟩,
      .comparisonWithZero ⟨true, ⟨false, .equal⟩, ⟨2⟩, [1], ⟨0x41, ⟨0⟩⟩⟩⟩]).WF spec := by decide +kernel

/-- A wizzilab command with the status of an unknown interface in front of a TX status: it is written, but does not come
back. -/
example : (Command.toBytes wizzilab ⟨[.status ⟨.interface, ⟨34⟩, .interface ⟨.unknown, .other [1, 2, 3, 4]⟩⟩, txStatus]⟩).isOk
      = true ∧
    ¬ (Command.mk [.status ⟨.interface, ⟨34⟩, .interface ⟨.unknown, .other [1, 2, 3, 4]⟩⟩, txStatus]).WF wizzilab := by
  decide +kernel

/-- Well-formedness cannot be had for less: the status of an unknown interface comes back or does not, depending on
whether the length operand before it looks like a known interface. -/
example : Command.tryFrom ⟨.spec, false, false, false, false⟩ [0x62, 0x04, 1, 2, 3, 4] =
      .ok ⟨[.status ⟨.interface, ⟨34⟩, .interface ⟨.unknown, .other [1, 2, 3, 4]⟩⟩]⟩ ∧
    Command.tryFrom ⟨.spec, false, false, false, false⟩ [0x62, 0x03, 1, 2, 3] = .error (.fault .parse) := by
  decide +kernel

end Dash7

#print axioms Dash7.C61_action
#print axioms Dash7.C61_command
