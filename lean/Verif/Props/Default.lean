import Verif.Lemmas.Default
import Verif.Props.Items

/-!
# C62: default values
-/

namespace Dash7
open Sample

/-- An action with the opcode of its kind stored in it: `X { opcode: OpCode::X, ..operand }`. -/
def Spec.rightOpcode (a : Action) : Action := Spec.withOpcode ⟨BitVec.ofNat 8 (Spec.opcodeOf a)⟩ a

/-- Is it one of the actions carrying the data of a file? -/
def Spec.carriesFile : Action → Bool
  | .writeFileData _ | .writeFileDataFlush _ | .returnFileData _ => true
  | _ => false

/-- **C62** The default of every type with derived coding that has one, the two LoRaWAN configurations with keys aside:
it can be written, and `from_bytes` reads it back. -/
theorem C62_default_partial (cfg : Cfg) (i : Item) (v : i.Val) (hv : i.default? = some v)
    (h1 : i ≠ .loRaWANOTAA) (h2 : i ≠ .loRaWANABP) :
    ∃ bytes, i.toBytes cfg v = .ok bytes ∧ ∃ rest, i.fromBytes cfg (bytes, 0) = .ok (rest, v) := by
  have h := List.all_eq_true.1 (Item.defaultSurvives_all i h1 h2) cfg cfg.mem_all
  unfold Item.defaultSurvives at h
  rw [hv] at h
  exact (Item.survives_iff cfg i v).1 h

/-- **C62** The default of a type of whole bytes is taken by `try_from` as well. -/
theorem C62_try_from_partial (cfg : Cfg) (i : Item) (v : i.Val) (hv : i.default? = some v)
    (h1 : i ≠ .loRaWANOTAA) (h2 : i ≠ .loRaWANABP) (hw : Spec.bitsOver cfg i = 0) :
    ∃ bytes, i.toBytes cfg v = .ok bytes ∧ i.tryFrom cfg bytes = .ok v := by
  obtain ⟨bytes, -, rest, hr⟩ := C62_default_partial cfg i v hv h1 h2
  obtain ⟨-, form, more, -, hf, -⟩ := (C59_from_bytes cfg i bytes 0 rest v).1 hr
  refine (C60_try_from_partial cfg i v hw ?_).2 ⟨form, hf⟩
  intro hu
  cases i <;> try exact hu
  cases hv
  obtain ⟨b, hb⟩ := hu
  cases hb

/-- **C62** fails for the LoRaWAN configurations with keys: the default keys are empty, written as nothing, and missed
when reading. -/
theorem C62_lorawan_violates (cfg : Cfg) :
    (∃ bytes, Item.loRaWANOTAA.toBytes cfg .default = .ok bytes ∧
      Item.loRaWANOTAA.fromBytes cfg (bytes, 0) = .error .incomplete) ∧
    ∃ bytes, Item.loRaWANABP.toBytes cfg .default = .ok bytes ∧
      Item.loRaWANABP.fromBytes cfg (bytes, 0) = .error .incomplete := by
  refine ⟨⟨[0, 0, 0], ?_⟩, ⟨[0, 0, 0, 0, 0, 0, 0, 0, 0, 0, 0], ?_⟩⟩ <;> revert cfg <;>
    exact Cfg.forall (by decide +kernel)

/-- **C62** Of the actions around a default operand only the nop comes back: all others hold the opcode of a nop. -/
theorem C62_action_violates (cfg : Cfg) : ∀ a ∈ Action.defaults,
    (∃ bytes, a.toBytes cfg = .ok bytes ∧ Action.tryFrom cfg bytes = .ok a) ↔ a = .nop ⟨⟨false, false⟩, ⟨0⟩⟩ := by
  intro a ha
  rw [C61_action]
  revert a
  revert cfg
  exact Cfg.forall (by decide +kernel)

/-- **C62** With the opcode put right, every action around a default operand comes back, except those which carry the
data of a file. -/
theorem C62_opcode_partial (cfg : Cfg) : ∀ a ∈ Action.defaults, Spec.carriesFile a = false →
    ∃ bytes, (Spec.rightOpcode a).toBytes cfg = .ok bytes ∧
      Action.tryFrom cfg bytes = .ok (Spec.rightOpcode a) := by
  intro a ha h
  rw [C61_action]
  revert a
  revert cfg
  exact Cfg.forall (by decide +kernel)

/-- **C62** fails for file data, even with the opcode put right: the default file id is that of the UID file, the
default data are empty. -/
theorem C62_file_data_violates (cfg : Cfg) : ∀ a ∈ Action.defaults, Spec.carriesFile a = true →
    ∃ bytes, (Spec.rightOpcode a).toBytes cfg = .ok bytes ∧ Action.tryFrom cfg bytes = .error .incomplete := by
  intro a ha h
  refine ⟨[BitVec.ofNat 8 (Spec.opcodeOf a), 0, 0, 0], ?_⟩
  revert a
  revert cfg
  exact Cfg.forall (by decide +kernel)

/-- **C62** The default command is the empty one, written as nothing, and comes back. -/
theorem C62_command (cfg : Cfg) : Command.default.toBytes cfg = .ok [] ∧
    Command.tryFrom cfg [] = .ok Command.default := by
  revert cfg
  exact Cfg.forall (by decide +kernel)

/-- **C62** The default network frame comes back outside wizzilab builds, and there only. -/
theorem C62_network_frame (cfg : Cfg) : ∃ bytes, Net.Frame.default.toBytes cfg = .ok bytes ∧
    (Net.Frame.tryFrom cfg bytes = .ok Net.Frame.default ↔ cfg.variant ≠ .wizzilab) := by
  refine ⟨[0x10, 0, 0, 0, 0], ?_⟩
  revert cfg
  exact Cfg.forall (by decide +kernel)

/-- **C62** fails for the default transport and foreground frames, in every build: the bit left over behind the seven
flags, or the CRC, is taken for the beginning of an action. -/
theorem C62_frame_violates (cfg : Cfg) :
    (∃ bytes e, Trans.Frame.default.toBytes cfg = .ok bytes ∧ Trans.Frame.tryFrom cfg bytes = .error e) ∧
    ∃ bytes e, ForegroundFrame.default.toBytes cfg = .ok bytes ∧ ForegroundFrame.tryFrom cfg bytes = .error e := by
  refine ⟨⟨[0, 0, 0], .incomplete, ?_⟩, ⟨[0, 0, 0x40, 0x10, 0, 0, 0, 0, 0, 0], .incomplete, ?_⟩⟩ <;> revert cfg <;>
    exact Cfg.forall (by decide +kernel)

example : Item.addressee.default? = some Addressee.default ∧
    Item.addressee.toBytes spec Addressee.default = .ok [0x10, 0] := by decide +kernel
example : Action.defaults.length = 27 ∧ Spec.rightOpcode (.forward .default) ∈ Action.defaults.map Spec.rightOpcode ∧
    (Spec.rightOpcode (.forward .default)).toBytes spec = .ok [0x32, 0] := by decide +kernel

end Dash7

#print axioms Dash7.C62_default_partial
#print axioms Dash7.C62_try_from_partial
#print axioms Dash7.C62_lorawan_violates
#print axioms Dash7.C62_action_violates
#print axioms Dash7.C62_opcode_partial
#print axioms Dash7.C62_file_data_violates
#print axioms Dash7.C62_command
#print axioms Dash7.C62_network_frame
#print axioms Dash7.C62_frame_violates
