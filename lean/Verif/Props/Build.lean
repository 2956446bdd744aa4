import Verif.Props.Survive

/-!
# C63: constructors and conversions
-/

namespace Dash7
open Sample

/-- An action comes back from its own encoding. -/
def Spec.comesBack (cfg : Cfg) (a : Action) : Prop :=
  ∃ bytes, a.toBytes cfg = .ok bytes ∧ Action.tryFrom cfg bytes = .ok a

/-- **C63** A chunk action made by `ChunkStep::into` comes back. -/
theorem C63_chunk (cfg : Cfg) (s : Op.ChunkStep) : Spec.comesBack cfg (.chunk (.ofStep s)) :=
  (C61_action cfg _).2 ⟨rfl, trivial⟩

/-- **C63** An action made by `Forward::new` comes back exactly if its configuration is well-formed. -/
theorem C63_forward (cfg : Cfg) (r : Bool) (c : InterfaceConfiguration) :
    Spec.comesBack cfg (.forward (.new r c)) ↔ c.WF cfg :=
  (C61_action cfg _).trans ⟨fun h => h.2, fun h => ⟨rfl, h⟩⟩

/-- **C63** An action made by `IndirectForward::new` comes back exactly if its configuration, if there is one, is
well-formed. -/
theorem C63_indirect_forward (cfg : Cfg) (r : Bool) (c : Option IndirectInterface) :
    Spec.comesBack cfg (.indirectForward (.new r c)) ↔ ∀ i, c = some i → i.WF cfg :=
  (C61_action cfg _).trans ⟨fun h => h.2.2, fun h => ⟨rfl, rfl, h⟩⟩

/-- **C63** An action status, made an action by `Status::into`, comes back. -/
theorem C63_action_status (cfg : Cfg) (s : ActionStatus) : Spec.comesBack cfg (.status (.ofStatus (.action s))) :=
  (C61_action cfg _).2 ⟨rfl, rfl, trivial⟩

/-- **C63** An interface status, made an action by `into` three times, comes back exactly if it is well-formed. -/
theorem C63_interface_status (cfg : Cfg) (s : InterfaceStatus) :
    Spec.comesBack cfg (.status (.ofStatus (.interface (.ofStatus s)))) ↔ s.WF cfg :=
  (C61_action cfg _).trans ⟨fun h => h.2.2.2, fun h => ⟨rfl, rfl, rfl, h⟩⟩

/-- **C63** The final status of a dash7 interface, made an action by `into`, comes back in the builds that have it. -/
theorem C63_final_status_partial (cfg : Cfg) (hv : cfg.variant = .wizzilab) (c : InterfaceFinalStatusCode) :
    ∃ o, Op.InterfaceFinalStatusOperation.ofStatus (.dash7 c) = .ok o ∧ o.status = .dash7 c ∧
      Spec.comesBack cfg (.status (.ofStatus (.interfaceFinal o))) :=
  ⟨_, rfl, rfl, (C61_action cfg _).2 ⟨rfl, rfl, hv, by first | exact rfl | exact trivial⟩⟩

/-- **C63** fails for the final status and the TX status of any other interface: `into` panics. -/
theorem C63_other_interface_violates (b : List U8) :
    Op.InterfaceFinalStatusOperation.ofStatus (.other b) = .error (.fault .panic) ∧
      Op.InterfaceTxStatusOperation.ofStatus (.other b) = .error (.fault .panic) := ⟨rfl, rfl⟩

/-- **C63** The status that makes it panic can be one just received. -/
theorem C63_received_violates (cfg : Cfg) (hv : cfg.variant = .wizzilab) :
    ∃ data o, Action.tryFrom cfg data = .ok (.status ⟨.interfaceFinal, ⟨34⟩, .interfaceFinal o⟩) ∧
      Op.InterfaceFinalStatusOperation.ofStatus o.status = .error (.fault .panic) := by
  refine ⟨[0xA2, 0x01, 0x01, 0xAA], ⟨1, .other [0xAA]⟩, ?_, rfl⟩
  rcases cfg with ⟨v, a, b, c, d⟩
  cases hv
  cases a <;> cases b <;> cases c <;> cases d <;> decide +kernel

/-- **C63** An action made by `FileData::new` comes back exactly if the opcode is the one of the action, the offset
is in range, and the data are of the kind the file id asks for. -/
theorem C63_file_data_partial (cfg : Cfg) (h : ActionHeader) (off : FileOffset) (f : File) (op : OpCode) :
    (Spec.comesBack cfg (.writeFileData (.new h off f op)) ↔
      op.code.toNat = 4 ∧ off.WF ∧ f.WF (FileId.ofId off.fileId)) ∧
    (Spec.comesBack cfg (.writeFileDataFlush (.new h off f op)) ↔
      op.code.toNat = 5 ∧ off.WF ∧ f.WF (FileId.ofId off.fileId)) ∧
    (Spec.comesBack cfg (.returnFileData (.new h off f op)) ↔
      op.code.toNat = 32 ∧ off.WF ∧ f.WF (FileId.ofId off.fileId)) :=
  ⟨C61_action cfg _, C61_action cfg _, C61_action cfg _⟩

/-- **C63** `FileData::new` takes data the file id does not fit: what is written is then read as another file, or not at
all. -/
theorem C63_file_data_violates (cfg : Cfg) :
    (∃ f g bytes, Action.toBytes cfg (.writeFileData (.new ⟨false, false⟩ (.noOffset 0x40) f ⟨4⟩)) = .ok bytes ∧
      Action.tryFrom cfg bytes = .ok (.writeFileData g) ∧ g.data ≠ f) ∧
    ∃ f bytes, Action.toBytes cfg (.writeFileData (.new ⟨false, false⟩ (.noOffset 0) f ⟨4⟩)) = .ok bytes ∧
      Action.tryFrom cfg bytes = .error .incomplete := by
  refine ⟨⟨.uId (.uId 5), .new ⟨false, false⟩ (.noOffset 0x40) (.other [0, 0, 0, 0, 0, 0, 0, 5]) ⟨4⟩,
    [0x04, 0x40, 0, 8, 0, 0, 0, 0, 0, 0, 0, 5], ?_⟩, ⟨.other [], [0x04, 0, 0, 0], ?_⟩⟩ <;>
    rcases cfg with ⟨v, a, b, c, d⟩ <;>
    cases v <;> cases a <;> cases b <;> cases c <;> cases d <;> decide +kernel

example : InterfaceConfiguration.WF spec (.unknown 0x42) ∧ ¬ InterfaceConfiguration.WF spec (.unknown 0) ∧
    ¬ InterfaceConfiguration.WF spec (.loRaWanABP ⟨⟨false, false, 0, 0⟩, [], [], 0, 0⟩) := by decide
example : IndirectInterface.WF spec (.dash7 addressee) ∧ ¬ IndirectInterface.WF spec (.unknown 1) := by decide +kernel
example : InterfaceStatus.WF spec (.dash7
    ⟨channel, 70, 80, 90, true, false, true, true, 0xAB, 0xCD, ⟨496, false⟩, addressee⟩) := by decide +kernel
example : wizzilab.variant = .wizzilab := rfl
example : FileOffset.WF (.noOffset 0x40) ∧ File.WF (FileId.ofId 0x40) (.other [1, 2, 3]) ∧
    ¬ File.WF (FileId.ofId 0x40) (.uId (.uId 5)) := by decide +kernel

end Dash7

#print axioms Dash7.C63_chunk
#print axioms Dash7.C63_forward
#print axioms Dash7.C63_indirect_forward
#print axioms Dash7.C63_action_status
#print axioms Dash7.C63_interface_status
#print axioms Dash7.C63_final_status_partial
#print axioms Dash7.C63_other_interface_violates
#print axioms Dash7.C63_received_violates
#print axioms Dash7.C63_file_data_partial
#print axioms Dash7.C63_file_data_violates
