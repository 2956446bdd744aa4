import Verif.Spec.WF

/-!
# Concrete values used to show that theorems are not vacuous
-/

deriving instance DecidableEq for Except

namespace Dash7.Sample

/-- A build of the specification feature on a little-endian host. -/
def spec : Cfg := ⟨.spec, false, false, true, false⟩

/-- The same with every open deku behaviour the other way round. -/
def spec' : Cfg := ⟨.spec, true, true, false, true⟩

/-- A build for wizzilab devices. -/
def wizzilab : Cfg := ⟨.wizzilab, false, false, true, false⟩

/-- A build for sub-iot devices. -/
def subiot : Cfg := ⟨.subiot, false, false, true, false⟩

/-- Request tag 7, end of packet. -/
def tag : Action := .requestTag ⟨true, ⟨52⟩, 7⟩

/-- Read 300 bytes at offset 1000 of file 0x41. -/
def readData : Action := .readFileData ⟨⟨true, false⟩, ⟨1⟩, ⟨0x41, ⟨1000⟩⟩, ⟨300⟩⟩

/-- Write three bytes to file 0x42. -/
def writeData : Action :=
  .writeFileData ⟨⟨false, true⟩, ⟨4⟩, ⟨0x42, ⟨0⟩⟩, .other [0xAA, 0xBB, 0xCC]⟩

/-- Query: compare two bytes of file 0x43 under a mask. -/
def query : Action :=
  .actionQuery ⟨⟨false, false⟩, ⟨8⟩,
    .comparisonWithValue ⟨true, ⟨true, .equal⟩, ⟨2⟩, [0xFF, 0x0F], [0x12, 0x34], ⟨0x43, ⟨5⟩⟩⟩⟩

/-- A unicast addressee with security. -/
def addressee : Addressee :=
  ⟨.any, .uId, false, .aesCcm32, ⟨2, 1⟩, .uId 0x0011223344556677, .aesCcm32 #v[1, 2, 3, 4, 5]⟩

/-- A channel. -/
def channel : Channel := ⟨⟨.band868, .normalRate, .fecPn9⟩, 0x0123⟩

/-- Status received over DASH7. -/
def dash7Status : Action :=
  .status ⟨.interface, ⟨34⟩, .interface ⟨.dash7, .dash7
    ⟨channel, 70, 80, 90, true, false, true, true, 0xAB, 0xCD, ⟨496, false⟩, addressee⟩⟩⟩

/-- Forward to a DASH7 interface. -/
def forward : Action :=
  .forward ⟨true, ⟨50⟩, .dash7 ⟨⟨false, true, .fifoFast, .any⟩, ⟨31, false⟩, ⟨0, false⟩, addressee⟩⟩

/-- Indirect forward with overload. -/
def indirect : Action := .indirectForward ⟨⟨true, false⟩, ⟨51⟩, some (.dash7 addressee)⟩

/-- Some of these in a row. -/
def command : Command := ⟨[tag, readData, writeData, query, dash7Status, forward, indirect]⟩

/-- A TX status (wizzilab): no data of an unknown interface. -/
def txStatus : Action := .txStatus ⟨⟨38⟩, ⟨0x10, .other []⟩⟩

/-! Well-formedness can be computed. -/

instance (v : VarInt) : Decidable v.WF := by unfold VarInt.WF; infer_instance
instance (v : Length) : Decidable v.WF := by unfold Length.WF; infer_instance
instance (v : FileOffset) : Decidable v.WF := by unfold FileOffset.WF; infer_instance
instance (v : ChannelStatusIdentifier) : Decidable v.WF := by
  unfold ChannelStatusIdentifier.WF; infer_instance
instance (v : ChannelStatus) : Decidable v.WF := by unfold ChannelStatus.WF; infer_instance
instance (v : SubProfile) : Decidable v.WF := by unfold SubProfile.WF; infer_instance
instance (v : AccessClass) : Decidable v.WF := by unfold AccessClass.WF; infer_instance
instance (v : AccessProfile) : Decidable v.WF :=
  decidable_of_iff (∀ s ∈ v.subProfiles.toList, s.WF) (by
    unfold AccessProfile.WF; simp [Vector.mem_toList_iff])
instance (v : Address) : Decidable v.WF := by cases v <;> (unfold Address.WF; infer_instance)
instance (cfg : Cfg) (v : Addressee) : Decidable (v.WF cfg) := by
  unfold Addressee.WF; infer_instance
instance (cfg : Cfg) (v : Dash7InterfaceStatus) : Decidable (v.WF cfg) := by
  unfold Dash7InterfaceStatus.WF; infer_instance
instance (cfg : Cfg) (v : InterfaceStatus) : Decidable (v.WF cfg) := by
  cases v <;> (unfold InterfaceStatus.WF; infer_instance)
instance (i : U8) (v : InterfaceFinalStatus) : Decidable (v.WF i) := by
  cases v <;> (unfold InterfaceFinalStatus.WF; infer_instance)
instance (cfg : Cfg) (v : Dash7InterfaceConfiguration) : Decidable (v.WF cfg) := by
  unfold Dash7InterfaceConfiguration.WF; infer_instance
instance (v : LoRaWANOTAAInterfaceConfiguration) : Decidable v.WF := by
  unfold LoRaWANOTAAInterfaceConfiguration.WF; infer_instance
instance (v : LoRaWANABPInterfaceConfiguration) : Decidable v.WF := by
  unfold LoRaWANABPInterfaceConfiguration.WF; infer_instance
instance (cfg : Cfg) (v : InterfaceConfiguration) : Decidable (v.WF cfg) := by
  cases v <;> (unfold InterfaceConfiguration.WF; infer_instance)
instance (cfg : Cfg) (v : IndirectInterface) : Decidable (v.WF cfg) := by
  cases v <;> (unfold IndirectInterface.WF; infer_instance)
instance (v : Query) : Decidable v.WF := by cases v <;> (unfold Query.WF; infer_instance)
instance (v : FirmwareVersion) : Decidable v.WF := by unfold FirmwareVersion.WF; infer_instance
instance (v : PhyStatus) : Decidable v.WF := by unfold PhyStatus.WF; infer_instance
instance (i : FileId) (v : File) : Decidable (v.WF i) := by
  cases v <;> (unfold File.WF; infer_instance)
instance (cfg : Cfg) (v : Op.Status) : Decidable (v.WF cfg) := by
  cases v <;> (unfold Op.Status.WF; infer_instance)
instance (cfg : Cfg) (v : Op.IndirectForward) : Decidable (v.WF cfg) := by
  unfold Op.IndirectForward.WF
  cases v.configuration with
  | none => exact decidable_of_iff (v.header.overloaded = false) (by simp)
  | some c => exact decidable_of_iff (v.header.overloaded = true ∧ c.WF cfg) (by simp)
instance (cfg : Cfg) (v : Action) : Decidable (v.OperandWF cfg) := by
  cases v <;> (unfold Action.OperandWF; infer_instance)
instance (cfg : Cfg) (v : Action) : Decidable (v.WF cfg) := by unfold Action.WF; infer_instance
instance (cfg : Cfg) (v : Command) : Decidable (v.WF cfg) := by unfold Command.WF; infer_instance

end Dash7.Sample
