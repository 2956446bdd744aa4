import Verif.Model.Command

/-!
# Well-formed values

Which values of the Rust types can be put on the wire without loss.  These predicates are part of
the specification: they mention field values only, never a reader or writer of the model.
-/

namespace Dash7

/-- The numbers a compressed integer byte stands for: a 5-bit mantissa times a power of 4. -/
def Spec.Compressible (n : Nat) : Prop := ∃ e, e < 8 ∧ ∃ m, m < 32 ∧ n = m * 4 ^ e

instance (n : Nat) : Decidable (Spec.Compressible n) :=
  inferInstanceAs (Decidable (∃ e, e < 8 ∧ ∃ m, m < 32 ∧ n = m * 4 ^ e))

/-- A compressed integer that is exactly representable and not marked for rounding up. -/
def VarInt.WF (v : VarInt) : Prop := v.ceil = false ∧ Spec.Compressible v.value.toNat

/-- Length operands have 30 usable bits. -/
def Length.WF (l : Length) : Prop := l.val.toNat < 2 ^ 30

/-- File offset: the offset is a valid length operand. -/
def FileOffset.WF (f : FileOffset) : Prop := f.offset.WF

/-- The channel index of a channel status has 11 bits. -/
def ChannelStatusIdentifier.WF (c : ChannelStatusIdentifier) : Prop := c.index.toNat < 2 ^ 11

/-- See `ChannelStatusIdentifier.WF`. -/
def ChannelStatus.WF (c : ChannelStatus) : Prop := c.identifier.WF

/-- The scan period is representable. -/
def SubProfile.WF (s : SubProfile) : Prop := s.scanAutomationPeriod.WF

/-- Access class: two nibbles. -/
def AccessClass.WF (a : AccessClass) : Prop := a.specifier.toNat < 16 ∧ a.mask.toNat < 16

/-- All four scan periods are representable. -/
def AccessProfile.WF (a : AccessProfile) : Prop := ∀ s ∈ a.subProfiles, s.WF

/-- A broadcast address holds a representable number of responders. -/
def Address.WF : Address → Prop
  | .nbId n => n.WF
  | _ => True

/-- The stored tags agree with address and security state, and the fields that exist in the wizzilab
build only hold their defaults elsewhere. -/
def Addressee.WF (cfg : Cfg) (a : Addressee) : Prop :=
  a.addressType = a.address.type ∧ a.nlsMethod = a.nlsState.method ∧ a.accessClass.WF ∧
  a.address.WF ∧
  (cfg.variant ≠ .wizzilab → a.groupCondition = .any ∧ a.useVid = false)

/-- Time-out and addressee are representable. -/
def Dash7InterfaceStatus.WF (cfg : Cfg) (s : Dash7InterfaceStatus) : Prop :=
  s.responseTimeout.WF ∧ s.addressee.WF cfg

/-- The first byte of the length operand for `n` bytes. -/
def Spec.lengthHead (n : Nat) : Nat :=
  if n < 2 ^ 6 then n
  else if n < 2 ^ 14 then 64 + n / 2 ^ 8
  else if n < 2 ^ 22 then 128 + n / 2 ^ 16
  else 192 + n / 2 ^ 24

/-- Interface status values which round trip. The status of an unknown interface carries no interface
id on the wire: what is decoded first is its length operand. It survives only if deku leaves the id of
a unit `id_pat` variant unconsumed *and* the length operand does not start like a known interface id. -/
def InterfaceStatus.WF (cfg : Cfg) : InterfaceStatus → Prop
  | .host => True
  | .serial => True
  | .dash7 s => s.WF cfg
  | .other b => cfg.unitPatConsumes = false ∧ 4 ≤ b.length ∧ b.length < 2 ^ 30 ∧
      Spec.lengthHead b.length ≠ 0xD7

/-- Final status code or opaque bytes, as told by the interface id. -/
def InterfaceFinalStatus.WF (interfaceId : U8) : InterfaceFinalStatus → Prop
  | .dash7 _ => interfaceId = 0xD7
  | .other b => interfaceId ≠ 0xD7 ∧ b.length < 2 ^ 30

/-- Interface configuration towards DASH7; the execution delay does not exist for sub-iot. -/
def Dash7InterfaceConfiguration.WF (cfg : Cfg) (c : Dash7InterfaceConfiguration) : Prop :=
  c.dormantSessionTimeout.WF ∧ c.executionDelayTimeout.WF ∧ c.addressee.WF cfg ∧
  (cfg.variant = .subiot → c.executionDelayTimeout = ⟨0, false⟩)

/-- Keys of the fixed sizes. -/
def LoRaWANOTAAInterfaceConfiguration.WF (c : LoRaWANOTAAInterfaceConfiguration) : Prop :=
  c.deviceEui.length = 8 ∧ c.appEui.length = 8 ∧ c.appKey.length = 16

/-- Keys of the fixed sizes. -/
def LoRaWANABPInterfaceConfiguration.WF (c : LoRaWANABPInterfaceConfiguration) : Prop :=
  c.networkSessionKey.length = 16 ∧ c.appSessionKey.length = 16

/-- An `Unknown` interface must not carry the id of a known one. -/
def InterfaceConfiguration.WF (cfg : Cfg) : InterfaceConfiguration → Prop
  | .host => True
  | .serial => True
  | .loRaWanABP c => c.WF
  | .loRaWanOTAA c => c.WF
  | .dash7 c => c.WF cfg
  | .unknown i => i ≠ 0 ∧ i ≠ 1 ∧ i ≠ 2 ∧ i ≠ 3 ∧ i ≠ 0xD7

/-- An `Unknown` interface must not carry the id of a known one. -/
def IndirectInterface.WF (cfg : Cfg) : IndirectInterface → Prop
  | .host => True
  | .serial => True
  | .dash7 a => a.WF cfg
  | .unknown i => i ≠ 0 ∧ i ≠ 1 ∧ i ≠ 0xD7

/-! ## Queries -/

/-- Lengths and offsets in range, masks as long as declared (or absent). -/
def Query.WF : Query → Prop
  | .nonVoid q => q.length.WF ∧ q.file.WF
  | .comparisonWithZero q => q.length.WF ∧ q.file.WF ∧
      (if q.maskPresent then q.mask.length = q.length.toNat else q.mask = [])
  | .comparisonWithValue q => q.length.WF ∧ q.file.WF ∧ q.value.length = q.length.toNat ∧
      (if q.maskPresent then q.mask.length = q.length.toNat else q.mask = [])
  | .comparisonWithOtherFile q => q.length.WF ∧ q.file1.WF ∧ q.file2.WF ∧
      (if q.maskPresent then q.mask.length = q.length.toNat else q.mask = [])
  | .bitmapRangeComparison q => q.length.WF ∧ q.start.WF ∧ q.stop.WF ∧ q.file.WF ∧
      q.mask.length = q.length.toNat
  | .stringTokenSearch q => q.length.WF ∧ q.file.WF ∧ q.maxErrors.toNat < 8 ∧
      q.mask.length = q.length.toNat ∧ q.value.length = q.length.toNat

/-! ## Files -/

/-- Strings of exactly 6 and 7 UTF-8 bytes. -/
def FirmwareVersion.WF (f : FirmwareVersion) : Prop :=
  f.applicationName.utf8ByteSize = 6 ∧ f.gitSha1.utf8ByteSize = 7

/-- The stored count is the number of channels. -/
def PhyStatus.WF (p : PhyStatus) : Prop :=
  p.channelStatusListLength.toNat = p.channelStatus.length ∧ ∀ c ∈ p.channelStatus, c.WF

/-- The file ids with a structured content of their own. -/
def Spec.structuredFile : FileId → Bool
  | .accessProfile _ | .uId | .factorySettings | .firmwareVersion | .engineeringMode | .vId
  | .phyStatus | .dllConfig | .dllStatus | .networkSecurityKey => true
  | _ => false

/-- The content fits the file id and is well-formed. -/
def File.WF (fid : FileId) : File → Prop
  | .accessProfile i p => fid = .accessProfile i ∧ p.WF
  | .uId a => fid = .uId ∧ a.type = .uId
  | .factorySettings _ => fid = .factorySettings
  | .firmwareVersion f => fid = .firmwareVersion ∧ f.WF
  | .engineeringMode _ => fid = .engineeringMode
  | .vId a => fid = .vId ∧ a.type = .vId
  | .phyStatus f => fid = .phyStatus ∧ f.WF
  | .dllConfig _ => fid = .dllConfig
  | .dllStatus _ => fid = .dllStatus
  | .nwlSecurityKey _ => fid = .networkSecurityKey
  | .other b => Spec.structuredFile fid = false ∧ b.length < 2 ^ 30

/-! ## Actions -/

/-- The status matches its stored type; final status exists in the wizzilab build only. -/
def Op.Status.WF (cfg : Cfg) : Op.Status → Prop
  | .action _ => True
  | .interface o => o.interfaceType = o.status.type ∧ o.status.WF cfg
  | .interfaceFinal o => cfg.variant = .wizzilab ∧ o.status.WF o.interfaceId

/-- The redundant `overloaded` flag is right. -/
def Op.IndirectForward.WF (cfg : Cfg) (a : Op.IndirectForward) : Prop :=
  a.header.overloaded = a.configuration.isSome ∧ ∀ c, a.configuration = some c → c.WF cfg

/-- The opcode an action of this kind carries. -/
def Spec.opcodeOf : Action → Nat
  | .nop _ => 0 | .readFileData _ => 1 | .readFileProperties _ => 2 | .writeFileData _ => 4
  | .writeFileDataFlush _ => 5 | .writeFileProperties _ => 6 | .actionQuery _ => 8
  | .breakQuery _ => 9 | .permissionRequest _ => 10 | .verifyChecksum _ => 11 | .existFile _ => 16
  | .createNewFile _ => 17 | .deleteFile _ => 18 | .restoreFile _ => 19 | .flushFile _ => 20
  | .copyFile _ => 23 | .executeFile _ => 31 | .returnFileData _ => 32
  | .returnFileProperties _ => 33 | .status _ => 34 | .responseTag _ => 35 | .txStatus _ => 38
  | .chunk _ => 48 | .logic _ => 49 | .forward _ => 50 | .indirectForward _ => 51
  | .requestTag _ => 52 | .extension _ => 63

/-- The `opcode` field stored inside an action. -/
def Action.opcodeField : Action → OpCode
  | .nop o => o.opcode | .readFileData o => o.opcode | .readFileProperties o => o.opcode
  | .writeFileData o => o.opcode | .writeFileDataFlush o => o.opcode
  | .writeFileProperties o => o.opcode | .actionQuery o => o.opcode | .breakQuery o => o.opcode
  | .permissionRequest o => o.opcode | .verifyChecksum o => o.opcode | .existFile o => o.opcode
  | .createNewFile o => o.opcode | .deleteFile o => o.opcode | .restoreFile o => o.opcode
  | .flushFile o => o.opcode | .copyFile o => o.opcode | .executeFile o => o.opcode
  | .returnFileData o => o.opcode | .returnFileProperties o => o.opcode | .status o => o.opcode
  | .responseTag o => o.opcode | .txStatus o => o.opcode | .chunk o => o.opcode
  | .logic o => o.opcode | .forward o => o.opcode | .indirectForward o => o.opcode
  | .requestTag o => o.opcode | .extension o => o.opcode

/-- Operand fields in range. TX status actions (wizzilab) never round trip. -/
def Action.OperandWF (cfg : Cfg) : Action → Prop
  | .readFileData o => o.offset.WF ∧ o.length.WF
  | .writeFileData o | .writeFileDataFlush o | .returnFileData o =>
      o.offset.WF ∧ o.data.WF (FileId.ofId o.offset.fileId)
  | .actionQuery o | .breakQuery o | .verifyChecksum o => o.query.WF
  | .status o => o.statusType = o.status.type ∧ o.status.WF cfg
  | .forward o => o.configuration.WF cfg
  | .indirectForward o => o.WF cfg
  | .txStatus _ => False
  | _ => True

/-- A well-formed action: stored opcode as it should be, operands in range. -/
def Action.WF (cfg : Cfg) (a : Action) : Prop :=
  a.opcodeField.code.toNat = Spec.opcodeOf a ∧ a.OperandWF cfg

/-- Is this a TX status action (wizzilab build)? -/
def Action.isTx : Action → Bool
  | .txStatus _ => true
  | _ => false

/-- Is it the status of an interface of unknown type? -/
def Op.Status.isOther : Op.Status → Bool
  | .interface o => match o.status with
    | .other _ => true
    | _ => false
  | _ => false

/-- Does it carry the status of an interface of unknown type? -/
def Action.isOther : Action → Bool
  | .status o => o.status.isOther
  | _ => false

/-- Files whose length operand takes two bytes (counted in bits): the payload reaches 64 bytes although
the length declared in front of it need not have. -/
def File.slack : File → Nat
  | .accessProfile _ _ => 8
  | .phyStatus f => if 17 ≤ f.channelStatus.length then 8 else 0
  | _ => 0

/-- How much longer than what was read a re-encoding may be (bits). -/
def Action.slack : Action → Nat
  | .writeFileData o | .writeFileDataFlush o | .returnFileData o => o.data.slack
  | _ => 0

/-- Is this action an indirect forward? -/
def Action.isIndirectForward : Action → Bool
  | .indirectForward _ => true
  | _ => false

/-- A well-formed command: well-formed actions, an indirect forward at most at the end. -/
def Command.WF (cfg : Cfg) (c : Command) : Prop :=
  (∀ a ∈ c.actions, a.WF cfg) ∧ ∀ a ∈ c.actions.dropLast, a.isIndirectForward = false

/-- How many bytes behind the last action `Command::from_bytes` drops: one per action, and one more
per action and at the end if looking for the end of the input counts as reading. -/
def Spec.dropped (cfg : Cfg) (actions : Nat) : Nat :=
  if cfg.endCounts then 2 * actions + 1 else actions

/-- An indirect forward stands nowhere but at the end. -/
def Spec.forwardLast (as : List Action) : Prop := ∀ a ∈ as.dropLast, a.isIndirectForward = false

instance (as : List Action) : Decidable (Spec.forwardLast as) := by unfold Spec.forwardLast; infer_instance

/-- The last action is an indirect forward. -/
def Spec.endsWithForward (as : List Action) : Prop :=
  ∃ a, as.getLast? = some a ∧ a.isIndirectForward = true

end Dash7
