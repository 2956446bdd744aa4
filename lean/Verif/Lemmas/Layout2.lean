import Verif.Lemmas.Layout

/-!
# The layout of every type
-/

namespace Dash7
open Wire

theorem ChannelBand.fld (b : ChannelBand) : Fld b.write [(3, channelBand b)] :=
  Fld.enum (by decide) (by cases b <;> rfl)
theorem ChannelClass.fld (b : ChannelClass) : Fld b.write [(2, channelClass b)] :=
  Fld.enum (by decide) (by cases b <;> rfl)
theorem ChannelCoding.fld (b : ChannelCoding) : Fld b.write [(2, channelCoding b)] :=
  Fld.enum (by decide) (by cases b <;> rfl)
theorem Bandwidth.fld (b : Bandwidth) : Fld b.write [(2, bandwidth b)] :=
  Fld.enum (by decide) (by cases b <;> rfl)

theorem ChannelHeader.lay (h : ChannelHeader) : Lay h.write (channelHeader h) :=
  Lay.fld (Fld.cons Fld.pad (Fld.cons (ChannelBand.fld _) (Fld.cons (ChannelClass.fld _)
    (Fld.cons (ChannelCoding.fld _) Fld.nil)))) rfl

theorem Channel.lay (h : Channel) : Lay h.write (channel h) :=
  Lay.cons (ChannelHeader.lay _) (Lay.last Lay.uint16)

theorem ChannelStatus.lay (h : ChannelStatus) : Lay h.write (channelStatus h) :=
  Lay.cons (Lay.fld (Fld.cons (ChannelBand.fld _) (Fld.cons (Bandwidth.fld _)
    (Fld.cons (Fld.uint (by omega)) Fld.nil))) rfl) (Lay.last Lay.u8)

theorem SubBand.lay (h : SubBand) : Lay h.write (subBand h) :=
  Lay.cons Lay.uint16 (Lay.cons Lay.uint16 (Lay.raw_cons Lay.u8 (Lay.raw_cons Lay.u8
    (Lay.last Lay.u8))))

theorem SubProfile.lay (h : SubProfile) : Lay h.write (subProfile h) :=
  Lay.cons Lay.u8 (Lay.last (VarInt.lay _))

theorem AccessClass.lay (h : AccessClass) : Lay h.write (accessClass h) :=
  Lay.fld (Fld.cons (Fld.uint (by omega)) (Fld.cons (Fld.uint (by omega)) Fld.nil)) rfl

theorem AccessProfile.lay (h : AccessProfile) : Lay h.write (accessProfile h) := by
  unfold AccessProfile.write accessProfile
  rw [List.append_assoc]
  have h1 := Lay.seq1 (Lay.list SubBand.lay h.subBands.toList)
  have h2 := Lay.flat (Lay.list SubProfile.lay h.subProfiles.toList) h1
  exact Lay.cons (ChannelHeader.lay h.channelHeader) h2

theorem GroupCondition.fld (b : GroupCondition) : Fld b.write [(2, groupCondition b)] :=
  Fld.enum (by decide) (by cases b <;> rfl)
theorem AddressType.fld (b : AddressType) : Fld b.write [(2, addressType b)] :=
  Fld.enum (by decide) (by cases b <;> rfl)

theorem NlsState.lay (s : NlsState) : Lay s.write (nlsState s) := by
  cases s <;> first | exact Lay.nil' | exact Lay.bytes

theorem Address.lay (a : Address) : Lay a.write (address a) := by
  cases a
  · exact VarInt.lay _
  · exact Lay.nil'
  · exact Lay.uint64
  · exact Lay.uint16

theorem Addressee.lay (cfg : Cfg) (a : Addressee) : Lay (a.write cfg) (addressee cfg.variant a) := by
  unfold Addressee.write addressee
  refine Lay.cons ?_ (Lay.cons (AccessClass.lay _) (Lay.cons (Address.lay _) (Lay.last (NlsState.lay _))))
  unfold Addressee.writeCtl NlsMethod.write NlsMethod.width
  cases cfg.variant
  case wizzilab =>
    exact Lay.fld (Fld.cons (GroupCondition.fld _) (Fld.cons (AddressType.fld _) (Fld.cons Fld.flag
      (Fld.cons (Fld.enum (by decide) (by cases a.nlsMethod <;> rfl)) Fld.nil)))) rfl
  all_goals
    exact Lay.fld (Fld.cons Fld.pad (Fld.cons (AddressType.fld _)
      (Fld.cons (Fld.enum (by decide) (by cases a.nlsMethod <;> rfl)) Fld.nil))) rfl

/-! ## Files -/

theorem Data.UserPermissions.fld (u : Data.UserPermissions) :
    Fld u.writer [(1, u.read.toNat), (1, u.write.toNat), (1, u.executable.toNat)] :=
  Fld.cons Fld.flag (Fld.cons Fld.flag (Fld.cons Fld.flag Fld.nil))

theorem Data.FileHeader.lay (h : Data.FileHeader) : Lay h.write (fileHeader h) := by
  refine Lay.cons ?_ (Lay.cons ?_ (Lay.raw_cons Lay.u8 (Lay.cons Lay.u8
    (Lay.cons Lay.uint32 (Lay.last Lay.uint32)))))
  · exact Lay.fld (Fld.cons Fld.flag (Fld.cons Fld.flag (Fld.cons (UserPermissions.fld _)
      (Fld.cons (UserPermissions.fld _) Fld.nil)))) rfl
  · exact Lay.fld (Fld.cons Fld.flag (Fld.cons
      (Fld.enum (by decide) (by cases h.properties.condition <;> rfl)) (Fld.cons Fld.pad
      (Fld.cons (Fld.enum (by decide) (by cases h.properties.storageClass <;> rfl)) Fld.nil)))) rfl

theorem writeString_lay (n : Nat) (s : String) : Lay (writeString n s) (string n s) := Lay.bytes

theorem Lay.pad8 {k : Nat} : Lay (W.pad (8 * k)) (raw (List.replicate k 0)) := by
  unfold Lay W.pad raw
  simp only
  congr 1
  induction k with
  | zero => rfl
  | succ k ih =>
    rw [List.replicate_succ, bytesBits, ← ih, Nat.mul_succ, Nat.add_comm, List.replicate_append_replicate.symm]
    rfl

theorem DllConfig.lay (d : DllConfig) : Lay d.write (dllConfig d) := by
  have h := Lay.cons (Lay.pad8 (k := 2)) (Lay.raw_cons (Lay.u8 (v := d.lqFilter))
      (Lay.raw_cons (Lay.u8 (v := d.nfCtrl)) (Lay.raw_cons (Lay.u8 (v := d.rxNfMethodParameter))
        (Lay.last (Lay.u8 (v := d.txNfMethodParameter))))))
  rw [Lay.join_raw] at h
  exact Lay.single (Lay.seq1 (Lay.raw_cons (Lay.u8 (v := d.ac)) h))

theorem DllStatus.lay (d : DllStatus) : Lay d.write (dllStatus d) :=
  Lay.raw_cons Lay.u8 (Lay.raw_cons Lay.u8 (Lay.cons Lay.u8 (Lay.cons (ChannelHeader.lay _)
    (Lay.cons Lay.uint16 (Lay.cons Lay.uint16 (Lay.cons Lay.uint32 (Lay.last Lay.uint32)))))))

theorem EngineeringModeMethod.lay (m : EngineeringModeMethod) :
    Lay m.write (raw [engineeringModeMethod m]) := by cases m <;> exact Lay.u8

theorem EngineeringMode.lay (d : EngineeringMode) : Lay d.write (engineeringMode d) :=
  Lay.raw_cons (EngineeringModeMethod.lay _) (Lay.raw_cons Lay.u8 (Lay.cons Lay.u8
    (Lay.cons (Channel.lay _) (Lay.last Lay.u8))))

theorem FactorySettings.lay (d : FactorySettings) : Lay d.write (factorySettings d) := by
  unfold FactorySettings.write factorySettings
  refine Lay.cons Lay.u8 ?_
  iterate 9 refine Lay.cons Lay.uint32 ?_
  iterate 10 refine Lay.raw_cons Lay.u8 ?_
  exact Lay.cons Lay.u8 (Lay.cons Lay.uint32 (Lay.raw_cons Lay.u8 (Lay.cons Lay.u8 (Lay.last Lay.uint16))))

theorem FirmwareVersion.lay (d : FirmwareVersion) : Lay d.write (firmwareVersion d) :=
  Lay.raw_cons Lay.u8 (Lay.cons Lay.u8 (Lay.cons (writeString_lay _ _) (Lay.last (writeString_lay _ _))))

theorem PhyStatus.lay (d : PhyStatus) : Lay d.write (phyStatus d) :=
  Lay.cons Lay.uint32 (Lay.cons Lay.uint32 (Lay.cons Lay.uint32 (Lay.cons Lay.uint16
    (Lay.cons Lay.u8 (Lay.seq1 (Lay.list ChannelStatus.lay _))))))

theorem SecurityKey.lay (cfg : Cfg) (d : SecurityKey) :
    Lay (d.write cfg) (securityKey cfg.bigEndianHost d) := Lay.seq1 Lay.uintHost

theorem File.lay (cfg : Cfg) (f : File) : Lay (f.write cfg) (file cfg.bigEndianHost f) := by
  cases f
  · exact AccessProfile.lay _
  · exact Address.lay _
  · exact FactorySettings.lay _
  · exact FirmwareVersion.lay _
  · exact EngineeringMode.lay _
  · exact Address.lay _
  · exact PhyStatus.lay _
  · exact DllConfig.lay _
  · exact DllStatus.lay _
  · exact SecurityKey.lay _ _
  · exact Lay.bytes

/-! ## Interfaces -/

theorem InterfaceType.lay (t : InterfaceType) : Lay t.write (interfaceType t) := by
  cases t <;> first | exact Lay.u8 | exact Lay.nil'

theorem QoS.lay (q : QoS) : Lay q.write (qos q) :=
  Lay.fld (Fld.cons Fld.flag (Fld.cons Fld.flag (Fld.cons
    (Fld.enum (by decide) (by cases q.retryMode <;> rfl)) (Fld.cons
    (Fld.enum (by decide) (by cases q.responseMode <;> rfl)) Fld.nil)))) rfl

theorem Dash7InterfaceStatus.lay (cfg : Cfg) (s : Dash7InterfaceStatus) :
    Lay (s.write cfg) (dash7InterfaceStatus cfg.variant s) := by
  refine Lay.cons (Channel.lay _) (Lay.raw_cons Lay.u8 (Lay.raw_cons Lay.u8 (Lay.cons Lay.u8 ?_)))
  refine Lay.split 5 (Fld.cons Fld.flag (Fld.cons Fld.flag (Fld.cons Fld.flag (Fld.cons Fld.flag
    (Fld.cons Fld.pad Fld.nil))))) rfl ?_
  exact Lay.raw_cons Lay.u8 (Lay.cons Lay.u8 (Lay.cons (VarInt.lay _) (Lay.last (Addressee.lay _ _))))

theorem InterfaceStatus.lay (cfg : Cfg) (s : InterfaceStatus) :
    Lay (s.write cfg) (interfaceStatus cfg.variant s) := by
  cases s
  · exact Lay.nil'
  · exact Lay.nil'
  · exact Dash7InterfaceStatus.lay _ _
  · exact Lay.bytes

theorem InterfaceFinalStatus.lay (s : InterfaceFinalStatus) : Lay s.write (interfaceFinalStatus s) := by
  cases s
  · exact Lay.u8
  · exact Lay.bytes

theorem Dash7InterfaceTxStatus.lay (cfg : Cfg) (s : Dash7InterfaceTxStatus) :
    Lay (s.write cfg) (dash7InterfaceTxStatus cfg.variant cfg.bigEndianHost s) := by
  refine Lay.cons (Channel.lay _) (Lay.raw_cons Lay.u8 (Lay.raw_cons Lay.u8
    (Lay.cons (Lay.pad8 (k := 3)) (Lay.cons ?_ (Lay.last (Addressee.lay _ _))))))
  exact Lay.uintHost

theorem InterfaceTxStatus.lay (cfg : Cfg) (s : InterfaceTxStatus) :
    Lay (s.write cfg) (interfaceTxStatus cfg.variant cfg.bigEndianHost s) := by
  cases s
  · exact Dash7InterfaceTxStatus.lay _ _
  · exact Lay.bytes

theorem Dash7InterfaceConfiguration.lay (cfg : Cfg) (c : Dash7InterfaceConfiguration) :
    Lay (c.write cfg) (dash7InterfaceConfiguration cfg.variant c) := by
  refine Lay.cons (QoS.lay _) (Lay.cons (VarInt.lay _) (Lay.cons ?_ (Lay.last (Addressee.lay _ _))))
  unfold writeExecutionDelay
  cases cfg.variant
  · exact VarInt.lay _
  · exact Lay.nil'
  · exact VarInt.lay _

theorem LoRaWANInterfaceConfiguration.lay (c : LoRaWANInterfaceConfiguration) :
    Lay c.write (loRaWAN c) :=
  Lay.split 4 (Fld.cons Fld.pad (Fld.cons Fld.flag (Fld.cons Fld.flag (Fld.cons Fld.pad Fld.nil)))) rfl
    (Lay.raw_cons Lay.u8 (Lay.last Lay.u8))

theorem LoRaWANOTAAInterfaceConfiguration.lay (c : LoRaWANOTAAInterfaceConfiguration) :
    Lay c.write (loRaWANOTAA c) :=
  Lay.cons (LoRaWANInterfaceConfiguration.lay _) (Lay.cons Lay.bytes (Lay.cons Lay.bytes
    (Lay.last Lay.bytes)))

theorem LoRaWANABPInterfaceConfiguration.lay (cfg : Cfg) (c : LoRaWANABPInterfaceConfiguration) :
    Lay (c.write cfg) (loRaWANABP cfg.bigEndianHost c) := by
  refine Lay.cons (LoRaWANInterfaceConfiguration.lay _) (Lay.cons Lay.bytes (Lay.cons Lay.bytes
    (Lay.cons ?_ (Lay.last ?_)))) <;> exact Lay.uintHost

theorem InterfaceConfiguration.lay (cfg : Cfg) (c : InterfaceConfiguration) :
    Lay (c.write cfg) (interfaceConfiguration cfg.variant cfg.bigEndianHost c) := by
  cases c
  · exact Lay.seq1 Lay.u8
  · exact Lay.seq1 Lay.u8
  · exact Lay.cons Lay.u8 (Lay.last (LoRaWANABPInterfaceConfiguration.lay _ _))
  · exact Lay.cons Lay.u8 (Lay.last (LoRaWANOTAAInterfaceConfiguration.lay _))
  · exact Lay.cons Lay.u8 (Lay.last (Dash7InterfaceConfiguration.lay _ _))
  · exact Lay.seq1 Lay.u8

theorem IndirectInterface.lay (cfg : Cfg) (c : IndirectInterface) :
    Lay (c.write cfg) (indirectInterface cfg.variant c) := by
  cases c
  · exact Lay.seq1 Lay.u8
  · exact Lay.seq1 Lay.u8
  · exact Lay.cons Lay.u8 (Lay.last (Addressee.lay _ _))
  · exact Lay.seq1 Lay.u8

/-! ## Queries -/

theorem W.seq_flat (a : W) (ws : List W) : W.seq [a, W.seq ws] = W.seq (a :: ws) := by
  rw [show a :: ws = [a] ++ ws from rfl, W.seq_append, W.seq_singleton]

theorem ArithmeticQueryParams.fld (p : ArithmeticQueryParams) :
    Fld p.write [(1, p.signed.toNat), (3, arithmeticComparison p.comparisonType)] :=
  Fld.cons Fld.flag (Fld.cons (Fld.enum (by decide) (by cases p.comparisonType <;> rfl)) Fld.nil)
theorem RangeQueryParams.fld (p : RangeQueryParams) :
    Fld p.write [(1, p.signed.toNat), (3, rangeComparison p.comparisonType)] :=
  Fld.cons Fld.flag (Fld.cons (Fld.enum (by decide) (by cases p.comparisonType <;> rfl)) Fld.nil)

theorem Query.lay (q : Query) : Lay q.write (query q) := by
  cases q with
  | nonVoid q =>
    unfold Query.write NonVoid.write
    dsimp only
    rw [W.seq_flat]
    exact Lay.split 2 (Fld.cons (Fld.enum (by decide) rfl) (Fld.cons Fld.pad Fld.nil)) rfl
      (Lay.cons (Length.lay _) (Lay.last (FileOffset.lay _)))
  | comparisonWithZero q =>
    unfold Query.write ComparisonWithZero.write
    dsimp only
    rw [W.seq_flat]
    exact Lay.split 3 (Fld.cons (Fld.enum (by decide) rfl) (Fld.cons Fld.flag
      (Fld.cons (ArithmeticQueryParams.fld _) Fld.nil))) rfl
      (Lay.cons (Length.lay _) (Lay.cons Lay.bytes (Lay.last (FileOffset.lay _))))
  | comparisonWithValue q =>
    unfold Query.write ComparisonWithValue.write
    dsimp only
    rw [W.seq_flat]
    exact Lay.split 3 (Fld.cons (Fld.enum (by decide) rfl) (Fld.cons Fld.flag
      (Fld.cons (ArithmeticQueryParams.fld _) Fld.nil))) rfl
      (Lay.cons (Length.lay _) (Lay.cons Lay.bytes (Lay.cons Lay.bytes (Lay.last (FileOffset.lay _)))))
  | comparisonWithOtherFile q =>
    unfold Query.write ComparisonWithOtherFile.write
    dsimp only
    rw [W.seq_flat]
    exact Lay.split 3 (Fld.cons (Fld.enum (by decide) rfl) (Fld.cons Fld.flag
      (Fld.cons (ArithmeticQueryParams.fld _) Fld.nil))) rfl
      (Lay.cons (Length.lay _) (Lay.cons Lay.bytes (Lay.cons (FileOffset.lay _)
        (Lay.last (FileOffset.lay _)))))
  | bitmapRangeComparison q =>
    unfold Query.write BitmapRangeComparison.write
    dsimp only
    rw [W.seq_flat]
    exact Lay.split 3 (Fld.cons (Fld.enum (by decide) rfl) (Fld.cons Fld.flag
      (Fld.cons (RangeQueryParams.fld _) Fld.nil))) rfl
      (Lay.cons (Length.lay _) (Lay.cons (Length.lay _) (Lay.cons (Length.lay _)
        (Lay.cons Lay.bytes (Lay.last (FileOffset.lay _))))))
  | stringTokenSearch q =>
    unfold Query.write StringTokenSearch.write
    dsimp only
    rw [W.seq_flat]
    exact Lay.split 4 (Fld.cons (Fld.enum (by decide) rfl) (Fld.cons Fld.flag
      (Fld.cons Fld.pad (Fld.cons (Fld.uint (by omega)) Fld.nil)))) rfl
      (Lay.cons (Length.lay _) (Lay.cons Lay.bytes (Lay.cons Lay.bytes (Lay.last (FileOffset.lay _)))))

/-! ## Actions -/

theorem ActionHeader.fld (h : ActionHeader) : Fld h.write [(1, h.group.toNat), (1, h.response.toNat)] :=
  Fld.cons Fld.flag (Fld.cons Fld.flag Fld.nil)
theorem Op.ResponseTagHeader.fld (h : Op.ResponseTagHeader) :
    Fld h.write [(1, h.endOfPacket.toNat), (1, h.error.toNat)] :=
  Fld.cons Fld.flag (Fld.cons Fld.flag Fld.nil)
theorem Op.IndirectForwardHeader.fld (h : Op.IndirectForwardHeader) :
    Fld h.write [(1, h.overloaded.toNat), (1, h.response.toNat)] :=
  Fld.cons Fld.flag (Fld.cons Fld.flag Fld.nil)

theorem OpCode.fld {c : OpCode} {k : Nat} (h : c.code.toNat = k) : Fld c.write [(6, k)] :=
  Fld.enum (by decide) h

/-- Header, opcode, operand. -/
theorem Lay.header {h : ActionHeader} {op : OpCode} {k : Nat} (hk : op.code.toNat = k) {ws : List W}
    {os : List (Option (List U8))} (hw : Lay (W.seq ws) (join os)) :
    Lay (W.seq (h.write :: op.write :: ws)) (join (Wire.header h k :: os)) :=
  Lay.split 2 (Fld.cons (ActionHeader.fld h) (Fld.cons (OpCode.fld hk) Fld.nil)) rfl hw

theorem Op.FileId.lay {op : OpCode} {k : Nat} (hk : op.code.toNat = k) (o : Op.FileId) :
    Lay (o.write op) (Wire.fileId k o) := Lay.header hk (Lay.last Lay.u8)
theorem Op.FileData.lay {op : OpCode} {k : Nat} (hk : op.code.toNat = k) (cfg : Cfg) (o : Op.FileData) :
    Lay (o.write cfg op) (fileData cfg.bigEndianHost k o) :=
  Lay.header hk (Lay.cons (FileOffset.lay _) (Lay.last (writeLengthPrefixed_lay (File.lay _ _))))
theorem Op.FileProperties.lay {op : OpCode} {k : Nat} (hk : op.code.toNat = k) (o : Op.FileProperties) :
    Lay (o.write op) (fileProperties k o) :=
  Lay.header hk (Lay.cons Lay.u8 (Lay.last (Data.FileHeader.lay _)))
theorem Op.ActionQuery.lay {op : OpCode} {k : Nat} (hk : op.code.toNat = k) (o : Op.ActionQuery) :
    Lay (o.write op) (actionQuery k o) := Lay.header hk (Lay.last (Query.lay _))

theorem Op.Status.lay (cfg : Cfg) (s : Op.Status) : Lay (s.write cfg) (status cfg.variant s) := by
  cases s
  · exact Lay.raw_cons Lay.u8 (Lay.last Lay.u8)
  · exact Lay.cons (InterfaceType.lay _) (Lay.last (writeLengthPrefixed_lay (InterfaceStatus.lay _ _)))
  · exact Lay.cons Lay.u8 (Lay.last (writeLengthPrefixed_lay (InterfaceFinalStatus.lay _)))

theorem PermissionLevel.lay (l : PermissionLevel) : Lay l.write (raw [permissionLevel l]) := by
  cases l <;> exact Lay.u8

theorem Permission.lay (l : Permission) : Lay l.write (permission l) := by
  cases l with
  | dash7 b => exact Lay.single (Lay.seq1 (Lay.raw_cons Lay.u8 (Lay.last Lay.bytes)))

theorem Action.lay (cfg : Cfg) (a : Action) (ha : ∀ o, a ≠ .txStatus o) :
    Lay (a.write cfg) (action cfg.variant cfg.bigEndianHost a) := by
  cases a with
  | nop o =>
    unfold Action.write Op.Nop.write
    exact Lay.fld (Fld.cons (ActionHeader.fld _) (Fld.cons (OpCode.fld rfl) Fld.nil)) rfl
  | readFileData o => exact Lay.header rfl (Lay.cons (FileOffset.lay _) (Lay.last (Length.lay _)))
  | readFileProperties o => exact Op.FileId.lay rfl _
  | writeFileData o => exact Op.FileData.lay rfl _ _
  | writeFileDataFlush o => exact Op.FileData.lay rfl _ _
  | writeFileProperties o => exact Op.FileProperties.lay rfl _
  | actionQuery o => exact Op.ActionQuery.lay rfl _
  | breakQuery o => exact Op.ActionQuery.lay rfl _
  | permissionRequest o =>
    exact Lay.header rfl (Lay.cons (PermissionLevel.lay _) (Lay.last (Permission.lay _)))
  | verifyChecksum o => exact Op.ActionQuery.lay rfl _
  | existFile o => exact Op.FileId.lay rfl _
  | createNewFile o => exact Op.FileProperties.lay rfl _
  | deleteFile o => exact Op.FileId.lay rfl _
  | restoreFile o => exact Op.FileId.lay rfl _
  | flushFile o => exact Op.FileId.lay rfl _
  | copyFile o => exact Lay.header rfl (Lay.raw_cons Lay.u8 (Lay.last Lay.u8))
  | executeFile o => exact Op.FileId.lay rfl _
  | returnFileData o => exact Op.FileData.lay rfl _ _
  | returnFileProperties o => exact Op.FileProperties.lay rfl _
  | status o =>
    exact Lay.split 2 (Fld.cons (Fld.enum (by decide) (by cases o.statusType <;> rfl))
      (Fld.cons (OpCode.fld rfl) Fld.nil)) rfl (Lay.last (Op.Status.lay _ _))
  | responseTag o =>
    exact Lay.split (ws := [o.header.write, OpCode.write (Action.opcode (.responseTag o)), W.u8 o.id]) 2 (Fld.cons (Op.ResponseTagHeader.fld _) (Fld.cons (OpCode.fld rfl) Fld.nil)) rfl
      (Lay.last Lay.u8)
  | txStatus o => exact absurd rfl (ha o)
  | chunk o =>
    unfold Action.write Op.Chunk.write
    exact Lay.fld (Fld.cons (Fld.enum (by decide) (by cases o.step <;> rfl))
      (Fld.cons (OpCode.fld rfl) Fld.nil)) rfl
  | logic o =>
    unfold Action.write Op.Logic.write
    exact Lay.fld (Fld.cons (Fld.enum (by decide) (by cases o.logic <;> rfl))
      (Fld.cons (OpCode.fld rfl) Fld.nil)) rfl
  | forward o =>
    exact Lay.split 3 (Fld.cons Fld.pad (Fld.cons Fld.flag (Fld.cons (OpCode.fld rfl) Fld.nil))) rfl
      (Lay.last (InterfaceConfiguration.lay _ _))
  | indirectForward o =>
    exact Lay.split 2 (Fld.cons (Op.IndirectForwardHeader.fld _) (Fld.cons (OpCode.fld rfl) Fld.nil)) rfl
      (Lay.last (Lay.opt (IndirectInterface.lay _) _))
  | requestTag o =>
    exact Lay.split (ws := [W.flag o.endOfPacket, W.pad 1, OpCode.write (Action.opcode (.requestTag o)), W.u8 o.id]) 3 (Fld.cons Fld.flag (Fld.cons Fld.pad (Fld.cons (OpCode.fld rfl) Fld.nil))) rfl
      (Lay.last Lay.u8)
  | extension o =>
    unfold Action.write Op.Extension.write
    exact Lay.fld (Fld.cons (ActionHeader.fld _) (Fld.cons (OpCode.fld rfl) Fld.nil)) rfl

theorem Command.lay (cfg : Cfg) (c : Command) (hc : ∀ o, Action.txStatus o ∉ c.actions) :
    Lay (c.write cfg) (command cfg.variant cfg.bigEndianHost c) := by
  obtain ⟨l⟩ := c
  unfold Command.write command W.list
  dsimp only at hc ⊢
  induction l with
  | nil => exact Lay.nil
  | cons a l ih =>
    refine Lay.cons (Action.lay cfg a fun o h => hc o (by simp [h])) (ih fun o h => hc o (by simp [h]))

end Dash7
