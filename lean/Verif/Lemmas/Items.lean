import Verif.Spec.Items
import Verif.Lemmas.Offset
import Verif.Lemmas.Accept7
import Verif.Lemmas.Frame

/-!
# Types read on their own
-/

namespace Dash7
open Spec

theorem CsmaCaMode.fits : Fits CsmaCaMode.read (fun b => Form.field 4 (Wire.csmaCaMode b)) := by tbl
theorem CsmaCaMode.rt (b : CsmaCaMode) : RT read b.write b := by
  cases b <;> exact RT.enum (by decide) (by decide) (by decide)
theorem CsmaCaMode.post : Post read fun _ n => True ∧ n = 4 := Post.enum.mono fun _ _ h => ⟨trivial, h.1⟩

theorem Form.behind_iff (k : Nat) (hk : k < 8) (fs : List Form) (c : List Bool) :
    (∃ type, type.length = 3 ∧ Form.all (Form.field 3 k :: fs) (type ++ c)) ↔ Form.all fs c := by
  constructor
  · rintro ⟨t, ht, a, b, hab, ⟨ha, -⟩, hb⟩
    obtain ⟨rfl, rfl⟩ := List.append_inj hab (ht.trans ha.symm)
    exact hb
  · intro h
    refine ⟨natBits 3 k, natBits_length .., _, _, rfl, ⟨natBits_length .., ?_⟩, h⟩
    rw [Form.value_eq, bitsNat_natBits, Nat.mod_eq_of_lt (by omega)]

theorem Form.queryBehindType_iff (q : Query) (c : List Bool) : Form.queryBehindType q c ↔ queryBody q c := by
  cases q <;> exact Form.behind_iff _ (by decide) _ c

theorem File.bare_fits (cfg : Cfg) :
    Fits (File.read cfg .other 0) (fun f => Form.given (f = .other [])) := by
  intro f c s
  simp only [File.read]
  constructor
  · intro h
    have h' : Except.ok (File.other [], c ++ s) = Except.ok (f, s) := h
    simp only [Except.ok.injEq, Prod.mk.injEq] at h'
    exact ⟨by simpa using h'.2, h'.1.symm⟩
  · rintro ⟨rfl, rfl⟩
    rfl

theorem Dash7InterfaceConfiguration.bits_dvd (cfg : Cfg) (c : Dash7InterfaceConfiguration) : 8 ∣ c.bits cfg := by
  have := c.addressee.bits_dvd
  unfold bits
  split <;> omega

theorem ForegroundFrameControl.post : Post read fun c n => c.eirpIndex.toNat < 64 ∧ n = 8 := by
  unfold read
  refine Post.bind AddressType.post fun _ _ ⟨_, h1⟩ => Post.bind Post.uint fun _ _ h => Post.pure ⟨h.2.2.1, ?_⟩
  omega
theorem BackgroundFrameControl.post : Post read fun c n => c.tagId.toNat < 64 ∧ n = 8 := by
  unfold read
  refine Post.bind AddressType.post fun _ _ ⟨_, h1⟩ => Post.bind Post.uint fun _ _ h => Post.pure ⟨h.2.2.1, ?_⟩
  omega
theorem BackgroundFrameControl.rt {c : BackgroundFrameControl} (h : c.tagId.toNat < 64) : RT read c.write c := by
  unfold read write
  exact RT.cons (AddressType.rt _) (RT.cons (RT.uint (by omega) h) (RT.pure _))

theorem Trans.Control.post : Post read fun _ n => True ∧ n = 7 := by
  unfold read; post
theorem Trans.AckTemplate.post : Post read fun _ n => True ∧ n = 16 := by
  unfold read; post
theorem Net.HoppingControl.post : Post read fun _ n => True ∧ n = 8 := by
  unfold read; post
theorem Net.Control.post (cfg : Cfg) : Post (read cfg) fun _ n => True ∧ n = 5 + NlsMethod.width cfg := by
  unfold read; post

/-- The interface id is `0xD7` exactly for DASH7 statuses, and the length fits its field. -/
def Spec.TxStatusBody (cfg : Cfg) (o : Op.InterfaceTxStatusOperation) : Prop :=
  match o.status with
  | .dash7 s => o.interfaceId = 0xD7 ∧ s.addressee.WF cfg
  | .other b => o.interfaceId ≠ 0xD7 ∧ b.length < 2 ^ 30

theorem Op.InterfaceTxStatusOperation.full_post (cfg : Cfg) :
    Post (read cfg) fun o n => TxStatusBody cfg o ∧ 8 ∣ n := by
  unfold read
  refine Post.bind Post.u8 fun i n1 ⟨e1, w1⟩ => ?_
  refine Post.bind Length.post' fun l n2 ⟨h1, w2, k, hk, e2⟩ => ?_
  unfold InterfaceTxStatus.read
  split
  · rename_i hi
    refine Post.bind (txDash7_post cfg) ?_
    rintro _ n3 ⟨c, rfl, h3, e3⟩
    have := c.addressee.bits_dvd
    exact Post.pure ⟨⟨hi, h3⟩, by omega⟩
  · rename_i hi
    refine Post.bind (someBytes_post (f := InterfaceTxStatus.other)) ?_
    rintro _ n3 ⟨x, rfl, h3, e3⟩
    refine Post.pure ⟨⟨hi, ?_⟩, by omega⟩
    rw [h3]
    exact h1

theorem Op.InterfaceTxStatusOperation.rt {cfg : Cfg} {o : Op.InterfaceTxStatusOperation}
    (h : TxStatusBody cfg o) : RT (read cfg) (o.write cfg) o := by
  obtain ⟨i, s⟩ := o
  unfold read write
  refine RT.cons (RT.u8 i) ?_
  rw [W.seq_singleton]
  cases s with
  | dash7 c =>
    obtain ⟨h1, h2⟩ := h
    dsimp only at h1
    subst h1
    obtain ⟨bs, hw, hd⟩ := Dash7InterfaceTxStatus.rt (cfg := cfg) (s := c) h2
    have hp := (Dash7InterfaceTxStatus.post cfg bs [] c (hd [])).2
    have := c.addressee.bits_dvd
    refine lengthPrefixed_rt (k := fun l =>
      (InterfaceTxStatus.read cfg 0xD7 l).bind fun s =>
        .pure (Op.InterfaceTxStatusOperation.mk 0xD7 s)) (bs := bs) hw
      (by omega) (by omega) fun l _ rest => ?_
    simp only [InterfaceTxStatus.read, if_true, P.bind_eq]
    rw [P.eval_bind, P.eval_bind, hd rest]
    rfl
  | other b =>
    obtain ⟨h1, h2⟩ := h
    refine lengthPrefixed_rt (k := fun l =>
      (InterfaceTxStatus.read cfg i l).bind fun s =>
        .pure (Op.InterfaceTxStatusOperation.mk i s)) (bs := bytesBits b) (W.list_u8 b)
      (by rw [bytesBits_length]; omega)
      (by rw [bytesBits_length]; omega) fun l hl rest => ?_
    rw [bytesBits_length] at hl
    obtain ⟨y, hy, hdy⟩ := RT.bytes (l := b) (n := l.toNat) (by omega)
    rw [W.list_u8] at hy; cases hy
    simp only [InterfaceTxStatus.read, if_neg h1, P.bind_eq]
    rw [P.eval_bind, P.eval_bind, hdy rest]
    rfl


theorem Item.fits (cfg : Cfg) (i : Item) : Fits (i.read cfg) (Form.item cfg i) := by
  cases i with
  | bandwidth => exact Bandwidth.fits
  | channelBand => exact ChannelBand.fits
  | channelClass => exact ChannelClass.fits
  | channelCoding => exact ChannelCoding.fits
  | csmaCaMode => exact CsmaCaMode.fits
  | channelHeader => exact ChannelHeader.fits
  | channel => exact Channel.fits
  | channelStatusIdentifier => exact ChannelStatusIdentifier.fits
  | channelStatus => exact ChannelStatus.fits
  | subBand => exact SubBand.fits
  | subProfile => exact SubProfile.fits
  | accessClass => exact AccessClass.fits
  | accessProfile => exact AccessProfile.fits
  | groupCondition => exact GroupCondition.fits
  | addressType => exact AddressType.fits
  | nlsMethod =>
    refine (NlsMethod.fits cfg).conv fun m c => ?_
    simp only [Form.item, NlsMethod.width]
    cases cfg.variant <;> rfl
  | addressee => exact Addressee.fits cfg
  | varInt => exact VarInt.fits
  | length => exact Length.fits
  | fileOffset => exact FileOffset.fits
  | actionCondition => exact Data.ActionCondition.fits
  | storageClass => exact Data.StorageClass.fits
  | userPermissions => exact Data.UserPermissions.fits
  | filePermissions => exact Data.FilePermissions.fits
  | fileProperties => exact Data.FileProperties.fits
  | fileHeader => exact Data.FileHeader.fits
  | dllConfig => exact DllConfig.fits
  | dllStatus => exact DllStatus.fits
  | engineeringModeMethod => exact EngineeringModeMethod.fits
  | engineeringMode => exact EngineeringMode.fits
  | factorySettings => exact FactorySettings.fits
  | firmwareVersion => exact FirmwareVersion.fits
  | phyStatus => exact PhyStatus.fits
  | securityKey => exact SecurityKey.fits cfg
  | file => exact File.bare_fits cfg
  | responseMode => exact ResponseMode.fits
  | retryMode => exact RetryMode.fits
  | qos => exact QoS.fits
  | dash7InterfaceStatus => exact Dash7InterfaceStatus.fits cfg
  | finalStatusCode => exact InterfaceFinalStatusCode.fits
  | dash7InterfaceTxStatus => exact Dash7InterfaceTxStatus.fits cfg
  | dash7InterfaceConfiguration => exact Dash7InterfaceConfiguration.fits cfg
  | loRaWAN => exact LoRaWANInterfaceConfiguration.fits
  | loRaWANOTAA => exact LoRaWANOTAAInterfaceConfiguration.fits
  | loRaWANABP => exact LoRaWANABPInterfaceConfiguration.fits cfg
  | interfaceConfiguration => exact InterfaceConfiguration.fits cfg
  | indirectInterface => exact IndirectInterface.fits cfg
  | arithmeticComparisonType => exact ArithmeticComparisonType.fits
  | arithmeticQueryParams => exact ArithmeticQueryParams.fits
  | rangeComparisonType => exact RangeComparisonType.fits
  | rangeQueryParams => exact RangeQueryParams.fits
  | query => exact Query.fits
  | nonVoid => exact (NonVoid.fits).conv fun q c => (Form.queryBehindType_iff _ c).symm
  | comparisonWithZero => exact (ComparisonWithZero.fits).conv fun q c => (Form.queryBehindType_iff _ c).symm
  | comparisonWithValue => exact (ComparisonWithValue.fits).conv fun q c => (Form.queryBehindType_iff _ c).symm
  | comparisonWithOtherFile => exact (ComparisonWithOtherFile.fits).conv fun q c => (Form.queryBehindType_iff _ c).symm
  | bitmapRangeComparison => exact (BitmapRangeComparison.fits).conv fun q c => (Form.queryBehindType_iff _ c).symm
  | stringTokenSearch => exact (StringTokenSearch.fits).conv fun q c => (Form.queryBehindType_iff _ c).symm
  | opCode => exact OpCode.fits
  | statusCode => exact StatusCode.fits
  | actionStatus => exact ActionStatus.fits
  | permission => exact Permission.fits
  | permissionLevel => exact PermissionLevel.fits
  | actionHeader => exact ActionHeader.fits
  | statusType => exact StatusType.fits
  | status => exact Status.fits cfg .action
  | interfaceStatusOperation => exact InterfaceStatusOperation.fits cfg
  | interfaceFinalStatusOperation => exact InterfaceFinalStatusOperation.fits
  | interfaceTxStatusOperation => exact InterfaceTxStatusOperation.fits cfg
  | responseTagHeader => exact ResponseTagHeader.fits
  | chunkStep => exact ChunkStep.fits
  | logicOp => exact LogicOp.fits
  | indirectForwardHeader => exact IndirectForwardHeader.fits
  | forwardHeader => exact ForwardHeader.fits
  | requestTagHeader => exact RequestTagHeader.fits
  | txStatusType => exact TxStatusType.fits
  | transControl => exact Trans.Control.fits
  | ackTemplate => exact Trans.AckTemplate.fits
  | netControl => exact Net.Control.fits cfg
  | hoppingControl => exact Net.HoppingControl.fits
  | foregroundFrameControl => exact ForegroundFrameControl.fits
  | backgroundFrameControl => exact BackgroundFrameControl.fits
  | backgroundFrame => exact BackgroundFrame.fits cfg

theorem Item.post (cfg : Cfg) (i : Item) : Post (i.read cfg) fun v n =>
    (¬ unknownInterface i v → RT (i.read cfg) (i.write cfg v) v) ∧ n % 8 = bitsOver cfg i := by
  cases i with
  | bandwidth => exact Post.mono (Bandwidth.post) fun v n h => ⟨fun _ => Bandwidth.rt v, by rw [h.2]; rfl⟩
  | channelBand => exact Post.mono (ChannelBand.post) fun v n h => ⟨fun _ => ChannelBand.rt v, by rw [h.2]; rfl⟩
  | channelClass => exact Post.mono (ChannelClass.post) fun v n h => ⟨fun _ => ChannelClass.rt v, by rw [h.2]; rfl⟩
  | channelCoding => exact Post.mono (ChannelCoding.post) fun v n h => ⟨fun _ => ChannelCoding.rt v, by rw [h.2]; rfl⟩
  | csmaCaMode => exact Post.mono (CsmaCaMode.post) fun v n h => ⟨fun _ => CsmaCaMode.rt v, by rw [h.2]; rfl⟩
  | channelHeader => exact Post.mono (ChannelHeader.post) fun v n h => ⟨fun _ => ChannelHeader.rt v, by rw [h.2]; rfl⟩
  | channel => exact Post.mono (Channel.post) fun v n h => ⟨fun _ => Channel.rt v, by rw [h.2]; rfl⟩
  | channelStatusIdentifier => exact Post.mono (ChannelStatusIdentifier.post) fun v n h => ⟨fun _ => ChannelStatusIdentifier.rt h.1, by rw [h.2]; rfl⟩
  | channelStatus => exact Post.mono (ChannelStatus.post) fun v n h => ⟨fun _ => ChannelStatus.rt h.1, by rw [h.2]; rfl⟩
  | subBand => exact Post.mono (SubBand.post) fun v n h => ⟨fun _ => SubBand.rt v, by rw [h.2]; rfl⟩
  | subProfile => exact Post.mono (SubProfile.post) fun v n h => ⟨fun _ => SubProfile.rt h.1, by rw [h.2]; rfl⟩
  | accessClass => exact Post.mono (AccessClass.post) fun v n h => ⟨fun _ => AccessClass.rt h.1, by rw [h.2]; rfl⟩
  | accessProfile => exact Post.mono (AccessProfile.post) fun v n h => ⟨fun _ => AccessProfile.rt h.1, by rw [h.2]; rfl⟩
  | groupCondition => exact Post.mono (GroupCondition.post) fun v n h => ⟨fun _ => GroupCondition.rt v, by rw [h.2]; rfl⟩
  | addressType => exact Post.mono (AddressType.post) fun v n h => ⟨fun _ => AddressType.rt v, by rw [h.2]; rfl⟩
  | nlsMethod =>
    refine Post.mono (NlsMethod.post cfg) fun v n h => ⟨fun _ => NlsMethod.rt cfg v, ?_⟩
    rw [h.2]
    simp only [NlsMethod.width, bitsOver]
    cases cfg.variant <;> rfl
  | addressee => exact Post.mono (Addressee.post cfg) fun v n h => ⟨fun _ => Addressee.rt h.1, by
    have := Addressee.bits_dvd v; have := h.2; simp only [bitsOver]; omega⟩
  | varInt => exact Post.mono (VarInt.post) fun v n h => ⟨fun _ => VarInt.rt h.1, by rw [h.2]; rfl⟩
  | length => exact Post.mono Length.post fun v n h => ⟨fun _ => Length.rt h.1.1, by
    have := h.1.2; simp only [bitsOver]; omega⟩
  | fileOffset => exact Post.mono FileOffset.post fun v n h => ⟨fun _ => FileOffset.rt h.1.1, by
    have := h.1.2; simp only [bitsOver]; omega⟩
  | actionCondition => exact Post.mono (Data.ActionCondition.post) fun v n h => ⟨fun _ => Data.ActionCondition.rt v, by rw [h.2]; rfl⟩
  | storageClass => exact Post.mono (Data.StorageClass.post) fun v n h => ⟨fun _ => Data.StorageClass.rt v, by rw [h.2]; rfl⟩
  | userPermissions => exact Post.mono (Data.UserPermissions.post) fun v n h => ⟨fun _ => Data.UserPermissions.rt v, by rw [h.2]; rfl⟩
  | filePermissions => exact Post.mono (Data.FilePermissions.post) fun v n h => ⟨fun _ => Data.FilePermissions.rt v, by rw [h.2]; rfl⟩
  | fileProperties => exact Post.mono (Data.FileProperties.post) fun v n h => ⟨fun _ => Data.FileProperties.rt v, by rw [h.2]; rfl⟩
  | fileHeader => exact Post.mono (Data.FileHeader.post) fun v n h => ⟨fun _ => Data.FileHeader.rt v, by rw [h.2]; rfl⟩
  | dllConfig => exact Post.mono (DllConfig.post) fun v n h => ⟨fun _ => DllConfig.rt v, by rw [h.2]; rfl⟩
  | dllStatus => exact Post.mono (DllStatus.post) fun v n h => ⟨fun _ => DllStatus.rt v, by rw [h.2]; rfl⟩
  | engineeringModeMethod => exact Post.mono (EngineeringModeMethod.post) fun v n h => ⟨fun _ => EngineeringModeMethod.rt v, by rw [h.2]; rfl⟩
  | engineeringMode => exact Post.mono (EngineeringMode.post) fun v n h => ⟨fun _ => EngineeringMode.rt v, by rw [h.2]; rfl⟩
  | factorySettings => exact Post.mono (FactorySettings.post) fun v n h => ⟨fun _ => FactorySettings.rt v, by rw [h.2]; rfl⟩
  | firmwareVersion => exact Post.mono (FirmwareVersion.post) fun v n h => ⟨fun _ => FirmwareVersion.rt h.1, by rw [h.2]; rfl⟩
  | phyStatus => exact Post.mono (PhyStatus.post) fun v n h => ⟨fun _ => PhyStatus.rt h.1, by
    have := (); have := h.2; simp only [bitsOver]; omega⟩
  | securityKey => exact Post.mono (SecurityKey.post cfg) fun v n h => ⟨fun _ => SecurityKey.rt cfg v, by rw [h.2]; rfl⟩
  | file =>
    intro c s v hv
    obtain ⟨rfl, rfl⟩ := (File.bare_fits cfg v c s).1 hv
    exact ⟨fun _ => ⟨[], rfl, fun s => (File.bare_fits cfg _ [] s).2 ⟨rfl, rfl⟩⟩, rfl⟩
  | responseMode => exact Post.mono (ResponseMode.post) fun v n h => ⟨fun _ => ResponseMode.rt v, by rw [h.2]; rfl⟩
  | retryMode => exact Post.mono (RetryMode.post) fun v n h => ⟨fun _ => RetryMode.rt v, by rw [h.2]; rfl⟩
  | qos => exact Post.mono (QoS.post) fun v n h => ⟨fun _ => QoS.rt v, by rw [h.2]; rfl⟩
  | dash7InterfaceStatus => exact Post.mono (Dash7InterfaceStatus.post cfg) fun v n h => ⟨fun _ => Dash7InterfaceStatus.rt h.1, by
    have := v.addressee.bits_dvd; have := h.2; simp only [bitsOver]; omega⟩
  | finalStatusCode => exact Post.mono (InterfaceFinalStatusCode.post) fun v n h => ⟨fun _ => InterfaceFinalStatusCode.rt v, by rw [h.2]; rfl⟩
  | dash7InterfaceTxStatus => exact Post.mono (Dash7InterfaceTxStatus.post cfg) fun v n h => ⟨fun _ => Dash7InterfaceTxStatus.rt h.1, by
    have := v.addressee.bits_dvd; have := h.2; simp only [bitsOver]; omega⟩
  | dash7InterfaceConfiguration => exact Post.mono (Dash7InterfaceConfiguration.post cfg) fun v n h => ⟨fun _ => Dash7InterfaceConfiguration.rt h.1, by
    have := Dash7InterfaceConfiguration.bits_dvd cfg v; have := h.2; simp only [bitsOver]; omega⟩
  | loRaWAN => exact Post.mono (LoRaWANInterfaceConfiguration.post) fun v n h => ⟨fun _ => LoRaWANInterfaceConfiguration.rt v, by rw [h.2]; rfl⟩
  | loRaWANOTAA => exact Post.mono (LoRaWANOTAAInterfaceConfiguration.post) fun v n h => ⟨fun _ => LoRaWANOTAAInterfaceConfiguration.rt h.1, by rw [h.2]; rfl⟩
  | loRaWANABP => exact Post.mono (LoRaWANABPInterfaceConfiguration.post cfg) fun v n h => ⟨fun _ => LoRaWANABPInterfaceConfiguration.rt h.1, by rw [h.2]; rfl⟩
  | interfaceConfiguration => exact Post.mono (InterfaceConfiguration.post cfg) fun v n h => ⟨fun _ => InterfaceConfiguration.rt h.1, by
    have := InterfaceConfiguration.bits_dvd cfg v; have := h.2; simp only [bitsOver]; omega⟩
  | indirectInterface => exact Post.mono (IndirectInterface.post cfg) fun v n h => ⟨fun _ => IndirectInterface.rt h.1, by
    have := IndirectInterface.bits_dvd v; have := h.2; simp only [bitsOver]; omega⟩
  | arithmeticComparisonType => exact Post.mono (ArithmeticComparisonType.post) fun v n h => ⟨fun _ => ArithmeticComparisonType.rt v, by rw [h.2]; rfl⟩
  | arithmeticQueryParams => exact Post.mono (ArithmeticQueryParams.post') fun v n h => ⟨fun _ => ArithmeticQueryParams.rt v, by rw [h.2]; rfl⟩
  | rangeComparisonType => exact Post.mono (RangeComparisonType.post) fun v n h => ⟨fun _ => RangeComparisonType.rt v, by rw [h.2]; rfl⟩
  | rangeQueryParams => exact Post.mono (RangeQueryParams.post') fun v n h => ⟨fun _ => RangeQueryParams.rt v, by rw [h.2]; rfl⟩
  | query => exact Post.mono Query.post fun v n h => ⟨fun _ => Query.rt h.1.1, by
    have := h.1.2; simp only [bitsOver]; omega⟩
  | nonVoid => exact Post.mono NonVoid.post fun v n h => ⟨fun _ => NonVoid.rt h.1.1, by
    have := h.1.2; simp only [bitsOver]; omega⟩
  | comparisonWithZero => exact Post.mono ComparisonWithZero.post fun v n h => ⟨fun _ => ComparisonWithZero.rt h.1.1, by
    have := h.1.2; simp only [bitsOver]; omega⟩
  | comparisonWithValue => exact Post.mono ComparisonWithValue.post fun v n h => ⟨fun _ => ComparisonWithValue.rt h.1.1, by
    have := h.1.2; simp only [bitsOver]; omega⟩
  | comparisonWithOtherFile => exact Post.mono ComparisonWithOtherFile.post fun v n h => ⟨fun _ => ComparisonWithOtherFile.rt h.1.1, by
    have := h.1.2; simp only [bitsOver]; omega⟩
  | bitmapRangeComparison => exact Post.mono BitmapRangeComparison.post fun v n h => ⟨fun _ => BitmapRangeComparison.rt h.1.1, by
    have := h.1.2; simp only [bitsOver]; omega⟩
  | stringTokenSearch => exact Post.mono StringTokenSearch.post fun v n h => ⟨fun _ => StringTokenSearch.rt h.1.1, by
    have := h.1.2; simp only [bitsOver]; omega⟩
  | opCode => exact Post.mono (OpCode.post) fun v n h => ⟨fun _ => OpCode.rt h.1, by rw [h.2]; rfl⟩
  | statusCode => exact Post.mono (StatusCode.post) fun v n h => ⟨fun _ => StatusCode.rt v, by rw [h.2]; rfl⟩
  | actionStatus => exact Post.mono (ActionStatus.post) fun v n h => ⟨fun _ => ActionStatus.rt v, by rw [h.2]; rfl⟩
  | permission => exact Post.mono (Permission.post) fun v n h => ⟨fun _ => Permission.rt v, by rw [h.2]; rfl⟩
  | permissionLevel => exact Post.mono (PermissionLevel.post) fun v n h => ⟨fun _ => PermissionLevel.rt v, by rw [h.2]; rfl⟩
  | actionHeader => exact Post.mono (ActionHeader.post) fun v n h => ⟨fun _ => ActionHeader.rt v, by rw [h.2]; rfl⟩
  | statusType => exact Post.mono (Op.StatusType.post) fun v n h => ⟨fun _ => Op.StatusType.rt v, by rw [h.2]; rfl⟩
  | status =>
    refine Post.mono (Op.Status.post cfg .action) fun v n ⟨⟨h1, h2, h3⟩, _⟩ => ⟨fun _ => ?_, by
      simp only [bitsOver]; omega⟩
    cases v with
    | action s => exact Op.Status.rt (cfg := cfg) (s := .action s) trivial
    | _ => cases h1
  | interfaceStatusOperation =>
    refine Post.mono (Op.InterfaceStatusOperation.post cfg) fun v n ⟨⟨h1, h2, h3⟩, _⟩ => ⟨fun hu => ?_, by
      simp only [bitsOver]; omega⟩
    exact Op.InterfaceStatusOperation.rt h1 (h2 fun b hb => hu ⟨b, hb⟩)
  | interfaceFinalStatusOperation => exact Post.mono Op.InterfaceFinalStatusOperation.post fun v n h =>
    ⟨fun _ => Op.InterfaceFinalStatusOperation.rt h.1.1, by have := h.1.2; simp only [bitsOver]; omega⟩
  | interfaceTxStatusOperation => exact Post.mono (Op.InterfaceTxStatusOperation.full_post cfg) fun v n h =>
    ⟨fun _ => Op.InterfaceTxStatusOperation.rt h.1, by have := h.2; simp only [bitsOver]; omega⟩
  | responseTagHeader => exact Post.mono (Op.ResponseTagHeader.post) fun v n h => ⟨fun _ => Op.ResponseTagHeader.rt v, by rw [h.2]; rfl⟩
  | chunkStep => exact Post.mono (Op.ChunkStep.post) fun v n h => ⟨fun _ => Op.ChunkStep.rt v, by rw [h.2]; rfl⟩
  | logicOp => exact Post.mono (Op.LogicOp.post) fun v n h => ⟨fun _ => Op.LogicOp.rt v, by rw [h.2]; rfl⟩
  | indirectForwardHeader => exact Post.mono (Op.IndirectForwardHeader.post) fun v n h => ⟨fun _ => Op.IndirectForwardHeader.rt v, by rw [h.2]; rfl⟩
  | forwardHeader => exact Post.mono (Op.ForwardHeader.post) fun v n h => ⟨fun _ => Op.ForwardHeader.rt v, by rw [h.2]; rfl⟩
  | requestTagHeader => exact Post.mono (Op.RequestTagHeader.post) fun v n h => ⟨fun _ => Op.RequestTagHeader.rt v, by rw [h.2]; rfl⟩
  | txStatusType => exact Post.mono (Op.TxStatusType.post) fun v n h => ⟨fun _ => Op.TxStatusType.rt v, by rw [h.2]; rfl⟩
  | transControl => exact Post.mono (Trans.Control.post) fun v n h => ⟨fun _ => Trans.Control.rt v, by rw [h.2]; rfl⟩
  | ackTemplate => exact Post.mono (Trans.AckTemplate.post) fun v n h => ⟨fun _ => Trans.AckTemplate.rt v, by rw [h.2]; rfl⟩
  | netControl =>
    refine Post.mono (Net.Control.post cfg) fun v n h => ⟨fun _ => Net.Control.rt cfg v, ?_⟩
    rw [h.2]
    simp only [bitsOver, NlsMethod.width]
    cases cfg.variant <;> rfl
  | hoppingControl => exact Post.mono (Net.HoppingControl.post) fun v n h => ⟨fun _ => Net.HoppingControl.rt v, by rw [h.2]; rfl⟩
  | foregroundFrameControl => exact Post.mono (ForegroundFrameControl.post) fun v n h => ⟨fun _ => ForegroundFrameControl.rt h.1, by rw [h.2]; rfl⟩
  | backgroundFrameControl => exact Post.mono (BackgroundFrameControl.post) fun v n h => ⟨fun _ => BackgroundFrameControl.rt h.1, by rw [h.2]; rfl⟩
  | backgroundFrame => exact Post.mono (BackgroundFrame.post cfg) fun v n h => ⟨fun _ => BackgroundFrame.rt h.1, by rw [h.2]; rfl⟩

theorem Fits.takes {α : Type} {p : P α} {F : α → Form} (hp : Fits p F) :
    Takes p.run (fun _ a s left n => ∃ c, s = c ++ left ∧ F a c ∧ n = c.length) where
  conv {r r' a} h hr := by
    obtain ⟨c, hF, hc, hok, hd, hb, -⟩ := hp.ok h.toOK hr
    exact ⟨c.length, ⟨c, hc, hF, rfl⟩, hok, hd, hb⟩
  form {r a left n} h hT := by
    obtain ⟨c, hc, hF, rfl⟩ := hT
    obtain ⟨r', hr, hok, hd, hm, hb, -⟩ := hp.form h.toOK hF hc
    exact ⟨r', hr, hok, hd, hm, hb⟩

theorem Form.ofBytes_length (data : List U8) : (Form.ofBytes data).length = 8 * data.length := by
  rw [Form.ofBytes_eq, bytesBits_length]

namespace Item

theorem fromBytes_iff (cfg : Cfg) (i : Item) (data : List U8) (off : Nat) (rest : Rest) (v : i.Val) :
    i.fromBytes cfg (data, off) = .ok (rest, v) ↔ off ≤ 8 * data.length ∧
      ∃ c left, (Form.ofBytes data).drop off = c ++ left ∧ Form.item cfg i v c ∧
        rest = (data.drop ((off + c.length) / 8), (off + c.length) % 8) := by
  unfold fromBytes
  rw [(Item.fits cfg i).takes.derivedFromBytes]
  constructor
  · rintro ⟨h, left, n, ⟨c, hc, hF, rfl⟩, -, hr⟩
    exact ⟨h, c, left, hc, hF, hr⟩
  · rintro ⟨h, c, left, hc, hF, hr⟩
    refine ⟨h, left, _, ⟨c, hc, hF, rfl⟩, ?_, hr⟩
    have := congrArg List.length hc
    rw [List.length_drop, Form.ofBytes_length, List.length_append] at this
    omega

theorem tryFrom_iff (cfg : Cfg) (i : Item) (data : List U8) (v : i.Val) :
    i.tryFrom cfg data = .ok v ↔ Form.item cfg i v (Form.ofBytes data) := by
  unfold tryFrom
  rw [(Item.fits cfg i).takes.derivedTryFrom]
  constructor
  · rintro ⟨left, n, ⟨c, hc, hF, rfl⟩, hn⟩
    have := congrArg List.length hc
    rw [Form.ofBytes_length, List.length_append] at this
    have : left = [] := List.length_eq_zero_iff.1 (by omega)
    rw [hc, this, List.append_nil]
    exact hF
  · intro hF
    exact ⟨[], _, ⟨_, by simp, hF, rfl⟩, by rw [Form.ofBytes_length]; omega⟩

theorem width {cfg : Cfg} {i : Item} {v : i.Val} {c : List Bool} (h : Form.item cfg i v c) :
    c.length % 8 = bitsOver cfg i :=
  (Item.post cfg i c [] v ((Item.fits cfg i v c []).2 h)).2

theorem rt {cfg : Cfg} {i : Item} {v : i.Val} {c : List Bool} (h : Form.item cfg i v c)
    (hu : ¬ unknownInterface i v) : RT (i.read cfg) (i.write cfg v) v :=
  (Item.post cfg i c [] v ((Item.fits cfg i v c []).2 h)).1 hu

/-- What is written is a form of the value. -/
theorem written {cfg : Cfg} {i : Item} {v : i.Val} (h : RT (i.read cfg) (i.write cfg v) v) :
    ∃ c, i.write cfg v = .ok c ∧ Form.item cfg i v c := by
  obtain ⟨c, hw, hd⟩ := h
  exact ⟨c, hw, (Item.fits cfg i v c []).1 (hd [])⟩

end Item
theorem packBits_zeros : ∀ l : List Bool, packBits l = packBits (l ++ List.replicate ((8 - l.length % 8) % 8) false)
  | a :: b :: c :: d :: e :: f :: g :: h :: rest => by
    simp only [List.cons_append, packBits, List.length_cons]
    rw [packBits_zeros rest]
    have : (8 - (rest.length + 1 + 1 + 1 + 1 + 1 + 1 + 1 + 1) % 8) % 8 = (8 - rest.length % 8) % 8 := by omega
    rw [this]
  | [_, _, _, _, _, _, _] => rfl
  | [] => rfl
  | [_] => rfl
  | [_, _] => rfl
  | [_, _, _] => rfl
  | [_, _, _, _] => rfl
  | [_, _, _, _, _] => rfl
  | [_, _, _, _, _, _] => rfl

end Dash7
