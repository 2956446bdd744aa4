import Verif.Lemmas.Accept2

/-!
# Readers and the forms they take: addressee, files, interfaces, queries
-/

namespace Dash7

/-! ## Addressee -/

/-- The part of an addressee held in its first byte. -/
def Addressee.ctl (a : Addressee) : GroupCondition × AddressType × Bool × NlsMethod :=
  (a.groupCondition, a.addressType, a.useVid, a.nlsMethod)

theorem Addressee.fitsCtlWizzilab {cfg : Cfg} (h : cfg.variant = .wizzilab) :
    Fits (Addressee.readCtlWizzilab cfg) (fun x =>
      Form.all [Form.field 2 (Wire.groupCondition x.1), Form.field 2 (Wire.addressType x.2.1),
        Form.flag x.2.2.1, Form.field 3 (Wire.nlsMethod x.2.2.2)]) := by
  have hm := NlsMethod.fits cfg
  simp only [NlsMethod.width, h] at hm
  unfold Addressee.readCtlWizzilab
  refine Fits.start ?_
  fld GroupCondition.fits
  fld AddressType.fits
  fld Fits.flag
  fld hm
  exact Fits.done (fun b => by obtain ⟨a, b, c, d⟩ := b; simp [and_assoc])

theorem Addressee.fitsCtl {cfg : Cfg} (h : cfg.variant ≠ .wizzilab) :
    Fits (Addressee.readCtl cfg) (fun x =>
      Form.all [Form.reserved 2, Form.field 2 (Wire.addressType x.2.1),
        Form.field 4 (Wire.nlsMethod x.2.2.2), Form.given (x.1 = .any ∧ x.2.2.1 = false)]) := by
  have hm := NlsMethod.fits cfg
  have hw : NlsMethod.width cfg = 4 := by
    unfold NlsMethod.width
    cases hv : cfg.variant <;> simp_all
  rw [hw] at hm
  unfold Addressee.readCtl
  refine Fits.start ?_
  skp 2
  fld AddressType.fits
  fld hm
  refine Fits.done_given (fun b => ?_)
  obtain ⟨a, b, c, d⟩ := b
  simp only [Prod.mk.injEq]
  constructor
  · rintro ⟨⟨⟨-, h1⟩, h2⟩, h3, h4⟩; exact ⟨h3, h1, h4, h2⟩
  · rintro ⟨h3, h1, h4, h2⟩; exact ⟨⟨⟨trivial, h1⟩, h2⟩, h3, h4⟩

theorem Addressee.fitsCtl' (cfg : Cfg) :
    Fits (match cfg.variant with
      | .wizzilab => Addressee.readCtlWizzilab cfg
      | _ => Addressee.readCtl cfg) (fun x =>
      if cfg.variant = .wizzilab then
        Form.all [Form.field 2 (Wire.groupCondition x.1), Form.field 2 (Wire.addressType x.2.1),
          Form.flag x.2.2.1, Form.field 3 (Wire.nlsMethod x.2.2.2)]
      else
        Form.all [Form.reserved 2, Form.field 2 (Wire.addressType x.2.1),
          Form.field 4 (Wire.nlsMethod x.2.2.2), Form.given (x.1 = .any ∧ x.2.2.1 = false)]) := by
  split
  · rename_i h
    simp only [h, if_true]
    exact fitsCtlWizzilab h
  · rename_i h
    simp only [if_neg h]
    exact fitsCtl h

theorem Addressee.fits (cfg : Cfg) : Fits (Addressee.read cfg) (Form.addressee cfg.variant) := by
  unfold Addressee.read Form.addressee
  refine Fits.start ?_
  refine Fits.dep Addressee.ctl (Addressee.fitsCtl' cfg) ?_ ?_
  · intro b _ c
    split <;> rfl
  · rintro ⟨g, t, v, m⟩
    fld AccessClass.fits
    refine Fits.dep (fun b => b.address) (Address.fits t) ?_ ?_
    · rintro b ⟨⟨-, hb⟩, -⟩ c
      simp only [Addressee.ctl, Prod.mk.injEq] at hb
      rw [hb.2.1]
    · intro a
      refine Fits.dep (fun b => b.nlsState) (NlsState.fits m) ?_ ?_
      · rintro b ⟨⟨⟨-, hb⟩, -⟩, -⟩ c
        simp only [Addressee.ctl, Prod.mk.injEq] at hb
        rw [hb.2.2.2]
      · intro s
        exact Fits.done (fun b => by cases b; simp [Addressee.ctl, and_assoc])

/-! ## Files -/

theorem Data.ActionCondition.fits : Fits Data.ActionCondition.reader (fun b => Form.field 3 (Wire.actionCondition b)) := by tbl
theorem Data.StorageClass.fits : Fits Data.StorageClass.read (fun b => Form.field 2 (Wire.storageClass b)) := by tbl

theorem Data.UserPermissions.fits : Fits Data.UserPermissions.reader Form.userPermissions := by
  unfold Data.UserPermissions.reader Form.userPermissions
  refine Fits.start ?_
  fld Fits.flag
  fld Fits.flag
  fld Fits.flag
  fin

theorem Data.FilePermissions.fits : Fits Data.FilePermissions.read Form.filePermissions := by
  unfold Data.FilePermissions.read Form.filePermissions
  refine Fits.start ?_
  fld Fits.flag
  fld Fits.flag
  fld Data.UserPermissions.fits
  fld Data.UserPermissions.fits
  fin

theorem Data.FileProperties.fits : Fits Data.FileProperties.read Form.fileProperties := by
  unfold Data.FileProperties.read Form.fileProperties
  refine Fits.start ?_
  fld Fits.flag
  fld Data.ActionCondition.fits
  skp 2
  fld Data.StorageClass.fits
  fin

theorem Data.FileHeader.fits : Fits Data.FileHeader.read Form.fileHeader := by
  unfold Data.FileHeader.read Form.fileHeader
  refine Fits.start ?_
  fld Data.FilePermissions.fits
  fld Data.FileProperties.fits
  fld Fits.u8
  fld Fits.u8
  fld Fits.u32
  fld Fits.u32
  fin

theorem readString_fits (n : Nat) : Fits (readString n) (Form.string n) := by
  unfold readString
  intro t c s'
  rw [P.bind_eq, (Fits.bytes n).bind_iff]
  simp only [Form.string, Form.sized, Form.all_given, Form.all_one]
  constructor
  · rintro ⟨b, x, y, rfl, ⟨hl, hx⟩, hy⟩
    split at hy
    · rename_i t' ht
      simp only [P.eval_pure, Except.ok.injEq, Prod.mk.injEq] at hy
      obtain ⟨rfl, hy⟩ := hy
      have : y = [] := by simpa using hy
      subst this
      rw [bytesStr?_iff] at ht
      have ht : List.map UInt8.toBitVec t'.toUTF8.data.toList = b := ht
      rw [ht, List.append_nil]
      exact ⟨hl, hx⟩
    · cases hy
  · rintro ⟨hl, hc⟩
    refine ⟨strBytes t, c, [], by simp, ⟨hl, hc⟩, ?_⟩
    rw [(bytesStr?_iff _ t).2 rfl]
    rfl

theorem DllConfig.fits : Fits DllConfig.read Form.dllConfig := by
  unfold DllConfig.read Form.dllConfig
  refine Fits.start ?_
  fld Fits.u8
  skp 16
  fld Fits.u8
  fld Fits.u8
  fld Fits.u8
  fld Fits.u8
  fin

theorem DllStatus.fits : Fits DllStatus.read Form.dllStatus := by
  unfold DllStatus.read Form.dllStatus
  refine Fits.start ?_
  fld Fits.u8
  fld Fits.u8
  fld Fits.u8
  fld ChannelHeader.fits
  fld Fits.u16
  fld Fits.u16
  fld Fits.u32
  fld Fits.u32
  fin

theorem EngineeringModeMethod.fits : Fits EngineeringModeMethod.read (fun b => Form.field 8 (Wire.engineeringModeMethod b).toNat) := by tbl

theorem EngineeringMode.fits : Fits EngineeringMode.read Form.engineeringMode := by
  unfold EngineeringMode.read Form.engineeringMode
  refine Fits.start ?_
  fld EngineeringModeMethod.fits
  fld Fits.u8
  fld Fits.u8
  fld Channel.fits
  fld Fits.u8
  fin

theorem FactorySettings.fits : Fits FactorySettings.read Form.factorySettings := by
  unfold FactorySettings.read Form.factorySettings
  refine Fits.start ?_
  fld Fits.u8
  fld Fits.u32
  fld Fits.u32
  fld Fits.u32
  fld Fits.u32
  fld Fits.u32
  fld Fits.u32
  fld Fits.u32
  fld Fits.u32
  fld Fits.u32
  fld Fits.u8
  fld Fits.u8
  fld Fits.u8
  fld Fits.u8
  fld Fits.u8
  fld Fits.u8
  fld Fits.u8
  fld Fits.u8
  fld Fits.u8
  fld Fits.u8
  fld Fits.u8
  fld Fits.u32
  fld Fits.u8
  fld Fits.u8
  fld Fits.u16
  fin

theorem FirmwareVersion.fits : Fits FirmwareVersion.read Form.firmwareVersion := by
  unfold FirmwareVersion.read Form.firmwareVersion
  refine Fits.start ?_
  fld Fits.u8
  fld Fits.u8
  fld (readString_fits 6)
  fld (readString_fits 7)
  fin

theorem PhyStatus.fits : Fits PhyStatus.read Form.phyStatus := by
  unfold PhyStatus.read Form.phyStatus
  refine Fits.start ?_
  fld Fits.u32
  fld Fits.u32
  fld Fits.u32
  fld Fits.u16
  apply Fits.cons Fits.u8
  intro n
  refine Fits.dep (fun b => b.channelStatus) (Fits.count ChannelStatus.fits n.toNat) ?_ ?_
  · rintro b ⟨-, rfl⟩ c
    rw [Form.all_given, Form.all_one]
  · intro _
    fin

theorem SecurityKey.fits (cfg : Cfg) : Fits (SecurityKey.read cfg)
    (fun f => Form.hostNumber cfg.bigEndianHost 16 f.key.toNat) := by
  refine Fits.map (Fits.host cfg 16) fun b c => ?_
  obtain ⟨k⟩ := b
  simp

/-- The forms of file contents, by file id. -/
def fileById (cfg : Cfg) (fid : FileId) (n : Nat) : File → Form
  | .accessProfile i p => fun c => fid = .accessProfile i ∧ Form.accessProfile p c
  | .uId a => fun c => fid = .uId ∧ Form.address .uId a c
  | .factorySettings f => fun c => fid = .factorySettings ∧ Form.factorySettings f c
  | .firmwareVersion f => fun c => fid = .firmwareVersion ∧ Form.firmwareVersion f c
  | .engineeringMode f => fun c => fid = .engineeringMode ∧ Form.engineeringMode f c
  | .vId a => fun c => fid = .vId ∧ Form.address .vId a c
  | .phyStatus f => fun c => fid = .phyStatus ∧ Form.phyStatus f c
  | .dllConfig f => fun c => fid = .dllConfig ∧ Form.dllConfig f c
  | .dllStatus f => fun c => fid = .dllStatus ∧ Form.dllStatus f c
  | .nwlSecurityKey f => fun c => fid = .networkSecurityKey ∧
      Form.hostNumber cfg.bigEndianHost 16 f.key.toNat c
  | .other d => fun c => Spec.structuredFile fid = false ∧ Form.sized n d c

theorem File.fitsById (cfg : Cfg) (fid : FileId) (n : U32) :
    Fits (File.read cfg fid n) (fileById cfg fid n.toNat) := by
  cases fid
  case accessProfile i =>
    refine Fits.map AccessProfile.fits fun b c => ?_
    cases b <;> simp [fileById, Spec.structuredFile]
    rename_i j q
    constructor
    · rintro ⟨rfl, h⟩; exact ⟨q, ⟨rfl, rfl⟩, h⟩
    · rintro ⟨_, ⟨rfl, rfl⟩, h⟩; exact ⟨rfl, h⟩
  case uId => exact Fits.map (Address.fits _) fun b c => by cases b <;> simp [fileById, Spec.structuredFile]
  case factorySettings =>
    exact Fits.map FactorySettings.fits fun b c => by cases b <;> simp [fileById, Spec.structuredFile]
  case firmwareVersion =>
    exact Fits.map FirmwareVersion.fits fun b c => by cases b <;> simp [fileById, Spec.structuredFile]
  case engineeringMode =>
    exact Fits.map EngineeringMode.fits fun b c => by cases b <;> simp [fileById, Spec.structuredFile]
  case vId => exact Fits.map (Address.fits _) fun b c => by cases b <;> simp [fileById, Spec.structuredFile]
  case phyStatus =>
    exact Fits.map PhyStatus.fits fun b c => by cases b <;> simp [fileById, Spec.structuredFile]
  case dllConfig =>
    exact Fits.map DllConfig.fits fun b c => by cases b <;> simp [fileById, Spec.structuredFile]
  case dllStatus =>
    exact Fits.map DllStatus.fits fun b c => by cases b <;> simp [fileById, Spec.structuredFile]
  case networkSecurityKey =>
    exact Fits.map (SecurityKey.fits cfg) fun b c => by cases b <;> simp [fileById, Spec.structuredFile]
  all_goals
    exact Fits.map (Fits.bytes _) fun b c => by cases b <;> simp [fileById, Spec.structuredFile]

theorem FileId.ofId_accessProfile (i : Fin 15) (b : U8) :
    FileId.ofId b = .accessProfile i ↔ b.toNat = 0x20 + i.val :=
  U8.forall (p := fun b => ∀ i : Fin 15, FileId.ofId b = .accessProfile i ↔ b.toNat = 0x20 + i.val)
    (by decide +kernel) b i

instance (b : Nat) : Decidable (Form.structured b) := by unfold Form.structured; infer_instance

theorem FileId.ofId_structured (b : U8) :
    Spec.structuredFile (FileId.ofId b) = false ↔ ¬ Form.structured b.toNat :=
  U8.forall (p := fun b => Spec.structuredFile (FileId.ofId b) = false ↔ ¬ Form.structured b.toNat)
    (by decide +kernel) b

theorem FileId.ofId_iff (b : U8) :
    (FileId.ofId b = .uId ↔ b.toNat = 0x00) ∧ (FileId.ofId b = .factorySettings ↔ b.toNat = 0x01) ∧
    (FileId.ofId b = .firmwareVersion ↔ b.toNat = 0x02) ∧
    (FileId.ofId b = .engineeringMode ↔ b.toNat = 0x05) ∧ (FileId.ofId b = .vId ↔ b.toNat = 0x06) ∧
    (FileId.ofId b = .phyStatus ↔ b.toNat = 0x09) ∧ (FileId.ofId b = .dllConfig ↔ b.toNat = 0x0A) ∧
    (FileId.ofId b = .dllStatus ↔ b.toNat = 0x0B) ∧
    (FileId.ofId b = .networkSecurityKey ↔ b.toNat = 0x0E) := by
  revert b
  exact U8.forall (by decide +kernel)

theorem File.fits (cfg : Cfg) (b : U8) (n : U32) :
    Fits (File.read cfg (FileId.ofId b) n) (Form.file cfg.bigEndianHost b.toNat n.toNat) := by
  refine (File.fitsById cfg _ n).conv fun f c => ?_
  obtain ⟨h0, h1, h2, h5, h6, h9, ha, hb, he⟩ := FileId.ofId_iff b
  cases f <;> simp only [fileById, Form.file, Form.all_given, Form.all_one, FileId.ofId_accessProfile,
    FileId.ofId_structured, h0, h1, h2, h5, h6, h9, ha, hb, he]

/-! ## Interfaces -/

theorem ResponseMode.fits : Fits ResponseMode.read (fun b => Form.field 3 (Wire.responseMode b)) := by tbl
theorem RetryMode.fits : Fits RetryMode.read (fun b => Form.field 3 (Wire.retryMode b)) := by tbl

theorem QoS.fits : Fits QoS.read Form.qos := by
  unfold QoS.read Form.qos
  refine Fits.start ?_
  fld Fits.flag
  fld Fits.flag
  fld RetryMode.fits
  fld ResponseMode.fits
  fin

theorem Dash7InterfaceStatus.fits (cfg : Cfg) : Fits (Dash7InterfaceStatus.read cfg) (Form.dash7InterfaceStatus cfg.variant) := by
  unfold Dash7InterfaceStatus.read Form.dash7InterfaceStatus
  refine Fits.start ?_
  fld Channel.fits
  fld Fits.u8
  fld Fits.u8
  fld Fits.u8
  fld Fits.flag
  fld Fits.flag
  fld Fits.flag
  fld Fits.flag
  skp 4
  fld Fits.u8
  fld Fits.u8
  fld VarInt.fits
  fld (Addressee.fits cfg)
  fin

theorem InterfaceFinalStatusCode.fits : Fits InterfaceFinalStatusCode.read Form.finalStatusCode := by
  unfold InterfaceFinalStatusCode.read
  intro a c s'
  rw [P.bind_eq, Fits.u8.bind_iff]
  simp only [Form.finalStatusCode]
  constructor
  · rintro ⟨i, x, y, rfl, hx, hy⟩
    split at hy
    · rename_i h
      simp only [P.eval_pure, Except.ok.injEq, Prod.mk.injEq] at hy
      obtain ⟨rfl, hy⟩ := hy
      have : y = [] := by simpa using hy
      subst this
      refine ⟨x, [], rfl, hx, ?_⟩
      rw [Form.all_given]
      refine ⟨?_, rfl⟩
      rcases h with rfl | h
      · exact .inl rfl
      · exact .inr h
    · cases hy
  · rintro ⟨x, y, rfl, hx, hy⟩
    rw [Form.all_given] at hy
    obtain ⟨-, hy⟩ := hy
    cases hy
    refine ⟨a.code, x, [], rfl, hx, ?_⟩
    rw [dif_pos a.named]
    rfl

theorem Dash7InterfaceTxStatus.fits (cfg : Cfg) : Fits (Dash7InterfaceTxStatus.read cfg) (Form.dash7InterfaceTxStatus cfg.variant cfg.bigEndianHost) := by
  unfold Dash7InterfaceTxStatus.read Form.dash7InterfaceTxStatus
  refine Fits.start ?_
  fld Channel.fits
  fld Fits.u8
  fld InterfaceFinalStatusCode.fits
  skp 24
  fld (Fits.host cfg 4)
  fld (Addressee.fits cfg)
  fin

theorem readExecutionDelay_fits (cfg : Cfg) : Fits (readExecutionDelay cfg) (fun v =>
    if cfg.variant = .subiot then Form.given (v = ⟨0, false⟩) else Form.varInt v) := by
  unfold readExecutionDelay
  split
  · rename_i h
    refine Fits.pure fun v c => ?_
    rw [if_pos h, Form.given, and_comm]
    rfl
  · rename_i h
    refine VarInt.fits.conv fun v c => ?_
    rw [if_neg h]

theorem Dash7InterfaceConfiguration.fits (cfg : Cfg) : Fits (Dash7InterfaceConfiguration.read cfg) (Form.dash7InterfaceConfiguration cfg.variant) := by
  unfold Dash7InterfaceConfiguration.read Form.dash7InterfaceConfiguration
  refine Fits.start ?_
  fld QoS.fits
  fld VarInt.fits
  fld (readExecutionDelay_fits cfg)
  fld (Addressee.fits cfg)
  fin

theorem LoRaWANInterfaceConfiguration.fits : Fits LoRaWANInterfaceConfiguration.read Form.loRaWAN := by
  unfold LoRaWANInterfaceConfiguration.read Form.loRaWAN
  refine Fits.start ?_
  skp 5
  fld Fits.flag
  fld Fits.flag
  skp 1
  fld Fits.u8
  fld Fits.u8
  fin

theorem LoRaWANOTAAInterfaceConfiguration.fits : Fits LoRaWANOTAAInterfaceConfiguration.read Form.loRaWANOTAA := by
  unfold LoRaWANOTAAInterfaceConfiguration.read Form.loRaWANOTAA
  refine Fits.start ?_
  fld LoRaWANInterfaceConfiguration.fits
  fld (Fits.bytes 8)
  fld (Fits.bytes 8)
  fld (Fits.bytes 16)
  fin

theorem LoRaWANABPInterfaceConfiguration.fits (cfg : Cfg) : Fits (LoRaWANABPInterfaceConfiguration.read cfg) (Form.loRaWANABP cfg.bigEndianHost) := by
  unfold LoRaWANABPInterfaceConfiguration.read Form.loRaWANABP
  refine Fits.start ?_
  fld LoRaWANInterfaceConfiguration.fits
  fld (Fits.bytes 16)
  fld (Fits.bytes 16)
  fld (Fits.host cfg 4)
  fld (Fits.host cfg 4)
  fin
end Dash7
