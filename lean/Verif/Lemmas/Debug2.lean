import Verif.Lemmas.Debug
import Verif.Spec.WF

/-!
# The trees of the types tell their values apart, and use proper names
-/

set_option linter.unusedSimpArgs false

namespace Dash7

/-- Fields that the build does not have are at the value the model gives them. -/
def Spec.addresseeInBuild (cfg : Cfg) (a : Addressee) : Prop :=
  cfg.variant ≠ .wizzilab → a.groupCondition = .any ∧ a.useVid = false

/-- See `Spec.addresseeInBuild`. -/
def Spec.dash7ConfigurationInBuild (cfg : Cfg) (c : Dash7InterfaceConfiguration) : Prop :=
  Spec.addresseeInBuild cfg c.addressee ∧ (cfg.variant = .subiot → c.executionDelayTimeout = ⟨0, false⟩)

/-- See `Spec.addresseeInBuild`. -/
def Spec.configurationInBuild (cfg : Cfg) : InterfaceConfiguration → Prop
  | .dash7 c => Spec.dash7ConfigurationInBuild cfg c
  | _ => True

/-- See `Spec.addresseeInBuild`. -/
def Spec.indirectInBuild (cfg : Cfg) : IndirectInterface → Prop
  | .dash7 a => Spec.addresseeInBuild cfg a
  | _ => True

/-- See `Spec.addresseeInBuild`. -/
def Spec.statusInBuild (cfg : Cfg) : InterfaceStatus → Prop
  | .dash7 s => Spec.addresseeInBuild cfg s.addressee
  | _ => True

/-- See `Spec.addresseeInBuild`. -/
def Spec.txStatusInBuild (cfg : Cfg) : InterfaceTxStatus → Prop
  | .dash7 s => Spec.addresseeInBuild cfg s.addressee
  | _ => True

/-- The fields that exist in some builds only, and not in this one, are at the value the model gives them
(see `Addressee` and `Dash7InterfaceConfiguration`). -/
def Spec.InBuild (cfg : Cfg) : Action → Prop
  | .status o =>
    match o.status with
    | .interface i => Spec.statusInBuild cfg i.status
    | _ => True
  | .txStatus o => Spec.txStatusInBuild cfg o.status.status
  | .forward o => Spec.configurationInBuild cfg o.configuration
  | .indirectForward o => ∀ c, o.configuration = some c → Spec.indirectInBuild cfg c
  | _ => True

namespace Dbg

/-- Evaluates names. -/
local macro "names" : tactic => `(tactic| decide +kernel)

theorem ok_uint {n : Nat} (b : BitVec n) : ok (uint b) = true := rfl
theorem ok_i8 (b : U8) : ok (i8 b) = true := rfl
theorem ok_bool (b : Bool) : ok (bool b) = true := by cases b <;> names
theorem ok_bytes (b : List U8) : ok (bytes b) = true := oks_map b fun _ _ => rfl
theorem ok_str (s : String) : ok (.str s) = true := rfl

theorem ok_option {α : Type} {f : α → Dbg} (h : ∀ a, ok (f a) = true) (o : Option α) :
    ok (option f o) = true := by
  cases o with
  | none => exact (by names : ok (.word "None") = true)
  | some a =>
    rw [option, ok, h a, Bool.and_true]
    names

theorem ok_list {α : Type} {f : α → Dbg} (h : ∀ a, ok (f a) = true) (l : List α) :
    ok (.list (l.map f)) = true := oks_map l fun a _ => h a

theorem uint_inj {n : Nat} {a b : BitVec n} : uint a = uint b ↔ a = b := by
  simp only [uint, Dbg.num.injEq, Int.ofNat_inj]
  exact BitVec.toNat_inj

theorem i8_inj {a b : U8} : i8 a = i8 b ↔ a = b := by
  simp only [i8, Dbg.num.injEq]
  exact BitVec.toInt_inj

theorem bool_inj {a b : Bool} : bool a = bool b ↔ a = b := by cases a <;> cases b <;> simp [bool]

theorem map_inj {α : Type} {f : α → Dbg} (h : ∀ {a b}, f a = f b ↔ a = b) {l l' : List α} :
    l.map f = l'.map f ↔ l = l' := by
  constructor
  · intro e
    induction l generalizing l' with
    | nil => cases l' with
      | nil => rfl
      | cons b l' => cases e
    | cons a l ih => cases l' with
      | nil => cases e
      | cons b l' =>
        rw [List.map_cons, List.map_cons] at e
        rw [h.1 (List.cons.inj e).1, ih (List.cons.inj e).2]
  · rintro rfl; rfl

theorem bytes_inj {a b : List U8} : bytes a = bytes b ↔ a = b := by
  simp only [bytes, Dbg.list.injEq]
  exact map_inj uint_inj

theorem option_inj {α : Type} {f : α → Dbg} (h : ∀ {a b}, f a = f b ↔ a = b) {o o' : Option α} :
    option f o = option f o' ↔ o = o' := by
  cases o <;> cases o' <;> simp [option, h]

theorem vec_inj {α : Type} {n : Nat} {a b : Vector α n} : a.toList = b.toList ↔ a = b := Vector.toList_inj

/-- The code with a name. -/
def codeOf (s : String) : Nat :=
  if s = "No" then 0
  else 0xEA + ["NotSupportedMode", "BufferOvf", "RxSched", "TxSched", "VidWoNls", "ParamOvf", "NotSupportedLen",
    "VoidChannelList", "NotSupportedModulation", "NotSupportedChannel", "NotSupportedBand", "RxTo",
    "NoAck", "Abort", "RxCrc", "RxOvf", "TxUdf", "NlsKey", "CcaTo", "DutyCycle", "BadParam",
    "Busy"].idxOf s

theorem finalStatusName_all : ∀ n : Fin 256, ∀ h : BitVec.ofFin n = (0 : U8) ∨ 0xEA ≤ n.val,
    isName (finalStatusName ⟨BitVec.ofFin n, h⟩) = true ∧
    codeOf (finalStatusName ⟨BitVec.ofFin n, h⟩) = n.val := by decide +kernel

theorem finalStatusName_spec (c : InterfaceFinalStatusCode) :
    isName (finalStatusName c) = true ∧ ∀ c', finalStatusName c = finalStatusName c' → c = c' := by
  obtain ⟨⟨n⟩, h⟩ := c
  have h1 := finalStatusName_all n h
  refine ⟨h1.1, ?_⟩
  rintro ⟨⟨n'⟩, h'⟩ e
  have h2 := (finalStatusName_all n' h').2
  rw [← e, h1.2] at h2
  have : n = n' := Fin.ext h2
  subst this
  rfl

theorem ok_finalStatusCode (c : InterfaceFinalStatusCode) : ok (finalStatusCode c) = true :=
  (finalStatusName_spec c).1

theorem finalStatusCode_inj {a b : InterfaceFinalStatusCode} : finalStatusCode a = finalStatusCode b ↔ a = b := by
  constructor
  · intro h
    exact (finalStatusName_spec a).2 b (Dbg.word.inj h)
  · rintro rfl; rfl

theorem ok_varInt (a : VarInt) : ok (varInt a) = true := by
  simp only [varInt, ok, okFields, List.isEmpty_cons, ok_uint, ok_bool, Bool.and_true]
  names
theorem varInt_inj {a b : VarInt} : varInt a = varInt b ↔ a = b := by
  cases a; cases b
  simp [varInt, uint_inj, bool_inj]

theorem ok_length (a : Length) : ok (length a) = true := by
  simp only [length, ok, okFields, List.isEmpty_cons, ok_uint, Bool.and_true]
  names
theorem length_inj {a b : Length} : length a = length b ↔ a = b := by
  cases a; cases b
  simp [length, uint_inj]

theorem ok_fileOffset (a : FileOffset) : ok (fileOffset a) = true := by
  simp only [fileOffset, ok, okFields, List.isEmpty_cons, ok_uint, ok_length, Bool.and_true]
  names
theorem fileOffset_inj {a b : FileOffset} : fileOffset a = fileOffset b ↔ a = b := by
  cases a; cases b
  simp [fileOffset, uint_inj, length_inj]

theorem ok_bandwidth (a : Bandwidth) : ok (bandwidth a) = true := by cases a <;> names
theorem bandwidth_inj {a b : Bandwidth} : bandwidth a = bandwidth b ↔ a = b := by cases a <;> cases b <;> simp [bandwidth]

theorem ok_channelBand (a : ChannelBand) : ok (channelBand a) = true := by cases a <;> names
theorem channelBand_inj {a b : ChannelBand} : channelBand a = channelBand b ↔ a = b := by cases a <;> cases b <;> simp [channelBand]

theorem ok_channelClass (a : ChannelClass) : ok (channelClass a) = true := by cases a <;> names
theorem channelClass_inj {a b : ChannelClass} : channelClass a = channelClass b ↔ a = b := by cases a <;> cases b <;> simp [channelClass]

theorem ok_channelCoding (a : ChannelCoding) : ok (channelCoding a) = true := by cases a <;> names
theorem channelCoding_inj {a b : ChannelCoding} : channelCoding a = channelCoding b ↔ a = b := by cases a <;> cases b <;> simp [channelCoding]

theorem ok_channelHeader (a : ChannelHeader) : ok (channelHeader a) = true := by
  simp only [channelHeader, ok, okFields, List.isEmpty_cons, ok_channelBand, ok_channelClass, ok_channelCoding, Bool.and_true]
  names
theorem channelHeader_inj {a b : ChannelHeader} : channelHeader a = channelHeader b ↔ a = b := by
  cases a; cases b
  simp [channelHeader, channelBand_inj, channelClass_inj, channelCoding_inj]

theorem ok_channel (a : Channel) : ok (channel a) = true := by
  simp only [channel, ok, okFields, List.isEmpty_cons, ok_channelHeader, ok_uint, Bool.and_true]
  names
theorem channel_inj {a b : Channel} : channel a = channel b ↔ a = b := by
  cases a; cases b
  simp [channel, channelHeader_inj, uint_inj]

theorem ok_channelStatusIdentifier (a : ChannelStatusIdentifier) : ok (channelStatusIdentifier a) = true := by
  simp only [channelStatusIdentifier, ok, okFields, List.isEmpty_cons, ok_channelBand, ok_bandwidth, ok_uint, Bool.and_true]
  names
theorem channelStatusIdentifier_inj {a b : ChannelStatusIdentifier} : channelStatusIdentifier a = channelStatusIdentifier b ↔ a = b := by
  cases a; cases b
  simp [channelStatusIdentifier, channelBand_inj, bandwidth_inj, uint_inj]

theorem ok_channelStatus (a : ChannelStatus) : ok (channelStatus a) = true := by
  simp only [channelStatus, ok, okFields, List.isEmpty_cons, ok_channelStatusIdentifier, ok_uint, Bool.and_true]
  names
theorem channelStatus_inj {a b : ChannelStatus} : channelStatus a = channelStatus b ↔ a = b := by
  cases a; cases b
  simp [channelStatus, channelStatusIdentifier_inj, uint_inj]

theorem ok_subBand (a : SubBand) : ok (subBand a) = true := by
  simp only [subBand, ok, okFields, List.isEmpty_cons, ok_uint, ok_i8, Bool.and_true]
  names
theorem subBand_inj {a b : SubBand} : subBand a = subBand b ↔ a = b := by
  cases a; cases b
  simp [subBand, uint_inj, i8_inj]

theorem ok_subProfile (a : SubProfile) : ok (subProfile a) = true := by
  simp only [subProfile, ok, okFields, List.isEmpty_cons, ok_uint, ok_varInt, Bool.and_true]
  names
theorem subProfile_inj {a b : SubProfile} : subProfile a = subProfile b ↔ a = b := by
  cases a; cases b
  simp [subProfile, uint_inj, varInt_inj]

theorem ok_accessClass (a : AccessClass) : ok (accessClass a) = true := by
  simp only [accessClass, ok, okFields, List.isEmpty_cons, ok_uint, Bool.and_true]
  names
theorem accessClass_inj {a b : AccessClass} : accessClass a = accessClass b ↔ a = b := by
  cases a; cases b
  simp [accessClass, uint_inj]

theorem ok_accessProfile (a : AccessProfile) : ok (accessProfile a) = true := by
  simp only [accessProfile, ok, okFields, List.isEmpty_cons, ok_channelHeader, oks_map _ (fun a _ => ok_subProfile a), oks_map _ (fun a _ => ok_subBand a), Bool.and_true]
  names
theorem accessProfile_inj {a b : AccessProfile} : accessProfile a = accessProfile b ↔ a = b := by
  cases a; cases b
  simp [accessProfile, channelHeader_inj, map_inj subProfile_inj, map_inj subBand_inj, vec_inj]

theorem ok_groupCondition (a : GroupCondition) : ok (groupCondition a) = true := by cases a <;> names
theorem groupCondition_inj {a b : GroupCondition} : groupCondition a = groupCondition b ↔ a = b := by cases a <;> cases b <;> simp [groupCondition]

theorem ok_nlsMethod (a : NlsMethod) : ok (nlsMethod a) = true := by cases a <;> names
theorem nlsMethod_inj {a b : NlsMethod} : nlsMethod a = nlsMethod b ↔ a = b := by cases a <;> cases b <;> simp [nlsMethod]

theorem ok_nlsState (a : NlsState) : ok (nlsState a) = true := by
  cases a <;> simp only [nlsState, ok, ok_bytes, Bool.and_true] <;> names
theorem nlsState_inj {a b : NlsState} : nlsState a = nlsState b ↔ a = b := by
  cases a <;> cases b <;> simp [nlsState, bytes_inj, vec_inj]

theorem ok_addressType (a : AddressType) : ok (addressType a) = true := by cases a <;> names
theorem addressType_inj {a b : AddressType} : addressType a = addressType b ↔ a = b := by cases a <;> cases b <;> simp [addressType]

theorem ok_address (a : Address) : ok (address a) = true := by
  cases a <;> simp only [address, ok, ok_varInt, ok_uint, Bool.and_true] <;> names
theorem address_inj {a b : Address} : address a = address b ↔ a = b := by
  cases a <;> cases b <;> simp [address, varInt_inj, uint_inj]

theorem ok_actionCondition (a : Data.ActionCondition) : ok (actionCondition a) = true := by cases a <;> names
theorem actionCondition_inj {a b : Data.ActionCondition} : actionCondition a = actionCondition b ↔ a = b := by cases a <;> cases b <;> simp [actionCondition]

theorem ok_storageClass (a : Data.StorageClass) : ok (storageClass a) = true := by cases a <;> names
theorem storageClass_inj {a b : Data.StorageClass} : storageClass a = storageClass b ↔ a = b := by cases a <;> cases b <;> simp [storageClass]

theorem ok_userPermissions (a : Data.UserPermissions) : ok (userPermissions a) = true := by
  simp only [userPermissions, ok, okFields, List.isEmpty_cons, ok_bool, Bool.and_true]
  names
theorem userPermissions_inj {a b : Data.UserPermissions} : userPermissions a = userPermissions b ↔ a = b := by
  cases a; cases b
  simp [userPermissions, bool_inj]

theorem ok_filePermissions (a : Data.FilePermissions) : ok (filePermissions a) = true := by
  simp only [filePermissions, ok, okFields, List.isEmpty_cons, ok_bool, ok_userPermissions, Bool.and_true]
  names
theorem filePermissions_inj {a b : Data.FilePermissions} : filePermissions a = filePermissions b ↔ a = b := by
  cases a; cases b
  simp [filePermissions, bool_inj, userPermissions_inj]

theorem ok_fileProperties (a : Data.FileProperties) : ok (fileProperties a) = true := by
  simp only [fileProperties, ok, okFields, List.isEmpty_cons, ok_bool, ok_actionCondition, ok_storageClass, Bool.and_true]
  names
theorem fileProperties_inj {a b : Data.FileProperties} : fileProperties a = fileProperties b ↔ a = b := by
  cases a; cases b
  simp [fileProperties, bool_inj, actionCondition_inj, storageClass_inj]

theorem ok_fileHeader (a : Data.FileHeader) : ok (fileHeader a) = true := by
  simp only [fileHeader, ok, okFields, List.isEmpty_cons, ok_filePermissions, ok_fileProperties, ok_uint, Bool.and_true]
  names
theorem fileHeader_inj {a b : Data.FileHeader} : fileHeader a = fileHeader b ↔ a = b := by
  cases a; cases b
  simp [fileHeader, filePermissions_inj, fileProperties_inj, uint_inj]

theorem ok_dllConfig (a : DllConfig) : ok (dllConfig a) = true := by
  simp only [dllConfig, ok, okFields, List.isEmpty_cons, ok_uint, Bool.and_true]
  names
theorem dllConfig_inj {a b : DllConfig} : dllConfig a = dllConfig b ↔ a = b := by
  cases a; cases b
  simp [dllConfig, uint_inj]

theorem ok_dllStatus (a : DllStatus) : ok (dllStatus a) = true := by
  simp only [dllStatus, ok, okFields, List.isEmpty_cons, ok_uint, ok_channelHeader, Bool.and_true]
  names
theorem dllStatus_inj {a b : DllStatus} : dllStatus a = dllStatus b ↔ a = b := by
  cases a; cases b
  simp [dllStatus, uint_inj, channelHeader_inj]

theorem ok_engineeringModeMethod (a : EngineeringModeMethod) : ok (engineeringModeMethod a) = true := by cases a <;> names
theorem engineeringModeMethod_inj {a b : EngineeringModeMethod} : engineeringModeMethod a = engineeringModeMethod b ↔ a = b := by cases a <;> cases b <;> simp [engineeringModeMethod]

theorem ok_engineeringMode (a : EngineeringMode) : ok (engineeringMode a) = true := by
  simp only [engineeringMode, ok, okFields, List.isEmpty_cons, ok_engineeringModeMethod, ok_uint, ok_channel, ok_i8, Bool.and_true]
  names
theorem engineeringMode_inj {a b : EngineeringMode} : engineeringMode a = engineeringMode b ↔ a = b := by
  cases a; cases b
  simp [engineeringMode, engineeringModeMethod_inj, uint_inj, channel_inj, i8_inj]

theorem ok_factorySettings (a : FactorySettings) : ok (factorySettings a) = true := by
  simp only [factorySettings, ok, okFields, List.isEmpty_cons, ok_uint, ok_i8, Bool.and_true]
  names
theorem factorySettings_inj {a b : FactorySettings} : factorySettings a = factorySettings b ↔ a = b := by
  cases a; cases b
  simp [factorySettings, uint_inj, i8_inj]

theorem ok_firmwareVersion (a : FirmwareVersion) : ok (firmwareVersion a) = true := by
  simp only [firmwareVersion, ok, okFields, List.isEmpty_cons, ok_uint, Bool.and_true]
  names
theorem firmwareVersion_inj {a b : FirmwareVersion} : firmwareVersion a = firmwareVersion b ↔ a = b := by
  cases a; cases b
  simp [firmwareVersion, uint_inj]

theorem ok_phyStatus (a : PhyStatus) : ok (phyStatus a) = true := by
  simp only [phyStatus, ok, okFields, List.isEmpty_cons, ok_uint, oks_map _ (fun a _ => ok_channelStatus a), Bool.and_true]
  names
theorem phyStatus_inj {a b : PhyStatus} : phyStatus a = phyStatus b ↔ a = b := by
  cases a; cases b
  simp [phyStatus, uint_inj, map_inj channelStatus_inj]

theorem ok_securityKey (a : SecurityKey) : ok (securityKey a) = true := by
  simp only [securityKey, ok, okFields, List.isEmpty_cons, ok_uint, Bool.and_true]
  names
theorem securityKey_inj {a b : SecurityKey} : securityKey a = securityKey b ↔ a = b := by
  cases a; cases b
  simp [securityKey, uint_inj]

theorem accessProfileName_spec : ∀ i : Fin 15, isName (accessProfileName i) = true ∧
    ∀ j : Fin 15, accessProfileName i = accessProfileName j → i = j := by decide +kernel

theorem accessProfileName_inj {i j : Fin 15} : accessProfileName i = accessProfileName j ↔ i = j :=
  ⟨(accessProfileName_spec i).2 j, fun h => by rw [h]⟩

theorem accessProfileName_ne : ∀ i : Fin 15, ∀ s ∈ ["UId", "FactorySettings", "FirmwareVersion",
    "EngineeringMode", "VId", "PhyStatus", "DllConfig", "DllStatus", "NwlSecurityKey", "Other"],
    accessProfileName i ≠ s := by decide +kernel

theorem ok_file (a : File) : ok (file a) = true := by
  cases a <;> simp only [file, ok, okFields, List.isEmpty_cons, ok_accessProfile, (accessProfileName_spec _).1,
    ok_address, ok_factorySettings, ok_firmwareVersion, ok_engineeringMode, ok_phyStatus, ok_dllConfig,
    ok_dllStatus, ok_securityKey, ok_bytes, Bool.and_true] <;> names

theorem file_inj {a b : File} : file a = file b ↔ a = b := by
  have h1 : ∀ (i : Fin 15) (s : String), s ∈ ["UId", "FactorySettings", "FirmwareVersion",
    "EngineeringMode", "VId", "PhyStatus", "DllConfig", "DllStatus", "NwlSecurityKey", "Other"] →
    s ≠ accessProfileName i := fun i s hs => (accessProfileName_ne i s hs).symm
  cases a <;> cases b <;> simp [file, accessProfileName_inj, accessProfile_inj, address_inj,
    factorySettings_inj, firmwareVersion_inj, engineeringMode_inj, phyStatus_inj, dllConfig_inj, dllStatus_inj,
    securityKey_inj, bytes_inj, accessProfileName_ne, h1]

theorem ok_interfaceType (a : InterfaceType) : ok (interfaceType a) = true := by cases a <;> names
theorem interfaceType_inj {a b : InterfaceType} : interfaceType a = interfaceType b ↔ a = b := by cases a <;> cases b <;> simp [interfaceType]

theorem ok_responseMode (a : ResponseMode) : ok (responseMode a) = true := by cases a <;> names
theorem responseMode_inj {a b : ResponseMode} : responseMode a = responseMode b ↔ a = b := by cases a <;> cases b <;> simp [responseMode]

theorem ok_retryMode (a : RetryMode) : ok (retryMode a) = true := by cases a <;> names
theorem retryMode_inj {a b : RetryMode} : retryMode a = retryMode b ↔ a = b := by cases a <;> cases b <;> simp [retryMode]

theorem ok_qos (a : QoS) : ok (qos a) = true := by
  simp only [qos, ok, okFields, List.isEmpty_cons, ok_bool, ok_retryMode, ok_responseMode, Bool.and_true]
  names
theorem qos_inj {a b : QoS} : qos a = qos b ↔ a = b := by
  cases a; cases b
  simp [qos, bool_inj, retryMode_inj, responseMode_inj]

theorem ok_interfaceFinalStatus (a : InterfaceFinalStatus) : ok (interfaceFinalStatus a) = true := by
  cases a <;> simp only [interfaceFinalStatus, ok, ok_finalStatusCode, ok_bytes, Bool.and_true] <;> names
theorem interfaceFinalStatus_inj {a b : InterfaceFinalStatus} : interfaceFinalStatus a = interfaceFinalStatus b ↔ a = b := by
  cases a <;> cases b <;> simp [interfaceFinalStatus, finalStatusCode_inj, bytes_inj]

theorem ok_loRaWAN (a : LoRaWANInterfaceConfiguration) : ok (loRaWAN a) = true := by
  simp only [loRaWAN, ok, okFields, List.isEmpty_cons, ok_bool, ok_uint, Bool.and_true]
  names
theorem loRaWAN_inj {a b : LoRaWANInterfaceConfiguration} : loRaWAN a = loRaWAN b ↔ a = b := by
  cases a; cases b
  simp [loRaWAN, bool_inj, uint_inj]

theorem ok_loRaWANOTAA (a : LoRaWANOTAAInterfaceConfiguration) : ok (loRaWANOTAA a) = true := by
  simp only [loRaWANOTAA, ok, okFields, List.isEmpty_cons, ok_loRaWAN, ok_bytes, Bool.and_true]
  names
theorem loRaWANOTAA_inj {a b : LoRaWANOTAAInterfaceConfiguration} : loRaWANOTAA a = loRaWANOTAA b ↔ a = b := by
  cases a; cases b
  simp [loRaWANOTAA, loRaWAN_inj, bytes_inj]

theorem ok_loRaWANABP (a : LoRaWANABPInterfaceConfiguration) : ok (loRaWANABP a) = true := by
  simp only [loRaWANABP, ok, okFields, List.isEmpty_cons, ok_loRaWAN, ok_bytes, ok_uint, Bool.and_true]
  names
theorem loRaWANABP_inj {a b : LoRaWANABPInterfaceConfiguration} : loRaWANABP a = loRaWANABP b ↔ a = b := by
  cases a; cases b
  simp [loRaWANABP, loRaWAN_inj, bytes_inj, uint_inj]

theorem ok_arithmeticComparisonType (a : ArithmeticComparisonType) : ok (arithmeticComparisonType a) = true := by cases a <;> names
theorem arithmeticComparisonType_inj {a b : ArithmeticComparisonType} : arithmeticComparisonType a = arithmeticComparisonType b ↔ a = b := by cases a <;> cases b <;> simp [arithmeticComparisonType]

theorem ok_arithmeticQueryParams (a : ArithmeticQueryParams) : ok (arithmeticQueryParams a) = true := by
  simp only [arithmeticQueryParams, ok, okFields, List.isEmpty_cons, ok_bool, ok_arithmeticComparisonType, Bool.and_true]
  names
theorem arithmeticQueryParams_inj {a b : ArithmeticQueryParams} : arithmeticQueryParams a = arithmeticQueryParams b ↔ a = b := by
  cases a; cases b
  simp [arithmeticQueryParams, bool_inj, arithmeticComparisonType_inj]

theorem ok_rangeComparisonType (a : RangeComparisonType) : ok (rangeComparisonType a) = true := by cases a <;> names
theorem rangeComparisonType_inj {a b : RangeComparisonType} : rangeComparisonType a = rangeComparisonType b ↔ a = b := by cases a <;> cases b <;> simp [rangeComparisonType]

theorem ok_rangeQueryParams (a : RangeQueryParams) : ok (rangeQueryParams a) = true := by
  simp only [rangeQueryParams, ok, okFields, List.isEmpty_cons, ok_bool, ok_rangeComparisonType, Bool.and_true]
  names
theorem rangeQueryParams_inj {a b : RangeQueryParams} : rangeQueryParams a = rangeQueryParams b ↔ a = b := by
  cases a; cases b
  simp [rangeQueryParams, bool_inj, rangeComparisonType_inj]

theorem ok_nonVoid (a : NonVoid) : ok (nonVoid a) = true := by
  simp only [nonVoid, ok, okFields, List.isEmpty_cons, ok_length, ok_fileOffset, Bool.and_true]
  names
theorem nonVoid_inj {a b : NonVoid} : nonVoid a = nonVoid b ↔ a = b := by
  cases a; cases b
  simp [nonVoid, length_inj, fileOffset_inj]

theorem ok_comparisonWithZero (a : ComparisonWithZero) : ok (comparisonWithZero a) = true := by
  simp only [comparisonWithZero, ok, okFields, List.isEmpty_cons, ok_bool, ok_arithmeticQueryParams, ok_length, ok_bytes, ok_fileOffset, Bool.and_true]
  names
theorem comparisonWithZero_inj {a b : ComparisonWithZero} : comparisonWithZero a = comparisonWithZero b ↔ a = b := by
  cases a; cases b
  simp [comparisonWithZero, bool_inj, arithmeticQueryParams_inj, length_inj, bytes_inj, fileOffset_inj]

theorem ok_comparisonWithValue (a : ComparisonWithValue) : ok (comparisonWithValue a) = true := by
  simp only [comparisonWithValue, ok, okFields, List.isEmpty_cons, ok_bool, ok_arithmeticQueryParams, ok_length, ok_bytes, ok_fileOffset, Bool.and_true]
  names
theorem comparisonWithValue_inj {a b : ComparisonWithValue} : comparisonWithValue a = comparisonWithValue b ↔ a = b := by
  cases a; cases b
  simp [comparisonWithValue, bool_inj, arithmeticQueryParams_inj, length_inj, bytes_inj, fileOffset_inj]

theorem ok_comparisonWithOtherFile (a : ComparisonWithOtherFile) : ok (comparisonWithOtherFile a) = true := by
  simp only [comparisonWithOtherFile, ok, okFields, List.isEmpty_cons, ok_bool, ok_arithmeticQueryParams, ok_length, ok_bytes, ok_fileOffset, Bool.and_true]
  names
theorem comparisonWithOtherFile_inj {a b : ComparisonWithOtherFile} : comparisonWithOtherFile a = comparisonWithOtherFile b ↔ a = b := by
  cases a; cases b
  simp [comparisonWithOtherFile, bool_inj, arithmeticQueryParams_inj, length_inj, bytes_inj, fileOffset_inj]

theorem ok_bitmapRangeComparison (a : BitmapRangeComparison) : ok (bitmapRangeComparison a) = true := by
  simp only [bitmapRangeComparison, ok, okFields, List.isEmpty_cons, ok_bool, ok_rangeQueryParams, ok_length, ok_bytes, ok_fileOffset, Bool.and_true]
  names
theorem bitmapRangeComparison_inj {a b : BitmapRangeComparison} : bitmapRangeComparison a = bitmapRangeComparison b ↔ a = b := by
  cases a; cases b
  simp [bitmapRangeComparison, bool_inj, rangeQueryParams_inj, length_inj, bytes_inj, fileOffset_inj]

theorem ok_stringTokenSearch (a : StringTokenSearch) : ok (stringTokenSearch a) = true := by
  simp only [stringTokenSearch, ok, okFields, List.isEmpty_cons, ok_bool, ok_uint, ok_length, ok_bytes, ok_fileOffset, Bool.and_true]
  names
theorem stringTokenSearch_inj {a b : StringTokenSearch} : stringTokenSearch a = stringTokenSearch b ↔ a = b := by
  cases a; cases b
  simp [stringTokenSearch, bool_inj, uint_inj, length_inj, bytes_inj, fileOffset_inj]

theorem ok_query (a : Query) : ok (query a) = true := by
  cases a <;> simp only [query, ok, ok_nonVoid, ok_comparisonWithZero, ok_comparisonWithValue, ok_comparisonWithOtherFile, ok_bitmapRangeComparison, ok_stringTokenSearch, Bool.and_true] <;> names
theorem query_inj {a b : Query} : query a = query b ↔ a = b := by
  cases a <;> cases b <;> simp [query, nonVoid_inj, comparisonWithZero_inj, comparisonWithValue_inj, comparisonWithOtherFile_inj, bitmapRangeComparison_inj, stringTokenSearch_inj]

theorem ok_opCode (a : OpCode) : ok (opCode a) = true := by
  simp only [opCode, ok, okFields, List.isEmpty_cons, ok_uint, Bool.and_true]
  names
theorem opCode_inj {a b : OpCode} : opCode a = opCode b ↔ a = b := by
  cases a; cases b
  simp [opCode, uint_inj]

theorem ok_statusCode (a : StatusCode) : ok (statusCode a) = true := by
  simp only [statusCode, ok, okFields, List.isEmpty_cons, ok_uint, Bool.and_true]
  names
theorem statusCode_inj {a b : StatusCode} : statusCode a = statusCode b ↔ a = b := by
  cases a; cases b
  simp [statusCode, uint_inj]

theorem ok_actionStatus (a : ActionStatus) : ok (actionStatus a) = true := by
  simp only [actionStatus, ok, okFields, List.isEmpty_cons, ok_uint, ok_statusCode, Bool.and_true]
  names
theorem actionStatus_inj {a b : ActionStatus} : actionStatus a = actionStatus b ↔ a = b := by
  cases a; cases b
  simp [actionStatus, uint_inj, statusCode_inj]

theorem ok_permission (a : Permission) : ok (permission a) = true := by
  cases a <;> simp only [permission, ok, ok_bytes, Bool.and_true] <;> names
theorem permission_inj {a b : Permission} : permission a = permission b ↔ a = b := by
  cases a <;> cases b <;> simp [permission, bytes_inj, vec_inj]

theorem ok_permissionLevel (a : PermissionLevel) : ok (permissionLevel a) = true := by cases a <;> names
theorem permissionLevel_inj {a b : PermissionLevel} : permissionLevel a = permissionLevel b ↔ a = b := by cases a <;> cases b <;> simp [permissionLevel]

theorem ok_actionHeader (a : ActionHeader) : ok (actionHeader a) = true := by
  simp only [actionHeader, ok, okFields, List.isEmpty_cons, ok_bool, Bool.and_true]
  names
theorem actionHeader_inj {a b : ActionHeader} : actionHeader a = actionHeader b ↔ a = b := by
  cases a; cases b
  simp [actionHeader, bool_inj]

theorem ok_nop (a : Op.Nop) : ok (nop a) = true := by
  simp only [nop, ok, okFields, List.isEmpty_cons, ok_actionHeader, ok_opCode, Bool.and_true]
  names
theorem nop_inj {a b : Op.Nop} : nop a = nop b ↔ a = b := by
  cases a; cases b
  simp [nop, actionHeader_inj, opCode_inj]

theorem ok_fileIdOp (a : Op.FileId) : ok (fileIdOp a) = true := by
  simp only [fileIdOp, ok, okFields, List.isEmpty_cons, ok_actionHeader, ok_opCode, ok_uint, Bool.and_true]
  names
theorem fileIdOp_inj {a b : Op.FileId} : fileIdOp a = fileIdOp b ↔ a = b := by
  cases a; cases b
  simp [fileIdOp, actionHeader_inj, opCode_inj, uint_inj]

theorem ok_fileData (a : Op.FileData) : ok (fileData a) = true := by
  simp only [fileData, ok, okFields, List.isEmpty_cons, ok_actionHeader, ok_opCode, ok_fileOffset, ok_file, Bool.and_true]
  names
theorem fileData_inj {a b : Op.FileData} : fileData a = fileData b ↔ a = b := by
  cases a; cases b
  simp [fileData, actionHeader_inj, opCode_inj, fileOffset_inj, file_inj]

theorem ok_filePropertiesOp (a : Op.FileProperties) : ok (filePropertiesOp a) = true := by
  simp only [filePropertiesOp, ok, okFields, List.isEmpty_cons, ok_actionHeader, ok_opCode, ok_uint, ok_fileHeader, Bool.and_true]
  names
theorem filePropertiesOp_inj {a b : Op.FileProperties} : filePropertiesOp a = filePropertiesOp b ↔ a = b := by
  cases a; cases b
  simp [filePropertiesOp, actionHeader_inj, opCode_inj, uint_inj, fileHeader_inj]

theorem ok_readFileData (a : Op.ReadFileData) : ok (readFileData a) = true := by
  simp only [readFileData, ok, okFields, List.isEmpty_cons, ok_actionHeader, ok_opCode, ok_fileOffset, ok_length, Bool.and_true]
  names
theorem readFileData_inj {a b : Op.ReadFileData} : readFileData a = readFileData b ↔ a = b := by
  cases a; cases b
  simp [readFileData, actionHeader_inj, opCode_inj, fileOffset_inj, length_inj]

theorem ok_actionQuery (a : Op.ActionQuery) : ok (actionQuery a) = true := by
  simp only [actionQuery, ok, okFields, List.isEmpty_cons, ok_actionHeader, ok_opCode, ok_query, Bool.and_true]
  names
theorem actionQuery_inj {a b : Op.ActionQuery} : actionQuery a = actionQuery b ↔ a = b := by
  cases a; cases b
  simp [actionQuery, actionHeader_inj, opCode_inj, query_inj]

theorem ok_permissionRequest (a : Op.PermissionRequest) : ok (permissionRequest a) = true := by
  simp only [permissionRequest, ok, okFields, List.isEmpty_cons, ok_actionHeader, ok_opCode, ok_permissionLevel, ok_permission, Bool.and_true]
  names
theorem permissionRequest_inj {a b : Op.PermissionRequest} : permissionRequest a = permissionRequest b ↔ a = b := by
  cases a; cases b
  simp [permissionRequest, actionHeader_inj, opCode_inj, permissionLevel_inj, permission_inj]

theorem ok_copyFile (a : Op.CopyFile) : ok (copyFile a) = true := by
  simp only [copyFile, ok, okFields, List.isEmpty_cons, ok_actionHeader, ok_opCode, ok_uint, Bool.and_true]
  names
theorem copyFile_inj {a b : Op.CopyFile} : copyFile a = copyFile b ↔ a = b := by
  cases a; cases b
  simp [copyFile, actionHeader_inj, opCode_inj, uint_inj]

theorem ok_statusType (a : Op.StatusType) : ok (statusType a) = true := by cases a <;> names
theorem statusType_inj {a b : Op.StatusType} : statusType a = statusType b ↔ a = b := by cases a <;> cases b <;> simp [statusType]

theorem ok_interfaceFinalStatusOperation (a : Op.InterfaceFinalStatusOperation) : ok (interfaceFinalStatusOperation a) = true := by
  simp only [interfaceFinalStatusOperation, ok, okFields, List.isEmpty_cons, ok_uint, ok_interfaceFinalStatus, Bool.and_true]
  names
theorem interfaceFinalStatusOperation_inj {a b : Op.InterfaceFinalStatusOperation} : interfaceFinalStatusOperation a = interfaceFinalStatusOperation b ↔ a = b := by
  cases a; cases b
  simp [interfaceFinalStatusOperation, uint_inj, interfaceFinalStatus_inj]

theorem ok_responseTagHeader (a : Op.ResponseTagHeader) : ok (responseTagHeader a) = true := by
  simp only [responseTagHeader, ok, okFields, List.isEmpty_cons, ok_bool, Bool.and_true]
  names
theorem responseTagHeader_inj {a b : Op.ResponseTagHeader} : responseTagHeader a = responseTagHeader b ↔ a = b := by
  cases a; cases b
  simp [responseTagHeader, bool_inj]

theorem ok_responseTag (a : Op.ResponseTag) : ok (responseTag a) = true := by
  simp only [responseTag, ok, okFields, List.isEmpty_cons, ok_responseTagHeader, ok_opCode, ok_uint, Bool.and_true]
  names
theorem responseTag_inj {a b : Op.ResponseTag} : responseTag a = responseTag b ↔ a = b := by
  cases a; cases b
  simp [responseTag, responseTagHeader_inj, opCode_inj, uint_inj]

theorem ok_chunkStep (a : Op.ChunkStep) : ok (chunkStep a) = true := by cases a <;> names
theorem chunkStep_inj {a b : Op.ChunkStep} : chunkStep a = chunkStep b ↔ a = b := by cases a <;> cases b <;> simp [chunkStep]

theorem ok_chunk (a : Op.Chunk) : ok (chunk a) = true := by
  simp only [chunk, ok, okFields, List.isEmpty_cons, ok_chunkStep, ok_opCode, Bool.and_true]
  names
theorem chunk_inj {a b : Op.Chunk} : chunk a = chunk b ↔ a = b := by
  cases a; cases b
  simp [chunk, chunkStep_inj, opCode_inj]

theorem ok_logicOp (a : Op.LogicOp) : ok (logicOp a) = true := by cases a <;> names
theorem logicOp_inj {a b : Op.LogicOp} : logicOp a = logicOp b ↔ a = b := by cases a <;> cases b <;> simp [logicOp]

theorem ok_logic (a : Op.Logic) : ok (logic a) = true := by
  simp only [logic, ok, okFields, List.isEmpty_cons, ok_logicOp, ok_opCode, Bool.and_true]
  names
theorem logic_inj {a b : Op.Logic} : logic a = logic b ↔ a = b := by
  cases a; cases b
  simp [logic, logicOp_inj, opCode_inj]

theorem ok_indirectForwardHeader (a : Op.IndirectForwardHeader) : ok (indirectForwardHeader a) = true := by
  simp only [indirectForwardHeader, ok, okFields, List.isEmpty_cons, ok_bool, Bool.and_true]
  names
theorem indirectForwardHeader_inj {a b : Op.IndirectForwardHeader} : indirectForwardHeader a = indirectForwardHeader b ↔ a = b := by
  cases a; cases b
  simp [indirectForwardHeader, bool_inj]

theorem ok_requestTag (a : Op.RequestTag) : ok (requestTag a) = true := by
  simp only [requestTag, ok, okFields, List.isEmpty_cons, ok_bool, ok_opCode, ok_uint, Bool.and_true]
  names
theorem requestTag_inj {a b : Op.RequestTag} : requestTag a = requestTag b ↔ a = b := by
  cases a; cases b
  simp [requestTag, bool_inj, opCode_inj, uint_inj]

theorem ok_extension (a : Op.Extension) : ok (extension a) = true := by
  simp only [extension, ok, okFields, List.isEmpty_cons, ok_actionHeader, ok_opCode, Bool.and_true]
  names
theorem extension_inj {a b : Op.Extension} : extension a = extension b ↔ a = b := by
  cases a; cases b
  simp [extension, actionHeader_inj, opCode_inj]

theorem ok_transControl (a : Trans.Control) : ok (transControl a) = true := by
  simp only [transControl, ok, okFields, List.isEmpty_cons, ok_bool, Bool.and_true]
  names
theorem transControl_inj {a b : Trans.Control} : transControl a = transControl b ↔ a = b := by
  cases a; cases b
  simp [transControl, bool_inj]

theorem ok_ackTemplate (a : Trans.AckTemplate) : ok (ackTemplate a) = true := by
  simp only [ackTemplate, ok, okFields, List.isEmpty_cons, ok_uint, Bool.and_true]
  names
theorem ackTemplate_inj {a b : Trans.AckTemplate} : ackTemplate a = ackTemplate b ↔ a = b := by
  cases a; cases b
  simp [ackTemplate, uint_inj]

theorem ok_netControl (a : Net.Control) : ok (netControl a) = true := by
  simp only [netControl, ok, okFields, List.isEmpty_cons, ok_bool, ok_addressType, ok_nlsMethod, Bool.and_true]
  names
theorem netControl_inj {a b : Net.Control} : netControl a = netControl b ↔ a = b := by
  cases a; cases b
  simp [netControl, bool_inj, addressType_inj, nlsMethod_inj]

theorem ok_hoppingControl (a : Net.HoppingControl) : ok (hoppingControl a) = true := by
  simp only [hoppingControl, ok, okFields, List.isEmpty_cons, ok_bool, ok_addressType, Bool.and_true]
  names
theorem hoppingControl_inj {a b : Net.HoppingControl} : hoppingControl a = hoppingControl b ↔ a = b := by
  cases a; cases b
  simp [hoppingControl, bool_inj, addressType_inj]

theorem ok_foregroundFrameControl (a : ForegroundFrameControl) : ok (foregroundFrameControl a) = true := by
  simp only [foregroundFrameControl, ok, okFields, List.isEmpty_cons, ok_addressType, ok_uint, Bool.and_true]
  names
theorem foregroundFrameControl_inj {a b : ForegroundFrameControl} : foregroundFrameControl a = foregroundFrameControl b ↔ a = b := by
  cases a; cases b
  simp [foregroundFrameControl, addressType_inj, uint_inj]

theorem ok_backgroundFrameControl (a : BackgroundFrameControl) : ok (backgroundFrameControl a) = true := by
  simp only [backgroundFrameControl, ok, okFields, List.isEmpty_cons, ok_addressType, ok_uint, Bool.and_true]
  names
theorem backgroundFrameControl_inj {a b : BackgroundFrameControl} : backgroundFrameControl a = backgroundFrameControl b ↔ a = b := by
  cases a; cases b
  simp [backgroundFrameControl, addressType_inj, uint_inj]

theorem ok_backgroundFrame (a : BackgroundFrame) : ok (backgroundFrame a) = true := by
  simp only [backgroundFrame, ok, okFields, List.isEmpty_cons, ok_backgroundFrameControl, ok_uint, Bool.and_true]
  names
theorem backgroundFrame_inj {a b : BackgroundFrame} : backgroundFrame a = backgroundFrame b ↔ a = b := by
  cases a; cases b
  simp [backgroundFrame, backgroundFrameControl_inj, uint_inj]

/-! ## The types that differ between the builds -/

theorem ok_addressee (cfg : Cfg) (a : Addressee) : ok (addressee cfg a) = true := by
  unfold addressee
  split <;> simp only [ok, okFields, List.isEmpty_cons, ok_groupCondition, ok_addressType, ok_bool, ok_nlsMethod,
    ok_accessClass, ok_address, ok_nlsState, Bool.and_true] <;> names

theorem addressee_inj {cfg : Cfg} {a b : Addressee} (ha : Spec.addresseeInBuild cfg a)
    (hb : Spec.addresseeInBuild cfg b) (h : addressee cfg a = addressee cfg b) : a = b := by
  unfold Spec.addresseeInBuild at ha hb
  unfold addressee at h
  cases a; cases b
  cases hv : cfg.variant <;>
    simp [hv, groupCondition_inj, addressType_inj, bool_inj, nlsMethod_inj, accessClass_inj, address_inj,
      nlsState_inj] at h ha hb ⊢ <;> simp [h, ha, hb]

theorem ok_dash7InterfaceStatus (cfg : Cfg) (a : Dash7InterfaceStatus) :
    ok (dash7InterfaceStatus cfg a) = true := by
  simp only [dash7InterfaceStatus, ok, okFields, List.isEmpty_cons, ok_channel, ok_uint, ok_bool, ok_varInt,
    ok_addressee, Bool.and_true]
  names

theorem dash7InterfaceStatus_inj {cfg : Cfg} {a b : Dash7InterfaceStatus}
    (ha : Spec.addresseeInBuild cfg a.addressee) (hb : Spec.addresseeInBuild cfg b.addressee)
    (h : dash7InterfaceStatus cfg a = dash7InterfaceStatus cfg b) : a = b := by
  cases a; cases b
  simp [dash7InterfaceStatus, channel_inj, uint_inj, bool_inj, varInt_inj] at h ⊢
  simp [h]
  exact addressee_inj ha hb (by simp [h])

theorem ok_interfaceStatus (cfg : Cfg) (a : InterfaceStatus) : ok (interfaceStatus cfg a) = true := by
  cases a <;> simp only [interfaceStatus, ok, ok_dash7InterfaceStatus, ok_bytes, Bool.and_true] <;> names

theorem interfaceStatus_inj {cfg : Cfg} {a b : InterfaceStatus} (ha : Spec.statusInBuild cfg a)
    (hb : Spec.statusInBuild cfg b) (h : interfaceStatus cfg a = interfaceStatus cfg b) : a = b := by
  cases a <;> cases b <;> simp [interfaceStatus, bytes_inj] at h ⊢
  · exact dash7InterfaceStatus_inj ha hb h
  · exact h

theorem ok_dash7InterfaceTxStatus (cfg : Cfg) (a : Dash7InterfaceTxStatus) :
    ok (dash7InterfaceTxStatus cfg a) = true := by
  simp only [dash7InterfaceTxStatus, ok, okFields, List.isEmpty_cons, ok_channel, ok_uint, ok_i8,
    ok_finalStatusCode, ok_addressee, Bool.and_true]
  names

theorem dash7InterfaceTxStatus_inj {cfg : Cfg} {a b : Dash7InterfaceTxStatus}
    (ha : Spec.addresseeInBuild cfg a.addressee) (hb : Spec.addresseeInBuild cfg b.addressee)
    (h : dash7InterfaceTxStatus cfg a = dash7InterfaceTxStatus cfg b) : a = b := by
  cases a; cases b
  simp [dash7InterfaceTxStatus, channel_inj, uint_inj, i8_inj, finalStatusCode_inj] at h ⊢
  simp [h]
  exact addressee_inj ha hb (by simp [h])

theorem ok_interfaceTxStatus (cfg : Cfg) (a : InterfaceTxStatus) : ok (interfaceTxStatus cfg a) = true := by
  cases a <;> simp only [interfaceTxStatus, ok, ok_dash7InterfaceTxStatus, ok_bytes, Bool.and_true] <;> names

theorem interfaceTxStatus_inj {cfg : Cfg} {a b : InterfaceTxStatus} (ha : Spec.txStatusInBuild cfg a)
    (hb : Spec.txStatusInBuild cfg b) (h : interfaceTxStatus cfg a = interfaceTxStatus cfg b) : a = b := by
  cases a <;> cases b <;> simp [interfaceTxStatus, bytes_inj] at h ⊢
  · exact dash7InterfaceTxStatus_inj ha hb h
  · exact h

theorem ok_dash7InterfaceConfiguration (cfg : Cfg) (a : Dash7InterfaceConfiguration) :
    ok (dash7InterfaceConfiguration cfg a) = true := by
  unfold dash7InterfaceConfiguration
  split <;> simp only [ok, okFields, List.isEmpty_cons, ok_qos, ok_varInt, ok_addressee, Bool.and_true] <;> names

theorem dash7InterfaceConfiguration_inj {cfg : Cfg} {a b : Dash7InterfaceConfiguration}
    (ha : Spec.dash7ConfigurationInBuild cfg a) (hb : Spec.dash7ConfigurationInBuild cfg b)
    (h : dash7InterfaceConfiguration cfg a = dash7InterfaceConfiguration cfg b) : a = b := by
  obtain ⟨ha, ha'⟩ := ha
  obtain ⟨hb, hb'⟩ := hb
  have key := @addressee_inj cfg a.addressee b.addressee ha hb
  unfold dash7InterfaceConfiguration at h
  clear ha hb
  cases a; cases b
  cases hv : cfg.variant <;> simp [hv, qos_inj, varInt_inj] at h ha' hb' key ⊢
  · exact ⟨h.1, h.2.1, h.2.2.1, key h.2.2.2⟩
  · exact ⟨h.1, h.2.1, by rw [ha', hb'], key h.2.2⟩
  · exact ⟨h.1, h.2.1, h.2.2.1, key h.2.2.2⟩

theorem ok_interfaceConfiguration (cfg : Cfg) (a : InterfaceConfiguration) :
    ok (interfaceConfiguration cfg a) = true := by
  cases a <;> simp only [interfaceConfiguration, ok, ok_loRaWANABP, ok_loRaWANOTAA,
    ok_dash7InterfaceConfiguration, ok_uint, Bool.and_true] <;> names

theorem interfaceConfiguration_inj {cfg : Cfg} {a b : InterfaceConfiguration}
    (ha : Spec.configurationInBuild cfg a) (hb : Spec.configurationInBuild cfg b)
    (h : interfaceConfiguration cfg a = interfaceConfiguration cfg b) : a = b := by
  cases a <;> cases b <;> simp [interfaceConfiguration, loRaWANABP_inj, loRaWANOTAA_inj, uint_inj] at h ⊢
  · exact h
  · exact h
  · exact dash7InterfaceConfiguration_inj ha hb h
  · exact h

theorem ok_indirectInterface (cfg : Cfg) (a : IndirectInterface) : ok (indirectInterface cfg a) = true := by
  cases a <;> simp only [indirectInterface, ok, ok_addressee, ok_uint, Bool.and_true] <;> names

theorem indirectInterface_inj {cfg : Cfg} {a b : IndirectInterface}
    (ha : Spec.indirectInBuild cfg a) (hb : Spec.indirectInBuild cfg b)
    (h : indirectInterface cfg a = indirectInterface cfg b) : a = b := by
  cases a <;> cases b <;> simp [indirectInterface, uint_inj] at h ⊢
  · exact addressee_inj ha hb h
  · exact h

theorem ok_interfaceStatusOperation (cfg : Cfg) (a : Op.InterfaceStatusOperation) :
    ok (interfaceStatusOperation cfg a) = true := by
  simp only [interfaceStatusOperation, ok, okFields, List.isEmpty_cons, ok_interfaceType, ok_interfaceStatus,
    Bool.and_true]
  names

theorem ok_status (cfg : Cfg) (a : Op.Status) : ok (status cfg a) = true := by
  cases a <;> simp only [status, ok, ok_actionStatus, ok_interfaceStatusOperation,
    ok_interfaceFinalStatusOperation, Bool.and_true] <;> names

theorem ok_statusOperand (cfg : Cfg) (a : Op.StatusOperand) : ok (statusOperand cfg a) = true := by
  simp only [statusOperand, ok, okFields, List.isEmpty_cons, ok_statusType, ok_opCode, ok_status, Bool.and_true]
  names

theorem ok_forward (cfg : Cfg) (a : Op.Forward) : ok (forward cfg a) = true := by
  simp only [forward, ok, okFields, List.isEmpty_cons, ok_bool, ok_opCode, ok_interfaceConfiguration,
    Bool.and_true]
  names

theorem ok_indirectForward (cfg : Cfg) (a : Op.IndirectForward) : ok (indirectForward cfg a) = true := by
  simp only [indirectForward, ok, okFields, List.isEmpty_cons, ok_indirectForwardHeader, ok_opCode,
    ok_option (ok_indirectInterface cfg), Bool.and_true]
  names

theorem ok_interfaceTxStatusOperation (cfg : Cfg) (a : Op.InterfaceTxStatusOperation) :
    ok (interfaceTxStatusOperation cfg a) = true := by
  simp only [interfaceTxStatusOperation, ok, okFields, List.isEmpty_cons, ok_uint, ok_interfaceTxStatus,
    Bool.and_true]
  names

theorem ok_txStatusOperation (cfg : Cfg) (a : Op.TxStatusOperation) : ok (txStatusOperation cfg a) = true := by
  simp only [txStatusOperation, ok, okFields, List.isEmpty_cons, ok_opCode, ok_interfaceTxStatusOperation,
    Bool.and_true]
  names

theorem ok_action (cfg : Cfg) (a : Action) : ok (action cfg a) = true := by
  cases a <;> simp only [action, ok, ok_nop, ok_readFileData, ok_fileIdOp, ok_fileData, ok_filePropertiesOp,
    ok_actionQuery, ok_permissionRequest, ok_copyFile, ok_statusOperand, ok_responseTag, ok_txStatusOperation,
    ok_chunk, ok_logic, ok_forward, ok_indirectForward, ok_requestTag, ok_extension, Bool.and_true] <;> names

/-- The names of the variants, by opcode. -/
theorem action_opcode {cfg : Cfg} {a b : Action} (h : name (action cfg a) = name (action cfg b)) :
    Spec.opcodeOf a = Spec.opcodeOf b := by
  cases a <;> cases b <;> first | rfl | exact absurd h (by simp [action, name])

theorem action_inj {cfg : Cfg} {a b : Action} (ha : Spec.InBuild cfg a) (hb : Spec.InBuild cfg b)
    (h : action cfg a = action cfg b) : a = b := by
  have ho := action_opcode (congrArg name h)
  cases a <;> cases b <;> (try (cases ho; done)) <;> clear ho <;>
    simp only [action, Dbg.tuple.injEq, true_and, nop_inj, readFileData_inj, fileIdOp_inj, fileData_inj,
      filePropertiesOp_inj, actionQuery_inj, permissionRequest_inj, copyFile_inj, responseTag_inj, chunk_inj,
      logic_inj, requestTag_inj, extension_inj] at h <;> first | (rw [h]; done) | skip
  · rename_i o o'
    obtain ⟨t, c, s⟩ := o
    obtain ⟨t', c', s'⟩ := o'
    simp [statusOperand, statusType_inj, opCode_inj] at h
    obtain ⟨rfl, rfl, h⟩ := h
    suffices s = s' by rw [this]
    cases s <;> cases s' <;> simp [status, actionStatus_inj, interfaceFinalStatusOperation_inj] at h ⊢
    · exact h
    · rename_i i i'
      cases i; cases i'
      simp [interfaceStatusOperation, interfaceType_inj] at h ⊢
      exact ⟨h.1, interfaceStatus_inj ha hb h.2⟩
    · exact h
  · rename_i o o'
    obtain ⟨c, i, s⟩ := o
    obtain ⟨c', i', s'⟩ := o'
    simp [txStatusOperation, interfaceTxStatusOperation, opCode_inj, uint_inj] at h
    obtain ⟨rfl, rfl, h⟩ := h
    have e : s = s' := interfaceTxStatus_inj ha hb h
    rw [e]
  · rename_i o o'
    obtain ⟨r, c, s⟩ := o
    obtain ⟨r', c', s'⟩ := o'
    simp [forward, bool_inj, opCode_inj] at h
    obtain ⟨rfl, rfl, h⟩ := h
    have e : s = s' := interfaceConfiguration_inj ha hb h
    rw [e]
  · rename_i o o'
    obtain ⟨r, c, s⟩ := o
    obtain ⟨r', c', s'⟩ := o'
    simp [indirectForward, indirectForwardHeader_inj, opCode_inj] at h
    obtain ⟨rfl, rfl, h⟩ := h
    cases s <;> cases s' <;> simp [option] at h ⊢
    exact indirectInterface_inj (ha _ rfl) (hb _ rfl) h

/-! ## Commands and frames -/

theorem ok_command (cfg : Cfg) (a : Command) : ok (command cfg a) = true := by
  simp only [command, ok, okFields, List.isEmpty_cons, oks_map _ (fun a _ => ok_action cfg a), Bool.and_true]
  names

theorem command_inj {cfg : Cfg} {c c' : Command} (hc : ∀ a ∈ c.actions, Spec.InBuild cfg a)
    (hc' : ∀ a ∈ c'.actions, Spec.InBuild cfg a) (h : command cfg c = command cfg c') : c = c' := by
  obtain ⟨as⟩ := c
  obtain ⟨bs⟩ := c'
  simp only [command, Dbg.struct.injEq, List.cons.injEq, Prod.mk.injEq, Dbg.list.injEq, true_and, and_true] at h
  congr 1
  simp only at hc hc'
  induction as generalizing bs with
  | nil => cases bs with
    | nil => rfl
    | cons b bs => cases h
  | cons a as ih => cases bs with
    | nil => cases h
    | cons b bs =>
      rw [List.map_cons, List.map_cons] at h
      rw [action_inj (hc a (by simp)) (hc' b (by simp)) (List.cons.inj h).1,
        ih (fun a ha => hc a (by simp [ha])) bs (fun a ha => hc' a (by simp [ha])) (List.cons.inj h).2]

theorem ok_transFrame (cfg : Cfg) (a : Trans.Frame) : ok (transFrame cfg a) = true := by
  simp only [transFrame, ok, okFields, List.isEmpty_cons, ok_transControl, ok_uint, ok_option ok_uint,
    ok_option ok_varInt, ok_option ok_ackTemplate, ok_command, Bool.and_true]
  names

theorem transFrame_inj {cfg : Cfg} {f f' : Trans.Frame} (hf : ∀ a ∈ f.command.actions, Spec.InBuild cfg a)
    (hf' : ∀ a ∈ f'.command.actions, Spec.InBuild cfg a) (h : transFrame cfg f = transFrame cfg f') : f = f' := by
  obtain ⟨h1, c⟩ := f
  obtain ⟨h2, c'⟩ := f'
  cases h1; cases h2
  simp [transFrame, transControl_inj, uint_inj, option_inj uint_inj, option_inj varInt_inj,
    option_inj ackTemplate_inj] at h ⊢
  simp [h]
  exact command_inj hf hf' (by simp [h])

theorem ok_netFrame (cfg : Cfg) (a : Net.Frame) : ok (netFrame cfg a) = true := by
  simp only [netFrame, ok, okFields, List.isEmpty_cons, ok_netControl, ok_option ok_hoppingControl,
    ok_accessClass, ok_address, ok_transFrame, Bool.and_true]
  names

theorem netFrame_inj {cfg : Cfg} {f f' : Net.Frame} (hf : ∀ a ∈ f.frame.command.actions, Spec.InBuild cfg a)
    (hf' : ∀ a ∈ f'.frame.command.actions, Spec.InBuild cfg a) (h : netFrame cfg f = netFrame cfg f') :
    f = f' := by
  obtain ⟨h1, c⟩ := f
  obtain ⟨h2, c'⟩ := f'
  cases h1; cases h2
  simp [netFrame, netControl_inj, option_inj hoppingControl_inj, accessClass_inj, address_inj] at h ⊢
  simp [h]
  exact transFrame_inj hf hf' (by simp [h])

theorem ok_foregroundFrame (cfg : Cfg) (a : ForegroundFrame) : ok (foregroundFrame cfg a) = true := by
  simp only [foregroundFrame, ok, okFields, List.isEmpty_cons, ok_length, ok_uint, ok_foregroundFrameControl,
    ok_address, ok_netFrame, Bool.and_true]
  names

theorem foregroundFrame_inj {cfg : Cfg} {f f' : ForegroundFrame}
    (hf : ∀ a ∈ f.frame.frame.command.actions, Spec.InBuild cfg a)
    (hf' : ∀ a ∈ f'.frame.frame.command.actions, Spec.InBuild cfg a)
    (h : foregroundFrame cfg f = foregroundFrame cfg f') : f = f' := by
  obtain ⟨h1, c, s⟩ := f
  obtain ⟨h2, c', s'⟩ := f'
  cases h1; cases h2
  simp [foregroundFrame, length_inj, uint_inj, foregroundFrameControl_inj, address_inj] at h ⊢
  simp [h]
  exact netFrame_inj hf hf' (by simp [h])

theorem ok_restAndFile (r : Rest) (f : File) : ok (restAndFile r f) = true := by
  simp only [restAndFile, ok, ok_bytes, ok_file, Bool.and_true]

theorem restAndFile_inj {r r' : Rest} {f f' : File} (h : restAndFile r f = restAndFile r' f') :
    r = r' ∧ f = f' := by
  obtain ⟨a, b⟩ := r
  obtain ⟨a', b'⟩ := r'
  simp [restAndFile, bytes_inj, file_inj, Int.ofNat_inj] at h ⊢
  exact h

end Dbg
end Dash7
