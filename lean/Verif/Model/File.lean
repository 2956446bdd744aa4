import Verif.Model.Network

/-!
# `dash7/src/file/*.rs`
-/

namespace Dash7

/-! ## Strings (`utils.rs`) -/

/-- `str::as_bytes`, used at `/repo/dash7/src/utils.rs:164`. -/
def strBytes (s : String) : List U8 := s.toUTF8.data.toList.map UInt8.toBitVec

/-- `String::from_utf8`, used at `/repo/dash7/src/utils.rs:149`. -/
def bytesStr? (b : List U8) : Option String :=
  String.fromUTF8? ⟨(b.map UInt8.ofBitVec).toArray⟩

/-- `/repo/dash7/src/utils.rs:142-154` (`read_string::<_, N>`). -/
def readString (n : Nat) : P String := do
  let b ← P.count P.u8 n
  match bytesStr? b with
  | some s => P.pure s
  | none => P.fail .parse

/-- `/repo/dash7/src/utils.rs:161-164`: the zero-filled buffer `write_string` emits. -/
def stringBuf (n : Nat) (s : String) : List U8 :=
  (strBytes s).take n ++ List.replicate (n - (strBytes s).length) 0

/-- `/repo/dash7/src/utils.rs:156-167` (`write_string::<_, N>`). -/
def writeString (n : Nat) (s : String) : W := W.list W.u8 (stringBuf n s)

/-! ## File ids -/

/-- `/repo/dash7/src/file/mod.rs:28-115` (`FileId`); the fifteen variants `AccessProfile00` ..
`AccessProfile14` are collapsed into one with an index. -/
inductive FileId
  | uId | factorySettings | firmwareVersion | deviceCapacity | deviceStatus | engineeringMode | vId
  | phyConfig | phyStatus | dllConfig | dllStatus | networkRouting | networkSecurity
  | networkSecurityKey | networkSsr | networkStatus | trlStatus | selConfig | fofStatus | rfu
  | locationData | rootKey | userKey | sensorDescription | rtc | d7AalpRfu
  | accessProfile (i : Fin 15)
  | other
  deriving DecidableEq, Repr

/-- `/repo/dash7/src/file/mod.rs:31-114` (ids and patterns, reading). -/
def FileId.ofId (b : U8) : FileId :=
  match b.toNat with
  | 0x00 => .uId | 0x01 => .factorySettings | 0x02 => .firmwareVersion | 0x03 => .deviceCapacity
  | 0x04 => .deviceStatus | 0x05 => .engineeringMode | 0x06 => .vId | 0x07 => .rfu
  | 0x08 => .phyConfig
  | 0x09 => .phyStatus | 0x0A => .dllConfig | 0x0B => .dllStatus | 0x0C => .networkRouting
  | 0x0D => .networkSecurity | 0x0E => .networkSecurityKey | 0x0F => .networkSsr
  | 0x10 => .networkStatus | 0x11 => .trlStatus | 0x12 => .selConfig | 0x13 => .fofStatus
  | 0x14 => .rfu | 0x15 => .rfu | 0x16 => .rfu | 0x17 => .locationData
  | 0x18 => .rootKey | 0x19 => .userKey | 0x1B => .sensorDescription | 0x1C => .rtc
  | 0x1D => .d7AalpRfu | 0x1E => .d7AalpRfu | 0x1F => .d7AalpRfu
  | n => if h : 0x20 ≤ n ∧ n ≤ 0x2E then .accessProfile ⟨n - 0x20, by omega⟩ else .other

/-- `/repo/dash7/src/file/mod.rs:31-114` (`deku_id`; `id_pat` variants have none). -/
def FileId.id? : FileId → Option U8
  | .uId => some 0x00 | .factorySettings => some 0x01 | .firmwareVersion => some 0x02
  | .deviceCapacity => some 0x03 | .deviceStatus => some 0x04 | .engineeringMode => some 0x05
  | .vId => some 0x06 | .phyConfig => some 0x08 | .phyStatus => some 0x09 | .dllConfig => some 0x0A
  | .dllStatus => some 0x0B | .networkRouting => some 0x0C | .networkSecurity => some 0x0D
  | .networkSecurityKey => some 0x0E | .networkSsr => some 0x0F | .networkStatus => some 0x10
  | .trlStatus => some 0x11 | .selConfig => some 0x12 | .fofStatus => some 0x13
  | .locationData => some 0x17 | .rootKey => some 0x18 | .userKey => some 0x19
  | .sensorDescription => some 0x1B | .rtc => some 0x1C
  | .accessProfile i => some (BitVec.ofNat 8 (0x20 + i.val))
  | .rfu => none | .d7AalpRfu => none | .other => none

/-- `/repo/dash7/src/file/mod.rs:117-123` (`TryFrom<u8>`): `from_bytes` on the single byte, the
remainder discarded. -/
def FileId.tryFrom (b : U8) : Except Err FileId := .ok (ofId b)

/-- `/repo/dash7/src/file/mod.rs:125-129` (`Into<u8>`): `deku_id().unwrap()`. -/
def FileId.into (f : FileId) : Except Err U8 :=
  match f.id? with
  | some i => .ok i
  | none => .error (.fault .panic)

/-! ## System files -/

/-- `/repo/dash7/src/file/dll_config.rs:3-11` (`DllConfig`). -/
structure DllConfig where
  ac : U8
  lqFilter : U8
  nfCtrl : U8
  rxNfMethodParameter : U8
  txNfMethodParameter : U8
  deriving DecidableEq, Repr

/-- `/repo/dash7/src/file/dll_config.rs:3-11` (derived reader). -/
def DllConfig.read : P DllConfig := do
  let a ← P.u8
  P.pad 16
  let l ← P.u8
  let n ← P.u8
  let r ← P.u8
  let t ← P.u8
  P.pure ⟨a, l, n, r, t⟩

/-- `/repo/dash7/src/file/dll_config.rs:3-11` (derived writer). -/
def DllConfig.write (d : DllConfig) : W :=
  W.seq [W.u8 d.ac, W.pad 16, W.u8 d.lqFilter, W.u8 d.nfCtrl, W.u8 d.rxNfMethodParameter,
    W.u8 d.txNfMethodParameter]

/-- `/repo/dash7/src/file/dll_status.rs:5-20` (`DllStatus`). -/
structure DllStatus where
  lastRxPacketLevel : U8
  lastRxPacketLinkBudget : U8
  noiseFloor : U8
  channelHeader : ChannelHeader
  channelIndex : U16
  scanTimeoutRatio : U16
  scanCount : U32
  scanTimeoutCount : U32
  deriving DecidableEq, Repr

/-- `/repo/dash7/src/file/dll_status.rs:5-20` (derived reader). -/
def DllStatus.read : P DllStatus := do
  let a ← P.u8
  let b ← P.u8
  let c ← P.u8
  let h ← ChannelHeader.read
  let i ← P.uint 16 16
  let r ← P.uint 16 16
  let s ← P.uint 32 32
  let t ← P.uint 32 32
  P.pure ⟨a, b, c, h, i, r, s, t⟩

/-- `/repo/dash7/src/file/dll_status.rs:5-20` (derived writer). -/
def DllStatus.write (d : DllStatus) : W :=
  W.seq [W.u8 d.lastRxPacketLevel, W.u8 d.lastRxPacketLinkBudget, W.u8 d.noiseFloor,
    d.channelHeader.write, W.uint 16 d.channelIndex, W.uint 16 d.scanTimeoutRatio,
    W.uint 32 d.scanCount, W.uint 32 d.scanTimeoutCount]

/-- `/repo/dash7/src/file/engineering_mode.rs:5-18` (`EngineeringModeMethod`). -/
inductive EngineeringModeMethod | off | contTx | transientTx | perRx | perTx
  deriving DecidableEq, Repr

/-- `/repo/dash7/src/file/engineering_mode.rs:8-17` (ids). -/
def EngineeringModeMethod.id : EngineeringModeMethod → U8
  | .off => 0 | .contTx => 1 | .transientTx => 2 | .perRx => 3 | .perTx => 4

/-- `/repo/dash7/src/file/engineering_mode.rs:8-17` (ids, reading). -/
def EngineeringModeMethod.ofId (i : U8) : Option EngineeringModeMethod :=
  match i.toNat with
  | 0 => some .off | 1 => some .contTx | 2 => some .transientTx | 3 => some .perRx
  | 4 => some .perTx | _ => none

/-- `/repo/dash7/src/file/engineering_mode.rs:5-6` (derived reader, `u8`). -/
def EngineeringModeMethod.read : P EngineeringModeMethod := P.enum 8 ofId
/-- `/repo/dash7/src/file/engineering_mode.rs:5-6` (derived writer). -/
def EngineeringModeMethod.write (m : EngineeringModeMethod) : W := W.uint 8 m.id

/-- `/repo/dash7/src/file/engineering_mode.rs:20-27` (`EngineeringMode`). `eirp` (an `i8`) by its bit
pattern. -/
structure EngineeringMode where
  mode : EngineeringModeMethod
  flags : U8
  timeout : U8
  channel : Channel
  eirp : U8
  deriving DecidableEq, Repr

/-- `/repo/dash7/src/file/engineering_mode.rs:20-27` (derived reader). -/
def EngineeringMode.read : P EngineeringMode := do
  let m ← EngineeringModeMethod.read
  let f ← P.u8
  let t ← P.u8
  let c ← Channel.read
  let e ← P.u8
  P.pure ⟨m, f, t, c, e⟩

/-- `/repo/dash7/src/file/engineering_mode.rs:20-27` (derived writer). -/
def EngineeringMode.write (d : EngineeringMode) : W :=
  W.seq [d.mode.write, W.u8 d.flags, W.u8 d.timeout, d.channel.write, W.u8 d.eirp]

/-- `/repo/dash7/src/file/factory_settings.rs:3-46` (`FactorySettings`). `gain` (an `i8`) by its bit
pattern. -/
structure FactorySettings where
  gain : U8
  rxBwLowRate : U32
  rxBwNormalRate : U32
  rxBwHighRate : U32
  bitrateLoRate : U32
  fdevLoRate : U32
  bitrateNormalRate : U32
  fdevNormalRate : U32
  bitrateHiRate : U32
  fdevHiRate : U32
  preambleSizeLoRate : U8
  preambleSizeNormalRate : U8
  preambleSizeHiRate : U8
  preambleDetectorSizeLoRate : U8
  preambleDetectorSizeNormalRate : U8
  preambleDetectorSizeHiRate : U8
  preambleTolLoRate : U8
  preambleTolNormalRate : U8
  preambleTolHiRate : U8
  rssiSmoothing : U8
  rssiOffset : U8
  loraBw : U32
  loraSf : U8
  gaussian : U8
  paramp : U16
  deriving DecidableEq, Repr

/-- `/repo/dash7/src/file/factory_settings.rs:3-46` (derived reader). -/
def FactorySettings.read : P FactorySettings := do
  let gain ← P.u8
  let rxBwLowRate ← P.uint 32 32
  let rxBwNormalRate ← P.uint 32 32
  let rxBwHighRate ← P.uint 32 32
  let bitrateLoRate ← P.uint 32 32
  let fdevLoRate ← P.uint 32 32
  let bitrateNormalRate ← P.uint 32 32
  let fdevNormalRate ← P.uint 32 32
  let bitrateHiRate ← P.uint 32 32
  let fdevHiRate ← P.uint 32 32
  let preambleSizeLoRate ← P.u8
  let preambleSizeNormalRate ← P.u8
  let preambleSizeHiRate ← P.u8
  let preambleDetectorSizeLoRate ← P.u8
  let preambleDetectorSizeNormalRate ← P.u8
  let preambleDetectorSizeHiRate ← P.u8
  let preambleTolLoRate ← P.u8
  let preambleTolNormalRate ← P.u8
  let preambleTolHiRate ← P.u8
  let rssiSmoothing ← P.u8
  let rssiOffset ← P.u8
  let loraBw ← P.uint 32 32
  let loraSf ← P.u8
  let gaussian ← P.u8
  let paramp ← P.uint 16 16
  P.pure ⟨gain, rxBwLowRate, rxBwNormalRate, rxBwHighRate, bitrateLoRate, fdevLoRate,
    bitrateNormalRate, fdevNormalRate, bitrateHiRate, fdevHiRate, preambleSizeLoRate,
    preambleSizeNormalRate, preambleSizeHiRate, preambleDetectorSizeLoRate,
    preambleDetectorSizeNormalRate, preambleDetectorSizeHiRate, preambleTolLoRate,
    preambleTolNormalRate, preambleTolHiRate, rssiSmoothing, rssiOffset, loraBw, loraSf, gaussian,
    paramp⟩

/-- `/repo/dash7/src/file/factory_settings.rs:3-46` (derived writer). -/
def FactorySettings.write (f : FactorySettings) : W :=
  W.seq [W.u8 f.gain, W.uint 32 f.rxBwLowRate, W.uint 32 f.rxBwNormalRate,
    W.uint 32 f.rxBwHighRate, W.uint 32 f.bitrateLoRate, W.uint 32 f.fdevLoRate,
    W.uint 32 f.bitrateNormalRate, W.uint 32 f.fdevNormalRate, W.uint 32 f.bitrateHiRate,
    W.uint 32 f.fdevHiRate, W.u8 f.preambleSizeLoRate, W.u8 f.preambleSizeNormalRate,
    W.u8 f.preambleSizeHiRate, W.u8 f.preambleDetectorSizeLoRate,
    W.u8 f.preambleDetectorSizeNormalRate, W.u8 f.preambleDetectorSizeHiRate,
    W.u8 f.preambleTolLoRate, W.u8 f.preambleTolNormalRate, W.u8 f.preambleTolHiRate,
    W.u8 f.rssiSmoothing, W.u8 f.rssiOffset, W.uint 32 f.loraBw, W.u8 f.loraSf, W.u8 f.gaussian,
    W.uint 16 f.paramp]

/-- `/repo/dash7/src/file/firmware_version.rs:8-24` (`FirmwareVersion`). -/
structure FirmwareVersion where
  major : U8
  minor : U8
  applicationName : String
  gitSha1 : String
  deriving DecidableEq, Repr

/-- `/repo/dash7/src/file/firmware_version.rs:8-24` (derived reader). -/
def FirmwareVersion.read : P FirmwareVersion := do
  let major ← P.u8
  let minor ← P.u8
  let a ← readString 6
  let g ← readString 7
  P.pure ⟨major, minor, a, g⟩

/-- `/repo/dash7/src/file/firmware_version.rs:8-24` (derived writer). -/
def FirmwareVersion.write (f : FirmwareVersion) : W :=
  W.seq [W.u8 f.major, W.u8 f.minor, writeString 6 f.applicationName, writeString 7 f.gitSha1]

/-- `/repo/dash7/src/file/phy_status.rs:5-21` (`PhyStatus`). -/
structure PhyStatus where
  upTime : U32
  rxTime : U32
  txTime : U32
  txDutyCycle : U16
  channelStatusListLength : U8
  channelStatus : List ChannelStatus
  deriving DecidableEq, Repr

/-- `/repo/dash7/src/file/phy_status.rs:24-39` (`PhyStatus::new`): `len() as u8` truncates. -/
def PhyStatus.new (upTime rxTime txTime : U32) (txDutyCycle : U16)
    (channelStatus : List ChannelStatus) : PhyStatus :=
  ⟨upTime, rxTime, txTime, txDutyCycle, BitVec.ofNat 8 channelStatus.length, channelStatus⟩

/-- `/repo/dash7/src/file/phy_status.rs:16-17` (derived `update`): `len().try_into()?`. -/
def PhyStatus.update (p : PhyStatus) : Except Err PhyStatus :=
  if p.channelStatus.length < 256 then
    .ok { p with channelStatusListLength := BitVec.ofNat 8 p.channelStatus.length }
  else .error (.fault .parse)

/-- `/repo/dash7/src/file/phy_status.rs:5-21` (derived reader). -/
def PhyStatus.read : P PhyStatus := do
  let u ← P.uint 32 32
  let r ← P.uint 32 32
  let t ← P.uint 32 32
  let d ← P.uint 16 16
  let n ← P.u8
  let cs ← P.count ChannelStatus.read n.toNat
  P.pure ⟨u, r, t, d, n, cs⟩

/-- `/repo/dash7/src/file/phy_status.rs:5-21` (derived writer). -/
def PhyStatus.write (p : PhyStatus) : W :=
  W.seq [W.uint 32 p.upTime, W.uint 32 p.rxTime, W.uint 32 p.txTime, W.uint 16 p.txDutyCycle,
    W.u8 p.channelStatusListLength, W.list ChannelStatus.write p.channelStatus]

/-- `/repo/dash7/src/file/security_key.rs:3-7` (`SecurityKey`). -/
structure SecurityKey where
  key : U128
  deriving DecidableEq, Repr

/-- `/repo/dash7/src/file/security_key.rs:3-7` (derived reader; host byte order). -/
def SecurityKey.read (cfg : Cfg) : P SecurityKey := do
  let k ← P.uintHost cfg 16
  P.pure ⟨k⟩

/-- `/repo/dash7/src/file/security_key.rs:3-7` (derived writer; host byte order). -/
def SecurityKey.write (cfg : Cfg) (s : SecurityKey) : W := W.seq [W.uintHost cfg 16 s.key]

/-! ## `File` -/

/-- `/repo/dash7/src/file/mod.rs:145-206` (`File`); `AccessProfile00(AccessProfile<0>)` ..
`AccessProfile14(AccessProfile<14>)` (`/repo/dash7/src/file/access_profile.rs:7-10`) are collapsed
into one variant with an index. -/
inductive File
  | accessProfile (i : Fin 15) (p : AccessProfile)
  | uId (a : Address)
  | factorySettings (f : FactorySettings)
  | firmwareVersion (f : FirmwareVersion)
  | engineeringMode (f : EngineeringMode)
  | vId (a : Address)
  | phyStatus (f : PhyStatus)
  | dllConfig (f : DllConfig)
  | dllStatus (f : DllStatus)
  | nwlSecurityKey (f : SecurityKey)
  | other (b : List U8)
  deriving DecidableEq, Repr

/-- `/repo/dash7/src/file/mod.rs:208-212` (`Default for File`). -/
def File.default : File := .other []

/-- `/repo/dash7/src/file/mod.rs:139-206` (derived reader in context `(file_id, length)`). -/
def File.read (cfg : Cfg) (fid : FileId) (length : U32) : P File :=
  match fid with
  | .accessProfile i => do let p ← AccessProfile.read; P.pure (.accessProfile i p)
  | .uId => do let a ← Address.read .uId; P.pure (.uId a)
  | .factorySettings => do let f ← FactorySettings.read; P.pure (.factorySettings f)
  | .firmwareVersion => do let f ← FirmwareVersion.read; P.pure (.firmwareVersion f)
  | .engineeringMode => do let f ← EngineeringMode.read; P.pure (.engineeringMode f)
  | .vId => do let a ← Address.read .vId; P.pure (.vId a)
  | .phyStatus => do let f ← PhyStatus.read; P.pure (.phyStatus f)
  | .dllConfig => do let f ← DllConfig.read; P.pure (.dllConfig f)
  | .dllStatus => do let f ← DllStatus.read; P.pure (.dllStatus f)
  | .networkSecurityKey => do let f ← SecurityKey.read cfg; P.pure (.nwlSecurityKey f)
  | _ => do let b ← P.count P.u8 length.toNat; P.pure (.other b)

/-- `/repo/dash7/src/file/mod.rs:139-206` (derived writer: the variant alone decides, the context
is not consulted). -/
def File.write (cfg : Cfg) : File → W
  | .accessProfile _ p => p.write
  | .uId a => a.write
  | .factorySettings f => f.write
  | .firmwareVersion f => f.write
  | .engineeringMode f => f.write
  | .vId a => a.write
  | .phyStatus f => f.write
  | .dllConfig f => f.write
  | .dllStatus f => f.write
  | .nwlSecurityKey f => f.write cfg
  | .other b => W.list W.u8 b

end Dash7
