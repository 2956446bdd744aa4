import Verif.Model.Display
import Verif.Model.Cli

/-!
# The texts `{:?}` prints: derived `Debug`, and what `dash7-cli` prints

A derived `Debug` writes a struct as `Name { field: text, … }`, a variant or tuple struct with one
payload as `Name(text)` (there are none with more), a unit variant as its name, integers in decimal with
a minus sign if negative, vectors and arrays as `[a, b]`, strings in quotes with escapes. `Dbg` is such
a text before it is written out; the functions below it say what each type looks like, private fields
included. The names and their order follow the cited declarations.
-/

namespace Dash7

/-- What `core::fmt` builds for a value with derived `Debug`; used by
`/repo/dash7-cli/src/parse.rs:41,47,63` and `/repo/dash7/src/app/command.rs:224`. -/
inductive Dbg
  | word (s : String)
  | num (i : Int)
  | str (s : String)
  | list (ds : List Dbg)
  | tuple (name : String) (d : Dbg)
  | struct (name : String) (fields : List (String × Dbg))
  | pair (a b : Dbg)

namespace Dbg

/-- `core::fmt`, `char::escape_debug_ext` as `Debug for str` calls it (used for
`/repo/dash7/src/file/firmware_version.rs:17,23`). Which other characters stand for themselves depends
on tables of Unicode: the parameter `plain`, of which nothing is assumed. -/
def escape (plain : Char → Bool) (c : Char) : List Char :=
  if c = '\x00' then ['\\', '0']
  else if c = '\t' then ['\\', 't']
  else if c = '\r' then ['\\', 'r']
  else if c = '\n' then ['\\', 'n']
  else if c = '\\' then ['\\', '\\']
  else if c = '"' then ['\\', '"']
  else if plain c then [c]
  else ['\\', 'u', '{'] ++ Nat.toDigits 16 c.toNat ++ ['}']

/-- `core::fmt`, `Debug for str` (used for `/repo/dash7/src/file/firmware_version.rs:17,23`), without
the quotes. -/
def escapes (plain : Char → Bool) : List Char → List Char
  | [] => []
  | c :: cs => escape plain c ++ escapes plain cs

mutual

/-- `core::fmt` without flags: the text of a value; used by `/repo/dash7-cli/src/parse.rs:41,47,63` and
`/repo/dash7/src/app/command.rs:224`. -/
def chars (plain : Char → Bool) : Dbg → List Char
  | .word s => s.toList
  | .num i => (if i < 0 then ['-'] else []) ++ Nat.toDigits 10 i.natAbs
  | .str s => '"' :: (escapes plain s.toList ++ ['"'])
  | .list [] => ['[', ']']
  | .list (d :: ds) => '[' :: (chars plain d ++ (more plain ds ++ [']']))
  | .tuple n d => n.toList ++ '(' :: (chars plain d ++ [')'])
  | .struct n [] => n.toList
  | .struct n ((f, d) :: fs) =>
    n.toList ++ ([' ', '{', ' '] ++ (f.toList ++ ([':', ' '] ++ (chars plain d ++
      (moreFields plain fs ++ [' ', '}'])))))
  | .pair a b => '(' :: (chars plain a ++ ([',', ' '] ++ (chars plain b ++ [')'])))

/-- `core::fmt` (`DebugList`): the elements after the first; used for `/repo/dash7/src/file/mod.rs:205`. -/
def more (plain : Char → Bool) : List Dbg → List Char
  | [] => []
  | d :: ds => [',', ' '] ++ (chars plain d ++ more plain ds)

/-- `core::fmt` (`DebugStruct`): the fields after the first; used for
`/repo/dash7/src/link/frame.rs:32-44`. -/
def moreFields (plain : Char → Bool) : List (String × Dbg) → List Char
  | [] => []
  | (f, d) :: fs => [',', ' '] ++ (f.toList ++ ([':', ' '] ++ (chars plain d ++ moreFields plain fs)))

end

/-- `core::fmt`: the text as a string (`format!("{:?}", …)`, `/repo/dash7/src/app/command.rs:224`). -/
def text (plain : Char → Bool) (d : Dbg) : String := String.ofList (chars plain d)

/-! ## Building blocks -/

/-- `Debug` of the unsigned integers; e.g. `/repo/dash7/src/link/frame.rs:18`. -/
def uint {n : Nat} (b : BitVec n) : Dbg := .num b.toNat

/-- `Debug` of `i8`, which the model keeps by its bits; `/repo/dash7/src/physical/mod.rs:123`,
`/repo/dash7/src/file/engineering_mode.rs:26`, `/repo/dash7/src/file/factory_settings.rs:5`,
`/repo/dash7/src/session/interface_final.rs:81`. -/
def i8 (b : U8) : Dbg := .num b.toInt

/-- `Debug` of `bool`; e.g. `/repo/dash7/src/transport/mod.rs:27`. -/
def bool : Bool → Dbg
  | true => .word "true"
  | false => .word "false"

/-- `Debug` of `Vec<u8>` and byte arrays; e.g. `/repo/dash7/src/file/mod.rs:205`. -/
def bytes (b : List U8) : Dbg := .list (b.map uint)

/-- `Debug` of `Option`; e.g. `/repo/dash7/src/transport/mod.rs:57`. -/
def option {α : Type} (f : α → Dbg) : Option α → Dbg
  | none => .word "None"
  | some a => .tuple "Some" (f a)

/-! ## `types.rs`, `physical/mod.rs`, `link/mod.rs`, `network/mod.rs` -/

/-- `/repo/dash7/src/types.rs:46-56` (derived `Debug`). -/
def varInt (v : VarInt) : Dbg := .struct "VarInt" [("value", uint v.value), ("ceil", bool v.ceil)]

/-- `/repo/dash7/src/app/operation/length.rs:7-14` (derived `Debug`). -/
def length (l : Length) : Dbg := .tuple "Length" (uint l.val)

/-- `/repo/dash7/src/app/operation/file_offset.rs:6-10` (derived `Debug`). -/
def fileOffset (f : FileOffset) : Dbg :=
  .struct "FileOffset" [("file_id", uint f.fileId), ("offset", length f.offset)]

/-- `/repo/dash7/src/physical/mod.rs:3-9` (derived `Debug`). -/
def bandwidth : Bandwidth → Dbg
  | .khz200 => .word "KHz200" | .khz25 => .word "KHz25"

/-- `/repo/dash7/src/physical/mod.rs:12-21` (derived `Debug`). -/
def channelBand : ChannelBand → Dbg
  | .rfu0 => .word "Rfu0" | .rfu1 => .word "Rfu1" | .band433 => .word "Band433"
  | .band868 => .word "Band868" | .band915 => .word "Band915"

/-- `/repo/dash7/src/physical/mod.rs:23-31` (derived `Debug`). -/
def channelClass : ChannelClass → Dbg
  | .loRate => .word "LoRate" | .lora => .word "Lora" | .normalRate => .word "NormalRate"
  | .hiRate => .word "HiRate"

/-- `/repo/dash7/src/physical/mod.rs:33-41` (derived `Debug`). -/
def channelCoding : ChannelCoding → Dbg
  | .pn9 => .word "Pn9" | .rfu => .word "Rfu" | .fecPn9 => .word "FecPn9" | .cw => .word "Cw"

/-- `/repo/dash7/src/physical/mod.rs:79-85` (derived `Debug`). -/
def channelHeader (h : ChannelHeader) : Dbg :=
  .struct "ChannelHeader" [("channel_band", channelBand h.band), ("channel_class", channelClass h.cls),
    ("channel_coding", channelCoding h.coding)]

/-- `/repo/dash7/src/physical/mod.rs:101-106` (derived `Debug`). -/
def channel (c : Channel) : Dbg :=
  .struct "Channel" [("header", channelHeader c.header), ("index", uint c.index)]

/-- `/repo/dash7/src/physical/mod.rs:108-116` (derived `Debug`). -/
def channelStatusIdentifier (c : ChannelStatusIdentifier) : Dbg :=
  .struct "ChannelStatusIdentifier" [("channel_band", channelBand c.band),
    ("bandwidth", bandwidth c.bandwidth), ("index", uint c.index)]

/-- `/repo/dash7/src/physical/mod.rs:128-132` (derived `Debug`). -/
def channelStatus (c : ChannelStatus) : Dbg :=
  .struct "ChannelStatus" [("identifier", channelStatusIdentifier c.identifier),
    ("noise_floor", uint c.noiseFloor)]

/-- `/repo/dash7/src/physical/mod.rs:118-126` (derived `Debug`). -/
def subBand (b : SubBand) : Dbg :=
  .struct "SubBand" [("channel_index_start", uint b.indexStart), ("channel_index_end", uint b.indexEnd),
    ("eirp", i8 b.eirp), ("clear_channel_assessment", uint b.cca), ("duty", uint b.duty)]

/-- `/repo/dash7/src/link/mod.rs:10-14` (derived `Debug`). -/
def subProfile (s : SubProfile) : Dbg :=
  .struct "SubProfile" [("subband_bitmap", uint s.subbandBitmap),
    ("scan_automation_period", varInt s.scanAutomationPeriod)]

/-- `/repo/dash7/src/link/mod.rs:22-28` (derived `Debug`). -/
def accessClass (a : AccessClass) : Dbg :=
  .struct "AccessClass" [("specifier", uint a.specifier), ("mask", uint a.mask)]

/-- `/repo/dash7/src/link/mod.rs:43-58` (derived `Debug`). -/
def accessProfile (a : AccessProfile) : Dbg :=
  .struct "AccessProfile" [("channel_header", channelHeader a.channelHeader),
    ("sub_profiles", .list (a.subProfiles.toList.map subProfile)),
    ("sub_bands", .list (a.subBands.toList.map subBand))]

/-- `/repo/dash7/src/transport/mod.rs:5-21` (derived `Debug`). -/
def groupCondition : GroupCondition → Dbg
  | .any => .word "Any" | .notEqual => .word "NotEqual" | .equal => .word "Equal"
  | .greaterThan => .word "GreaterThan"

/-- `/repo/dash7/src/network/mod.rs:13-50` (derived `Debug`). -/
def nlsMethod : NlsMethod → Dbg
  | .none => .word "None" | .aesCtr => .word "AesCtr" | .aesCbcMac128 => .word "AesCbcMac128"
  | .aesCbcMac64 => .word "AesCbcMac64" | .aesCbcMac32 => .word "AesCbcMac32"
  | .aesCcm128 => .word "AesCcm128" | .aesCcm64 => .word "AesCcm64" | .aesCcm32 => .word "AesCcm32"

/-- `/repo/dash7/src/network/mod.rs:53-73` (derived `Debug`). -/
def nlsState : NlsState → Dbg
  | .none => .word "None"
  | .aesCtr b => .tuple "AesCtr" (bytes b.toList)
  | .aesCbcMac128 b => .tuple "AesCbcMac128" (bytes b.toList)
  | .aesCbcMac64 b => .tuple "AesCbcMac64" (bytes b.toList)
  | .aesCbcMac32 b => .tuple "AesCbcMac32" (bytes b.toList)
  | .aesCcm128 b => .tuple "AesCcm128" (bytes b.toList)
  | .aesCcm64 b => .tuple "AesCcm64" (bytes b.toList)
  | .aesCcm32 b => .tuple "AesCcm32" (bytes b.toList)

/-- `/repo/dash7/src/network/mod.rs:75-91` (derived `Debug`). -/
def addressType : AddressType → Dbg
  | .nbId => .word "NbId" | .noId => .word "NoId" | .uId => .word "UId" | .vId => .word "VId"

/-- `/repo/dash7/src/network/mod.rs:93-109` (derived `Debug`). -/
def address : Address → Dbg
  | .nbId n => .tuple "NbId" (varInt n)
  | .noId => .word "NoId"
  | .uId a => .tuple "UId" (uint a)
  | .vId a => .tuple "VId" (uint a)

/-- `/repo/dash7/src/network/addressee.rs:10-35` (derived `Debug`): the fields, of which the group
condition and the VID flag exist in the wizzilab build only. -/
def addressee (cfg : Cfg) (a : Addressee) : Dbg :=
  match cfg.variant with
  | .wizzilab => .struct "Addressee"
      [("group_condition", groupCondition a.groupCondition), ("address_type", addressType a.addressType),
       ("use_vid", bool a.useVid), ("nls_method", nlsMethod a.nlsMethod),
       ("access_class", accessClass a.accessClass), ("address", address a.address),
       ("nls_state", nlsState a.nlsState)]
  | _ => .struct "Addressee"
      [("address_type", addressType a.addressType), ("nls_method", nlsMethod a.nlsMethod),
       ("access_class", accessClass a.accessClass), ("address", address a.address),
       ("nls_state", nlsState a.nlsState)]

/-! ## `data/mod.rs` -/

/-- `/repo/dash7/src/data/mod.rs:4-16` (derived `Debug`). -/
def actionCondition : Data.ActionCondition → Dbg
  | .list => .word "List" | .read => .word "Read" | .write => .word "Write"
  | .writeFlush => .word "WriteFlush"

/-- `/repo/dash7/src/data/mod.rs:18-38` (derived `Debug`). -/
def storageClass : Data.StorageClass → Dbg
  | .transient => .word "Transient" | .volatile => .word "Volatile" | .restorable => .word "Restorable"
  | .permanent => .word "Permanent"

/-- `/repo/dash7/src/data/mod.rs:40-48` (derived `Debug`). -/
def userPermissions (u : Data.UserPermissions) : Dbg :=
  .struct "UserPermissions" [("read", bool u.read), ("write", bool u.write),
    ("executable", bool u.executable)]

/-- `/repo/dash7/src/data/mod.rs:50-58` (derived `Debug`). -/
def filePermissions (p : Data.FilePermissions) : Dbg :=
  .struct "FilePermissions" [("encrypted", bool p.encrypted), ("executable", bool p.executable),
    ("user", userPermissions p.user), ("guest", userPermissions p.guest)]

/-- `/repo/dash7/src/data/mod.rs:60-72` (derived `Debug`). -/
def fileProperties (p : Data.FileProperties) : Dbg :=
  .struct "FileProperties" [("enabled", bool p.enabled), ("condition", actionCondition p.condition),
    ("storage_class", storageClass p.storageClass)]

/-- `/repo/dash7/src/data/mod.rs:74-84` (derived `Debug`). -/
def fileHeader (h : Data.FileHeader) : Dbg :=
  .struct "FileHeader" [("permissions", filePermissions h.permissions),
    ("properties", fileProperties h.properties), ("alp_command_file_id", uint h.alpCommandFileId),
    ("interface_file_id", uint h.interfaceFileId), ("file_size", uint h.fileSize),
    ("allocated_size", uint h.allocatedSize)]

/-! ## `file/*.rs` -/

/-- `/repo/dash7/src/file/dll_config.rs:3-11` (derived `Debug`). -/
def dllConfig (d : DllConfig) : Dbg :=
  .struct "DllConfig" [("ac", uint d.ac), ("lq_filter", uint d.lqFilter), ("nf_ctrl", uint d.nfCtrl),
    ("rx_nf_method_parameter", uint d.rxNfMethodParameter),
    ("tx_nf_method_parameter", uint d.txNfMethodParameter)]

/-- `/repo/dash7/src/file/dll_status.rs:5-20` (derived `Debug`). -/
def dllStatus (d : DllStatus) : Dbg :=
  .struct "DllStatus" [("last_rx_packet_level", uint d.lastRxPacketLevel),
    ("last_rx_packet_link_budget", uint d.lastRxPacketLinkBudget), ("noise_floor", uint d.noiseFloor),
    ("channel_header", channelHeader d.channelHeader), ("channel_index", uint d.channelIndex),
    ("scan_timeout_ratio", uint d.scanTimeoutRatio), ("scan_count", uint d.scanCount),
    ("scan_timeout_count", uint d.scanTimeoutCount)]

/-- `/repo/dash7/src/file/engineering_mode.rs:5-18` (derived `Debug`). -/
def engineeringModeMethod : EngineeringModeMethod → Dbg
  | .off => .word "Off" | .contTx => .word "ContTx" | .transientTx => .word "TransientTx"
  | .perRx => .word "PerRx" | .perTx => .word "PerTx"

/-- `/repo/dash7/src/file/engineering_mode.rs:20-27` (derived `Debug`). -/
def engineeringMode (e : EngineeringMode) : Dbg :=
  .struct "EngineeringMode" [("mode", engineeringModeMethod e.mode), ("flags", uint e.flags),
    ("timeout", uint e.timeout), ("channel", channel e.channel), ("eirp", i8 e.eirp)]

/-- `/repo/dash7/src/file/factory_settings.rs:3-46` (derived `Debug`). -/
def factorySettings (f : FactorySettings) : Dbg :=
  .struct "FactorySettings" [("gain", i8 f.gain), ("rx_bw_low_rate", uint f.rxBwLowRate),
    ("rx_bw_normal_rate", uint f.rxBwNormalRate), ("rx_bw_high_rate", uint f.rxBwHighRate),
    ("bitrate_lo_rate", uint f.bitrateLoRate), ("fdev_lo_rate", uint f.fdevLoRate),
    ("bitrate_normal_rate", uint f.bitrateNormalRate), ("fdev_normal_rate", uint f.fdevNormalRate),
    ("bitrate_hi_rate", uint f.bitrateHiRate), ("fdev_hi_rate", uint f.fdevHiRate),
    ("preamble_size_lo_rate", uint f.preambleSizeLoRate),
    ("preamble_size_normal_rate", uint f.preambleSizeNormalRate),
    ("preamble_size_hi_rate", uint f.preambleSizeHiRate),
    ("preamble_detector_size_lo_rate", uint f.preambleDetectorSizeLoRate),
    ("preamble_detector_size_normal_rate", uint f.preambleDetectorSizeNormalRate),
    ("preamble_detector_size_hi_rate", uint f.preambleDetectorSizeHiRate),
    ("preamble_tol_lo_rate", uint f.preambleTolLoRate),
    ("preamble_tol_normal_rate", uint f.preambleTolNormalRate),
    ("preamble_tol_hi_rate", uint f.preambleTolHiRate), ("rssi_smoothing", uint f.rssiSmoothing),
    ("rssi_offset", uint f.rssiOffset), ("lora_bw", uint f.loraBw), ("lora_sf", uint f.loraSf),
    ("gaussian", uint f.gaussian), ("paramp", uint f.paramp)]

/-- `/repo/dash7/src/file/firmware_version.rs:8-24` (derived `Debug`). -/
def firmwareVersion (f : FirmwareVersion) : Dbg :=
  .struct "FirmwareVersion" [("major", uint f.major), ("minor", uint f.minor),
    ("application_name", .str f.applicationName), ("git_sha1", .str f.gitSha1)]

/-- `/repo/dash7/src/file/phy_status.rs:5-21` (derived `Debug`). -/
def phyStatus (p : PhyStatus) : Dbg :=
  .struct "PhyStatus" [("up_time", uint p.upTime), ("rx_time", uint p.rxTime), ("tx_time", uint p.txTime),
    ("tx_duty_cycle", uint p.txDutyCycle),
    ("channel_status_list_length", uint p.channelStatusListLength),
    ("channel_status", .list (p.channelStatus.map channelStatus))]

/-- `/repo/dash7/src/file/security_key.rs:3-7` (derived `Debug`). -/
def securityKey (k : SecurityKey) : Dbg := .struct "SecurityKey" [("key", uint k.key)]

/-- `/repo/dash7/src/file/mod.rs:146-175`: the names of the fifteen variants of access profiles. -/
def accessProfileName (i : Fin 15) : String :=
  (["AccessProfile00", "AccessProfile01", "AccessProfile02", "AccessProfile03", "AccessProfile04",
    "AccessProfile05", "AccessProfile06", "AccessProfile07", "AccessProfile08", "AccessProfile09",
    "AccessProfile10", "AccessProfile11", "AccessProfile12", "AccessProfile13", "AccessProfile14"].getD
    i.val "")

/-- `/repo/dash7/src/file/mod.rs:139-206` (derived `Debug`); an access profile is wrapped in
`/repo/dash7/src/file/access_profile.rs:7-10`. -/
def file : File → Dbg
  | .accessProfile i p =>
    .tuple (accessProfileName i) (.struct "AccessProfile" [("profile", accessProfile p)])
  | .uId a => .tuple "UId" (address a)
  | .factorySettings f => .tuple "FactorySettings" (factorySettings f)
  | .firmwareVersion f => .tuple "FirmwareVersion" (firmwareVersion f)
  | .engineeringMode f => .tuple "EngineeringMode" (engineeringMode f)
  | .vId a => .tuple "VId" (address a)
  | .phyStatus f => .tuple "PhyStatus" (phyStatus f)
  | .dllConfig f => .tuple "DllConfig" (dllConfig f)
  | .dllStatus f => .tuple "DllStatus" (dllStatus f)
  | .nwlSecurityKey f => .tuple "NwlSecurityKey" (securityKey f)
  | .other b => .tuple "Other" (bytes b)

/-! ## `session/*.rs`, `app/interface.rs`, `app/query.rs` -/

/-- `/repo/dash7/src/session/mod.rs:13-34` (derived `Debug`). -/
def interfaceType : InterfaceType → Dbg
  | .host => .word "Host" | .serial => .word "Serial" | .loRaWanABP => .word "LoRaWanABP"
  | .loRaWanOTAA => .word "LoRaWanOTAA" | .dash7 => .word "Dash7" | .unknown => .word "Unknown"

/-- `/repo/dash7/src/session/mod.rs:51-104` (derived `Debug`). -/
def responseMode : ResponseMode → Dbg
  | .no => .word "No" | .all => .word "All" | .any => .word "Any" | .noRepeat => .word "NoRepeat"
  | .onError => .word "OnError" | .preferred => .word "Preferred"

/-- `/repo/dash7/src/session/mod.rs:107-130` (derived `Debug`). -/
def retryMode : RetryMode → Dbg
  | .no => .word "No" | .oneshotRetry => .word "OneshotRetry" | .fifoFast => .word "FifoFast"
  | .fifoSlow => .word "FifoSlow" | .singleFast => .word "SingleFast" | .singleSlow => .word "SingleSlow"
  | .oneshotSticky => .word "OneshotSticky" | .rfu => .word "Rfu"

/-- `/repo/dash7/src/session/mod.rs:133-142` (derived `Debug`). -/
def qos (q : QoS) : Dbg :=
  .struct "QoS" [("stop_on_error", bool q.stopOnError), ("record", bool q.record),
    ("retry_mode", retryMode q.retryMode), ("response_mode", responseMode q.responseMode)]

/-- `/repo/dash7/src/session/mod.rs:182-213` (derived `Debug`). -/
def dash7InterfaceStatus (cfg : Cfg) (s : Dash7InterfaceStatus) : Dbg :=
  .struct "Dash7InterfaceStatus" [("channel", channel s.channel), ("rx_level", uint s.rxLevel),
    ("link_budget", uint s.linkBudget), ("target_rx_level", uint s.targetRxLevel), ("nls", bool s.nls),
    ("missed", bool s.missed), ("retry", bool s.retry), ("unicast", bool s.unicast),
    ("fifo_token", uint s.fifoToken), ("sequence_number", uint s.sequenceNumber),
    ("response_timeout", varInt s.responseTimeout), ("addressee", addressee cfg s.addressee)]

/-- `/repo/dash7/src/session/mod.rs:144-164` (derived `Debug`). -/
def interfaceStatus (cfg : Cfg) : InterfaceStatus → Dbg
  | .host => .word "Host"
  | .serial => .word "Serial"
  | .dash7 s => .tuple "Dash7" (dash7InterfaceStatus cfg s)
  | .other b => .tuple "Other" (bytes b)

/-- `/repo/dash7/src/session/interface_final.rs:17-63`: the names of the codes, from 0xEA on; 0 is
`No`. -/
def finalStatusName (c : InterfaceFinalStatusCode) : String :=
  if c.code = 0 then "No"
  else (["NotSupportedMode", "BufferOvf", "RxSched", "TxSched", "VidWoNls", "ParamOvf", "NotSupportedLen",
    "VoidChannelList", "NotSupportedModulation", "NotSupportedChannel", "NotSupportedBand", "RxTo",
    "NoAck", "Abort", "RxCrc", "RxOvf", "TxUdf", "NlsKey", "CcaTo", "DutyCycle", "BadParam",
    "Busy"].getD (c.code.toNat - 0xEA) "")

/-- `/repo/dash7/src/session/interface_final.rs:15-64` (derived `Debug`). -/
def finalStatusCode (c : InterfaceFinalStatusCode) : Dbg := .word (finalStatusName c)

/-- `/repo/dash7/src/session/interface_final.rs:5-13` (derived `Debug`). -/
def interfaceFinalStatus : InterfaceFinalStatus → Dbg
  | .dash7 c => .tuple "Dash7" (finalStatusCode c)
  | .other b => .tuple "Other" (bytes b)

/-- `/repo/dash7/src/session/interface_final.rs:76-89` (derived `Debug`). -/
def dash7InterfaceTxStatus (cfg : Cfg) (s : Dash7InterfaceTxStatus) : Dbg :=
  .struct "Dash7InterfaceTxStatus" [("channel", channel s.channel),
    ("target_rx_level", i8 s.targetRxLevel), ("error", finalStatusCode s.error), ("lts", uint s.lts),
    ("addressee", addressee cfg s.addressee)]

/-- `/repo/dash7/src/session/interface_final.rs:66-74` (derived `Debug`). -/
def interfaceTxStatus (cfg : Cfg) : InterfaceTxStatus → Dbg
  | .dash7 s => .tuple "Dash7" (dash7InterfaceTxStatus cfg s)
  | .other b => .tuple "Other" (bytes b)

/-- `/repo/dash7/src/app/interface.rs:9-33` (derived `Debug`); the execution delay is missing in the
subiot build. -/
def dash7InterfaceConfiguration (cfg : Cfg) (c : Dash7InterfaceConfiguration) : Dbg :=
  match cfg.variant with
  | .subiot => .struct "Dash7InterfaceConfiguration" [("qos", qos c.qos),
      ("dormant_session_timeout", varInt c.dormantSessionTimeout), ("addressee", addressee cfg c.addressee)]
  | _ => .struct "Dash7InterfaceConfiguration" [("qos", qos c.qos),
      ("dormant_session_timeout", varInt c.dormantSessionTimeout),
      ("execution_delay_timeout", varInt c.executionDelayTimeout), ("addressee", addressee cfg c.addressee)]

/-- `/repo/dash7/src/app/interface.rs:35-46` (derived `Debug`). -/
def loRaWAN (c : LoRaWANInterfaceConfiguration) : Dbg :=
  .struct "LoRaWANInterfaceConfiguration" [("adr_enabled", bool c.adrEnabled),
    ("request_ack", bool c.requestAck), ("application_port", uint c.applicationPort),
    ("data_rate", uint c.dataRate)]

/-- `/repo/dash7/src/app/interface.rs:48-60` (derived `Debug`). -/
def loRaWANOTAA (c : LoRaWANOTAAInterfaceConfiguration) : Dbg :=
  .struct "LoRaWANOTAAInterfaceConfiguration" [("base", loRaWAN c.base), ("device_eui", bytes c.deviceEui),
    ("app_eui", bytes c.appEui), ("app_key", bytes c.appKey)]

/-- `/repo/dash7/src/app/interface.rs:62-75` (derived `Debug`). -/
def loRaWANABP (c : LoRaWANABPInterfaceConfiguration) : Dbg :=
  .struct "LoRaWANABPInterfaceConfiguration" [("base", loRaWAN c.base),
    ("network_session_key", bytes c.networkSessionKey), ("app_session_key", bytes c.appSessionKey),
    ("device_address", uint c.deviceAddress), ("network_id", uint c.networkId)]

/-- `/repo/dash7/src/app/interface.rs:77-98` (derived `Debug`). -/
def interfaceConfiguration (cfg : Cfg) : InterfaceConfiguration → Dbg
  | .host => .word "Host"
  | .serial => .word "Serial"
  | .loRaWanABP c => .tuple "LoRaWanABP" (loRaWANABP c)
  | .loRaWanOTAA c => .tuple "LoRaWanOTAA" (loRaWANOTAA c)
  | .dash7 c => .tuple "Dash7" (dash7InterfaceConfiguration cfg c)
  | .unknown i => .tuple "Unknown" (uint i)

/-- `/repo/dash7/src/app/interface.rs:100-115` (derived `Debug`). -/
def indirectInterface (cfg : Cfg) : IndirectInterface → Dbg
  | .host => .word "Host"
  | .serial => .word "Serial"
  | .dash7 a => .tuple "Dash7" (addressee cfg a)
  | .unknown i => .tuple "Unknown" (uint i)

/-- `/repo/dash7/src/app/query.rs:5-21` (derived `Debug`). -/
def arithmeticComparisonType : ArithmeticComparisonType → Dbg
  | .inequal => .word "Inequal" | .equal => .word "Equal" | .lessThan => .word "LessThan"
  | .lessThanOrEqual => .word "LessThanOrEqual" | .greaterThan => .word "GreaterThan"
  | .greaterThanOrEqual => .word "GreaterThanOrEqual"

/-- `/repo/dash7/src/app/query.rs:23-28` (derived `Debug`). -/
def arithmeticQueryParams (p : ArithmeticQueryParams) : Dbg :=
  .struct "ArithmeticQueryParams" [("signed", bool p.signed),
    ("comparison_type", arithmeticComparisonType p.comparisonType)]

/-- `/repo/dash7/src/app/query.rs:30-38` (derived `Debug`). -/
def rangeComparisonType : RangeComparisonType → Dbg
  | .notInRange => .word "NotInRange" | .inRange => .word "InRange"

/-- `/repo/dash7/src/app/query.rs:40-45` (derived `Debug`). -/
def rangeQueryParams (p : RangeQueryParams) : Dbg :=
  .struct "RangeQueryParams" [("signed", bool p.signed),
    ("comparison_type", rangeComparisonType p.comparisonType)]

/-- `/repo/dash7/src/app/query.rs:72-77` (derived `Debug`). -/
def nonVoid (q : NonVoid) : Dbg := .struct "NonVoid" [("length", length q.length), ("file", fileOffset q.file)]

/-- `/repo/dash7/src/app/query.rs:79-92` (derived `Debug`). -/
def comparisonWithZero (q : ComparisonWithZero) : Dbg :=
  .struct "ComparisonWithZero" [("mask_present", bool q.maskPresent),
    ("params", arithmeticQueryParams q.params), ("length", length q.length), ("mask", bytes q.mask),
    ("file", fileOffset q.file)]

/-- `/repo/dash7/src/app/query.rs:107-124` (derived `Debug`). -/
def comparisonWithValue (q : ComparisonWithValue) : Dbg :=
  .struct "ComparisonWithValue" [("mask_present", bool q.maskPresent),
    ("params", arithmeticQueryParams q.params), ("length", length q.length), ("mask", bytes q.mask),
    ("value", bytes q.value), ("file", fileOffset q.file)]

/-- `/repo/dash7/src/app/query.rs:145-157` (derived `Debug`). -/
def comparisonWithOtherFile (q : ComparisonWithOtherFile) : Dbg :=
  .struct "ComparisonWithOtherFile" [("mask_present", bool q.maskPresent),
    ("params", arithmeticQueryParams q.params), ("length", length q.length), ("mask", bytes q.mask),
    ("file1", fileOffset q.file1), ("file2", fileOffset q.file2)]

/-- `/repo/dash7/src/app/query.rs:178-195` (derived `Debug`). -/
def bitmapRangeComparison (q : BitmapRangeComparison) : Dbg :=
  .struct "BitmapRangeComparison" [("mask_present", bool q.maskPresent),
    ("params", rangeQueryParams q.params), ("length", length q.length), ("start", length q.start),
    ("stop", length q.stop), ("mask", bytes q.mask), ("file", fileOffset q.file)]

/-- `/repo/dash7/src/app/query.rs:219-238` (derived `Debug`). -/
def stringTokenSearch (q : StringTokenSearch) : Dbg :=
  .struct "StringTokenSearch" [("mask_present", bool q.maskPresent), ("max_errors", uint q.maxErrors),
    ("length", length q.length), ("mask", bytes q.mask), ("value", bytes q.value),
    ("file", fileOffset q.file)]

/-- `/repo/dash7/src/app/query.rs:47-62` (derived `Debug`). -/
def query : Query → Dbg
  | .nonVoid q => .tuple "NonVoid" (nonVoid q)
  | .comparisonWithZero q => .tuple "ComparisonWithZero" (comparisonWithZero q)
  | .comparisonWithValue q => .tuple "ComparisonWithValue" (comparisonWithValue q)
  | .comparisonWithOtherFile q => .tuple "ComparisonWithOtherFile" (comparisonWithOtherFile q)
  | .bitmapRangeComparison q => .tuple "BitmapRangeComparison" (bitmapRangeComparison q)
  | .stringTokenSearch q => .tuple "StringTokenSearch" (stringTokenSearch q)

/-! ## `app/operation/mod.rs`, `app/interface_final.rs`, `app/action.rs` -/

/-- `/repo/dash7/src/app/action.rs:28-29` (derived `Debug`). -/
def opCode (o : OpCode) : Dbg := .tuple "OpCode" (uint o.code)

/-- `/repo/dash7/src/app/operation/mod.rs:24-25` (derived `Debug`). -/
def statusCode (s : StatusCode) : Dbg := .tuple "StatusCode" (uint s.code)

/-- `/repo/dash7/src/app/operation/mod.rs:55-65` (derived `Debug`). -/
def actionStatus (s : ActionStatus) : Dbg :=
  .struct "ActionStatus" [("action_id", uint s.actionId), ("status", statusCode s.status)]

/-- `/repo/dash7/src/app/operation/mod.rs:68-73` (derived `Debug`). -/
def permission : Permission → Dbg
  | .dash7 b => .tuple "Dash7" (bytes b.toList)

/-- `/repo/dash7/src/app/operation/mod.rs:81-90` (derived `Debug`). -/
def permissionLevel : PermissionLevel → Dbg
  | .user => .word "User" | .root => .word "Root"

/-- `/repo/dash7/src/app/operation/mod.rs:92-101` (derived `Debug`). -/
def actionHeader (h : ActionHeader) : Dbg :=
  .struct "ActionHeader" [("group", bool h.group), ("response", bool h.response)]

/-- `/repo/dash7/src/app/operation/mod.rs:111-118` (derived `Debug`). -/
def nop (o : Op.Nop) : Dbg := .struct "Nop" [("header", actionHeader o.header), ("opcode", opCode o.opcode)]

/-- `/repo/dash7/src/app/operation/mod.rs:122-131` (derived `Debug`). -/
def fileIdOp (o : Op.FileId) : Dbg :=
  .struct "FileId" [("header", actionHeader o.header), ("opcode", opCode o.opcode), ("file_id", uint o.fileId)]

/-- `/repo/dash7/src/app/operation/mod.rs:136-151` (derived `Debug`). -/
def fileData (o : Op.FileData) : Dbg :=
  .struct "FileData" [("header", actionHeader o.header), ("opcode", opCode o.opcode),
    ("offset", fileOffset o.offset), ("data", file o.data)]

/-- `/repo/dash7/src/app/operation/mod.rs:186-196` (derived `Debug`). -/
def filePropertiesOp (o : Op.FileProperties) : Dbg :=
  .struct "FileProperties" [("header", actionHeader o.header), ("opcode", opCode o.opcode),
    ("file_id", uint o.fileId), ("file_header", fileHeader o.fileHeader)]

/-- `/repo/dash7/src/app/operation/mod.rs:200-210` (derived `Debug`). -/
def readFileData (o : Op.ReadFileData) : Dbg :=
  .struct "ReadFileData" [("header", actionHeader o.header), ("opcode", opCode o.opcode),
    ("offset", fileOffset o.offset), ("length", length o.length)]

/-- `/repo/dash7/src/app/operation/mod.rs:212-221` (derived `Debug`). -/
def actionQuery (o : Op.ActionQuery) : Dbg :=
  .struct "ActionQuery" [("header", actionHeader o.header), ("opcode", opCode o.opcode),
    ("query", query o.query)]

/-- `/repo/dash7/src/app/operation/mod.rs:224-235` (derived `Debug`). -/
def permissionRequest (o : Op.PermissionRequest) : Dbg :=
  .struct "PermissionRequest" [("header", actionHeader o.header), ("opcode", opCode o.opcode),
    ("level", permissionLevel o.level), ("permission", permission o.permission)]

/-- `/repo/dash7/src/app/operation/mod.rs:243-254` (derived `Debug`). -/
def copyFile (o : Op.CopyFile) : Dbg :=
  .struct "CopyFile" [("header", actionHeader o.header), ("opcode", opCode o.opcode),
    ("src_file_id", uint o.srcFileId), ("dst_file_id", uint o.dstFileId)]

/-- `/repo/dash7/src/app/operation/mod.rs:256-269` (derived `Debug`). -/
def statusType : Op.StatusType → Dbg
  | .action => .word "Action" | .interface => .word "Interface" | .interfaceFinal => .word "InterfaceFinal"

/-- `/repo/dash7/src/app/operation/mod.rs:320-329` (derived `Debug`). -/
def interfaceStatusOperation (cfg : Cfg) (o : Op.InterfaceStatusOperation) : Dbg :=
  .struct "InterfaceStatusOperation" [("interface_type", interfaceType o.interfaceType),
    ("status", interfaceStatus cfg o.status)]

/-- `/repo/dash7/src/app/interface_final.rs:40-49` (derived `Debug`). -/
def interfaceFinalStatusOperation (o : Op.InterfaceFinalStatusOperation) : Dbg :=
  .struct "InterfaceFinalStatusOperation" [("interface_id", uint o.interfaceId),
    ("status", interfaceFinalStatus o.status)]

/-- `/repo/dash7/src/app/operation/mod.rs:272-290` (derived `Debug`). -/
def status (cfg : Cfg) : Op.Status → Dbg
  | .action s => .tuple "Action" (actionStatus s)
  | .interface o => .tuple "Interface" (interfaceStatusOperation cfg o)
  | .interfaceFinal o => .tuple "InterfaceFinal" (interfaceFinalStatusOperation o)

/-- `/repo/dash7/src/app/operation/mod.rs:308-318` (derived `Debug`). -/
def statusOperand (cfg : Cfg) (o : Op.StatusOperand) : Dbg :=
  .struct "StatusOperand" [("status_type", statusType o.statusType), ("opcode", opCode o.opcode),
    ("status", status cfg o.status)]

/-- `/repo/dash7/src/app/operation/mod.rs:386-397` (derived `Debug`). -/
def responseTagHeader (h : Op.ResponseTagHeader) : Dbg :=
  .struct "ResponseTagHeader" [("end_of_packet", bool h.endOfPacket), ("error", bool h.error)]

/-- `/repo/dash7/src/app/operation/mod.rs:402-411` (derived `Debug`). -/
def responseTag (o : Op.ResponseTag) : Dbg :=
  .struct "ResponseTag" [("header", responseTagHeader o.header), ("opcode", opCode o.opcode),
    ("id", uint o.id)]

/-- `/repo/dash7/src/app/operation/mod.rs:414-426` (derived `Debug`). -/
def chunkStep : Op.ChunkStep → Dbg
  | .continue => .word "Continue" | .start => .word "Start" | .end => .word "End"
  | .startEnd => .word "StartEnd"

/-- `/repo/dash7/src/app/operation/mod.rs:444-451` (derived `Debug`). -/
def chunk (o : Op.Chunk) : Dbg := .struct "Chunk" [("step", chunkStep o.step), ("opcode", opCode o.opcode)]

/-- `/repo/dash7/src/app/operation/mod.rs:454-466` (derived `Debug`). -/
def logicOp : Op.LogicOp → Dbg
  | .or => .word "Or" | .xor => .word "Xor" | .nor => .word "Nor" | .nand => .word "Nand"

/-- `/repo/dash7/src/app/operation/mod.rs:468-475` (derived `Debug`). -/
def logic (o : Op.Logic) : Dbg := .struct "Logic" [("logic", logicOp o.logic), ("opcode", opCode o.opcode)]

/-- `/repo/dash7/src/app/operation/mod.rs:477-493` (derived `Debug`, the header included). -/
def forward (cfg : Cfg) (o : Op.Forward) : Dbg :=
  .struct "Forward" [("header", .struct "ForwardHeader" [("response", bool o.response)]),
    ("opcode", opCode o.opcode), ("configuration", interfaceConfiguration cfg o.configuration)]

/-- `/repo/dash7/src/app/operation/mod.rs:505-512` (derived `Debug`). -/
def indirectForwardHeader (h : Op.IndirectForwardHeader) : Dbg :=
  .struct "IndirectForwardHeader" [("overloaded", bool h.overloaded), ("response", bool h.response)]

/-- `/repo/dash7/src/app/operation/mod.rs:524-537` (derived `Debug`). -/
def indirectForward (cfg : Cfg) (o : Op.IndirectForward) : Dbg :=
  .struct "IndirectForward" [("header", indirectForwardHeader o.header), ("opcode", opCode o.opcode),
    ("configuration", option (indirectInterface cfg) o.configuration)]

/-- `/repo/dash7/src/app/operation/mod.rs:552-568` (derived `Debug`, the header included). -/
def requestTag (o : Op.RequestTag) : Dbg :=
  .struct "RequestTag" [("header", .struct "RequestTagHeader" [("end_of_packet", bool o.endOfPacket)]),
    ("opcode", opCode o.opcode), ("id", uint o.id)]

/-- `/repo/dash7/src/app/operation/mod.rs:570-577` (derived `Debug`). -/
def extension (o : Op.Extension) : Dbg :=
  .struct "Extension" [("header", actionHeader o.header), ("opcode", opCode o.opcode)]

/-- `/repo/dash7/src/app/interface_final.rs:117-126` (derived `Debug`). -/
def interfaceTxStatusOperation (cfg : Cfg) (o : Op.InterfaceTxStatusOperation) : Dbg :=
  .struct "InterfaceTxStatusOperation" [("interface_id", uint o.interfaceId),
    ("status", interfaceTxStatus cfg o.status)]

/-- `/repo/dash7/src/app/interface_final.rs:90-115` (derived `Debug` of `TxStatusOperation`, with the only
variants of `TxStatusType` and `TxStatus`). -/
def txStatusOperation (cfg : Cfg) (o : Op.TxStatusOperation) : Dbg :=
  .struct "TxStatusOperation" [("status_type", .word "Interface"), ("opcode", opCode o.opcode),
    ("status", .tuple "Interface" (interfaceTxStatusOperation cfg o.status))]

/-- `/repo/dash7/src/app/action.rs:84-138` (derived `Debug`). -/
def action (cfg : Cfg) : Action → Dbg
  | .nop o => .tuple "Nop" (nop o)
  | .readFileData o => .tuple "ReadFileData" (readFileData o)
  | .readFileProperties o => .tuple "ReadFileProperties" (fileIdOp o)
  | .writeFileData o => .tuple "WriteFileData" (fileData o)
  | .writeFileDataFlush o => .tuple "WriteFileDataFlush" (fileData o)
  | .writeFileProperties o => .tuple "WriteFileProperties" (filePropertiesOp o)
  | .actionQuery o => .tuple "ActionQuery" (actionQuery o)
  | .breakQuery o => .tuple "BreakQuery" (actionQuery o)
  | .permissionRequest o => .tuple "PermissionRequest" (permissionRequest o)
  | .verifyChecksum o => .tuple "VerifyChecksum" (actionQuery o)
  | .existFile o => .tuple "ExistFile" (fileIdOp o)
  | .createNewFile o => .tuple "CreateNewFile" (filePropertiesOp o)
  | .deleteFile o => .tuple "DeleteFile" (fileIdOp o)
  | .restoreFile o => .tuple "RestoreFile" (fileIdOp o)
  | .flushFile o => .tuple "FlushFile" (fileIdOp o)
  | .copyFile o => .tuple "CopyFile" (copyFile o)
  | .executeFile o => .tuple "ExecuteFile" (fileIdOp o)
  | .returnFileData o => .tuple "ReturnFileData" (fileData o)
  | .returnFileProperties o => .tuple "ReturnFileProperties" (filePropertiesOp o)
  | .status o => .tuple "Status" (statusOperand cfg o)
  | .responseTag o => .tuple "ResponseTag" (responseTag o)
  | .txStatus o => .tuple "TxStatus" (txStatusOperation cfg o)
  | .chunk o => .tuple "Chunk" (chunk o)
  | .logic o => .tuple "Logic" (logic o)
  | .forward o => .tuple "Forward" (forward cfg o)
  | .indirectForward o => .tuple "IndirectForward" (indirectForward cfg o)
  | .requestTag o => .tuple "RequestTag" (requestTag o)
  | .extension o => .tuple "Extension" (extension o)

/-- `/repo/dash7/src/app/command.rs:23-32` (derived `Debug`). -/
def command (cfg : Cfg) (c : Command) : Dbg :=
  .struct "Command" [("actions", .list (c.actions.map (action cfg)))]

/-! ## Frames -/

/-- `/repo/dash7/src/transport/mod.rs:24-40` (derived `Debug`). -/
def transControl (c : Trans.Control) : Dbg :=
  .struct "Control" [("is_dialog_start", bool c.isDialogStart),
    ("has_listen_timeout", bool c.hasListenTimeout),
    ("has_execution_delay_timeout", bool c.hasExecutionDelayTimeout),
    ("is_ack_requested", bool c.isAckRequested), ("is_ack_not_void", bool c.isAckNotVoid),
    ("is_ack_record_requested", bool c.isAckRecordRequested), ("has_agc", bool c.hasAgc)]

/-- `/repo/dash7/src/transport/mod.rs:42-46` (derived `Debug`). -/
def ackTemplate (t : Trans.AckTemplate) : Dbg :=
  .struct "AckTemplate" [("transaction_id_start", uint t.transactionIdStart),
    ("transaction_id_stop", uint t.transactionIdStop)]

/-- `/repo/dash7/src/transport/mod.rs:48-85` (derived `Debug`). -/
def transFrame (cfg : Cfg) (f : Trans.Frame) : Dbg :=
  .struct "Frame" [("control", transControl f.header.control), ("dialog_id", uint f.header.dialogId),
    ("transaction_id", uint f.header.transactionId),
    ("target_rx_level_i", option uint f.header.targetRxLevelI),
    ("listen_timeout", option varInt f.header.listenTimeout),
    ("execution_delay_timeout", option varInt f.header.executionDelayTimeout),
    ("congestion_timeout", option varInt f.header.congestionTimeout),
    ("ack_template", option ackTemplate f.header.ackTemplate), ("command", command cfg f.command)]

/-- `/repo/dash7/src/network/network.rs:7-18` (derived `Debug`). -/
def netControl (c : Net.Control) : Dbg :=
  .struct "Control" [("has_no_origin_access_id", bool c.hasNoOriginAccessId),
    ("has_hopping", bool c.hasHopping), ("origin_address_type", addressType c.originAddressType),
    ("nls_method", nlsMethod c.nlsMethod)]

/-- `/repo/dash7/src/network/network.rs:20-28` (derived `Debug`). -/
def hoppingControl (c : Net.HoppingControl) : Dbg :=
  .struct "HoppingControl" [("hop_counter", bool c.hopCounter),
    ("destination_address_type", addressType c.destinationAddressType)]

/-- `/repo/dash7/src/network/network.rs:30-45` (derived `Debug`; `origin_access_adress` is the field's
name). -/
def netFrame (cfg : Cfg) (f : Net.Frame) : Dbg :=
  .struct "Frame" [("control", netControl f.header.control),
    ("hopping_control", option hoppingControl f.header.hoppingControl),
    ("origin_access_class", accessClass f.header.originAccessClass),
    ("origin_access_adress", address f.header.originAccessAddress), ("frame", transFrame cfg f.frame)]

/-- `/repo/dash7/src/link/frame.rs:24-30` (derived `Debug`). -/
def foregroundFrameControl (c : ForegroundFrameControl) : Dbg :=
  .struct "ForegroundFrameControl" [("address_type", addressType c.addressType),
    ("eirp_index", uint c.eirpIndex)]

/-- `/repo/dash7/src/link/frame.rs:32-44` (derived `Debug`). -/
def foregroundFrame (cfg : Cfg) (f : ForegroundFrame) : Dbg :=
  .struct "ForegroundFrame" [("length", length f.header.length), ("subnet", uint f.header.subnet),
    ("control", foregroundFrameControl f.header.control),
    ("target_address", address f.header.targetAddress), ("frame", netFrame cfg f.frame),
    ("crc16", uint f.crc16)]

/-- `/repo/dash7/src/link/frame.rs:8-14` (derived `Debug`). -/
def backgroundFrameControl (c : BackgroundFrameControl) : Dbg :=
  .struct "BackgroundFrameControl" [("address_type", addressType c.addressType), ("tag_id", uint c.tagId)]

/-- `/repo/dash7/src/link/frame.rs:16-22` (derived `Debug`). -/
def backgroundFrame (f : BackgroundFrame) : Dbg :=
  .struct "BackgroundFrame" [("subnet", uint f.subnet), ("control", backgroundFrameControl f.control),
    ("payload", uint f.payload), ("crc16", uint f.crc16)]

/-- `/repo/dash7/src/file/mod.rs:215-221`: what `File::from_bytes` gives, the unread input with its bit
offset and the file, as `/repo/dash7-cli/src/parse.rs:62-63` prints it. -/
def restAndFile (rest : Rest) (f : File) : Dbg :=
  .pair (.pair (bytes rest.1) (.num rest.2)) (file f)

end Dbg

/-- `/repo/dash7-cli/src/parse.rs:41,47,53,63`: the characters `dash7-cli` itself writes to the standard
output; what the library writes besides is in `Model/Output.lean`. The
`{:?}` of the actions inside a command is derived (`/repo/dash7/src/app/command.rs:224`). -/
def Cli.Printed.text (plain : Char → Bool) (cfg : Cfg) : Cli.Printed → String
  | .foreground f => (Dbg.foregroundFrame cfg f).text plain ++ "\n"
  | .background f => (Dbg.backgroundFrame f).text plain ++ "\n"
  | .command c =>
    c.display (fun a => (Dbg.action cfg a).text plain) (InterfaceStatus.display cfg) ++ "\n"
  | .file rest f => (Dbg.restAndFile rest f).text plain ++ "\n"
  | .nothing => ""

end Dash7
