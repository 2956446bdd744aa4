import Verif.Model.Frame
import Verif.Model.Action

/-!
# The types which can be read and written on their own

deku gives every type without a `ctx` (or with a `ctx_default`) a `from_bytes`, a `TryFrom<&[u8]>` and a
`to_bytes` of its own. The readers and writers are those of the other files; here they are put in one table,
so that the derived functions can be spoken about for all of the types. Left out: `file::FileId`, `InterfaceType` and
`NoiseFloor`, whose readers may go back behind the id they read (`Verif/Model/Ids.lean`), and the frames, which have
functions of their own.
-/

namespace Dash7

/-- The types. Each constructor cites the declaration in `/repo/dash7/src`. -/
inductive Item
  /-- `/repo/dash7/src/physical/mod.rs:3-9` -/
  | bandwidth
  /-- `/repo/dash7/src/physical/mod.rs:12-21` -/
  | channelBand
  /-- `/repo/dash7/src/physical/mod.rs:23-31` -/
  | channelClass
  /-- `/repo/dash7/src/physical/mod.rs:33-41` -/
  | channelCoding
  /-- `/repo/dash7/src/physical/mod.rs:43-55` -/
  | csmaCaMode
  /-- `/repo/dash7/src/physical/mod.rs:79-85` -/
  | channelHeader
  /-- `/repo/dash7/src/physical/mod.rs:101-106` -/
  | channel
  /-- `/repo/dash7/src/physical/mod.rs:108-116` -/
  | channelStatusIdentifier
  /-- `/repo/dash7/src/physical/mod.rs:128-132` -/
  | channelStatus
  /-- `/repo/dash7/src/physical/mod.rs:118-126` -/
  | subBand
  /-- `/repo/dash7/src/link/mod.rs:10-14` -/
  | subProfile
  /-- `/repo/dash7/src/link/mod.rs:22-28` -/
  | accessClass
  /-- `/repo/dash7/src/link/mod.rs:43-58`, `/repo/dash7/src/file/access_profile.rs:7-10` -/
  | accessProfile
  /-- `/repo/dash7/src/transport/mod.rs:5-21` -/
  | groupCondition
  /-- `/repo/dash7/src/network/mod.rs:75-91` -/
  | addressType
  /-- `/repo/dash7/src/network/mod.rs:13-50` -/
  | nlsMethod
  /-- `/repo/dash7/src/network/addressee.rs:10-35` -/
  | addressee
  /-- `/repo/dash7/src/types.rs:46-56` -/
  | varInt
  /-- `/repo/dash7/src/app/operation/length.rs:7-14` -/
  | length
  /-- `/repo/dash7/src/app/operation/file_offset.rs:6-10` -/
  | fileOffset
  /-- `/repo/dash7/src/data/mod.rs:4-16` -/
  | actionCondition
  /-- `/repo/dash7/src/data/mod.rs:18-38` -/
  | storageClass
  /-- `/repo/dash7/src/data/mod.rs:40-48` -/
  | userPermissions
  /-- `/repo/dash7/src/data/mod.rs:50-58` -/
  | filePermissions
  /-- `/repo/dash7/src/data/mod.rs:60-72` -/
  | fileProperties
  /-- `/repo/dash7/src/data/mod.rs:74-84` -/
  | fileHeader
  /-- `/repo/dash7/src/file/dll_config.rs:3-11` -/
  | dllConfig
  /-- `/repo/dash7/src/file/dll_status.rs:5-20` -/
  | dllStatus
  /-- `/repo/dash7/src/file/engineering_mode.rs:5-18` -/
  | engineeringModeMethod
  /-- `/repo/dash7/src/file/engineering_mode.rs:20-27` -/
  | engineeringMode
  /-- `/repo/dash7/src/file/factory_settings.rs:3-46` -/
  | factorySettings
  /-- `/repo/dash7/src/file/firmware_version.rs:8-24` -/
  | firmwareVersion
  /-- `/repo/dash7/src/file/phy_status.rs:5-21` -/
  | phyStatus
  /-- `/repo/dash7/src/file/security_key.rs:3-7` -/
  | securityKey
  /-- `/repo/dash7/src/file/mod.rs:137-206` (`ctx_default`: `FileId::Other`, length 0) -/
  | file
  /-- `/repo/dash7/src/session/mod.rs:51-105` -/
  | responseMode
  /-- `/repo/dash7/src/session/mod.rs:110-130` -/
  | retryMode
  /-- `/repo/dash7/src/session/mod.rs:133-142` -/
  | qos
  /-- `/repo/dash7/src/session/mod.rs:182-213` -/
  | dash7InterfaceStatus
  /-- `/repo/dash7/src/session/interface_final.rs:15-64` -/
  | finalStatusCode
  /-- `/repo/dash7/src/session/interface_final.rs:76-89` -/
  | dash7InterfaceTxStatus
  /-- `/repo/dash7/src/app/interface.rs:9-33` -/
  | dash7InterfaceConfiguration
  /-- `/repo/dash7/src/app/interface.rs:35-46` -/
  | loRaWAN
  /-- `/repo/dash7/src/app/interface.rs:48-60` -/
  | loRaWANOTAA
  /-- `/repo/dash7/src/app/interface.rs:62-75` -/
  | loRaWANABP
  /-- `/repo/dash7/src/app/interface.rs:77-98` -/
  | interfaceConfiguration
  /-- `/repo/dash7/src/app/interface.rs:100-115` -/
  | indirectInterface
  /-- `/repo/dash7/src/app/query.rs:5-21` -/
  | arithmeticComparisonType
  /-- `/repo/dash7/src/app/query.rs:23-28` -/
  | arithmeticQueryParams
  /-- `/repo/dash7/src/app/query.rs:30-38` -/
  | rangeComparisonType
  /-- `/repo/dash7/src/app/query.rs:40-45` -/
  | rangeQueryParams
  /-- `/repo/dash7/src/app/query.rs:47-62` -/
  | query
  /-- `/repo/dash7/src/app/query.rs:72-77` -/
  | nonVoid
  /-- `/repo/dash7/src/app/query.rs:79-92` -/
  | comparisonWithZero
  /-- `/repo/dash7/src/app/query.rs:107-124` -/
  | comparisonWithValue
  /-- `/repo/dash7/src/app/query.rs:145-157` -/
  | comparisonWithOtherFile
  /-- `/repo/dash7/src/app/query.rs:178-195` -/
  | bitmapRangeComparison
  /-- `/repo/dash7/src/app/query.rs:219-238` -/
  | stringTokenSearch
  /-- `/repo/dash7/src/app/action.rs:28-29` -/
  | opCode
  /-- `/repo/dash7/src/app/operation/mod.rs:24-25` -/
  | statusCode
  /-- `/repo/dash7/src/app/operation/mod.rs:55-65` -/
  | actionStatus
  /-- `/repo/dash7/src/app/operation/mod.rs:68-73` -/
  | permission
  /-- `/repo/dash7/src/app/operation/mod.rs:81-90` -/
  | permissionLevel
  /-- `/repo/dash7/src/app/operation/mod.rs:92-101` -/
  | actionHeader
  /-- `/repo/dash7/src/app/operation/mod.rs:256-269` -/
  | statusType
  /-- `/repo/dash7/src/app/operation/mod.rs:271-290` (`ctx_default`: `StatusType::Action`) -/
  | status
  /-- `/repo/dash7/src/app/operation/mod.rs:320-329` -/
  | interfaceStatusOperation
  /-- `/repo/dash7/src/app/interface_final.rs:40-49` -/
  | interfaceFinalStatusOperation
  /-- `/repo/dash7/src/app/interface_final.rs:117-126` -/
  | interfaceTxStatusOperation
  /-- `/repo/dash7/src/app/operation/mod.rs:386-397` -/
  | responseTagHeader
  /-- `/repo/dash7/src/app/operation/mod.rs:414-426` -/
  | chunkStep
  /-- `/repo/dash7/src/app/operation/mod.rs:454-466` -/
  | logicOp
  /-- `/repo/dash7/src/app/operation/mod.rs:505-512` -/
  | indirectForwardHeader
  /-- `/repo/dash7/src/app/operation/mod.rs:477-481` -/
  | forwardHeader
  /-- `/repo/dash7/src/app/operation/mod.rs:552-556` -/
  | requestTagHeader
  /-- `/repo/dash7/src/app/interface_final.rs:90-95` -/
  | txStatusType
  /-- `/repo/dash7/src/transport/mod.rs:24-40` -/
  | transControl
  /-- `/repo/dash7/src/transport/mod.rs:42-46` -/
  | ackTemplate
  /-- `/repo/dash7/src/network/network.rs:7-18` -/
  | netControl
  /-- `/repo/dash7/src/network/network.rs:20-28` -/
  | hoppingControl
  /-- `/repo/dash7/src/link/frame.rs:24-30` -/
  | foregroundFrameControl
  /-- `/repo/dash7/src/link/frame.rs:8-14` -/
  | backgroundFrameControl
  /-- `/repo/dash7/src/link/frame.rs:16-22` -/
  | backgroundFrame
  deriving DecidableEq, Repr

namespace Item

/-- The values of a type; declarations cited at the constructors of `Item`, e.g.
`/repo/dash7/src/physical/mod.rs:101-106`. -/
abbrev Val : Item → Type
  | .bandwidth => Bandwidth
  | .channelBand => ChannelBand
  | .channelClass => ChannelClass
  | .channelCoding => ChannelCoding
  | .csmaCaMode => CsmaCaMode
  | .channelHeader => ChannelHeader
  | .channel => Channel
  | .channelStatusIdentifier => ChannelStatusIdentifier
  | .channelStatus => ChannelStatus
  | .subBand => SubBand
  | .subProfile => SubProfile
  | .accessClass => AccessClass
  | .accessProfile => AccessProfile
  | .groupCondition => GroupCondition
  | .addressType => AddressType
  | .nlsMethod => NlsMethod
  | .addressee => Addressee
  | .varInt => VarInt
  | .length => Length
  | .fileOffset => FileOffset
  | .actionCondition => Data.ActionCondition
  | .storageClass => Data.StorageClass
  | .userPermissions => Data.UserPermissions
  | .filePermissions => Data.FilePermissions
  | .fileProperties => Data.FileProperties
  | .fileHeader => Data.FileHeader
  | .dllConfig => DllConfig
  | .dllStatus => DllStatus
  | .engineeringModeMethod => EngineeringModeMethod
  | .engineeringMode => EngineeringMode
  | .factorySettings => FactorySettings
  | .firmwareVersion => FirmwareVersion
  | .phyStatus => PhyStatus
  | .securityKey => SecurityKey
  | .file => File
  | .responseMode => ResponseMode
  | .retryMode => RetryMode
  | .qos => QoS
  | .dash7InterfaceStatus => Dash7InterfaceStatus
  | .finalStatusCode => InterfaceFinalStatusCode
  | .dash7InterfaceTxStatus => Dash7InterfaceTxStatus
  | .dash7InterfaceConfiguration => Dash7InterfaceConfiguration
  | .loRaWAN => LoRaWANInterfaceConfiguration
  | .loRaWANOTAA => LoRaWANOTAAInterfaceConfiguration
  | .loRaWANABP => LoRaWANABPInterfaceConfiguration
  | .interfaceConfiguration => InterfaceConfiguration
  | .indirectInterface => IndirectInterface
  | .arithmeticComparisonType => ArithmeticComparisonType
  | .arithmeticQueryParams => ArithmeticQueryParams
  | .rangeComparisonType => RangeComparisonType
  | .rangeQueryParams => RangeQueryParams
  | .query => Query
  | .nonVoid => NonVoid
  | .comparisonWithZero => ComparisonWithZero
  | .comparisonWithValue => ComparisonWithValue
  | .comparisonWithOtherFile => ComparisonWithOtherFile
  | .bitmapRangeComparison => BitmapRangeComparison
  | .stringTokenSearch => StringTokenSearch
  | .opCode => OpCode
  | .statusCode => StatusCode
  | .actionStatus => ActionStatus
  | .permission => Permission
  | .permissionLevel => PermissionLevel
  | .actionHeader => ActionHeader
  | .statusType => Op.StatusType
  | .status => Op.Status
  | .interfaceStatusOperation => Op.InterfaceStatusOperation
  | .interfaceFinalStatusOperation => Op.InterfaceFinalStatusOperation
  | .interfaceTxStatusOperation => Op.InterfaceTxStatusOperation
  | .responseTagHeader => Op.ResponseTagHeader
  | .chunkStep => Op.ChunkStep
  | .logicOp => Op.LogicOp
  | .indirectForwardHeader => Op.IndirectForwardHeader
  | .forwardHeader => Op.ForwardHeader
  | .requestTagHeader => Op.RequestTagHeader
  | .txStatusType => Op.TxStatusType
  | .transControl => Trans.Control
  | .ackTemplate => Trans.AckTemplate
  | .netControl => Net.Control
  | .hoppingControl => Net.HoppingControl
  | .foregroundFrameControl => ForegroundFrameControl
  | .backgroundFrameControl => BackgroundFrameControl
  | .backgroundFrame => BackgroundFrame

/-- The derived reader, `DekuReader::from_reader_with_ctx`; e.g. for
`/repo/dash7/src/physical/mod.rs:101-106`. -/
def read (cfg : Cfg) : (i : Item) → P i.Val
  | .bandwidth => Bandwidth.read
  | .channelBand => ChannelBand.read
  | .channelClass => ChannelClass.read
  | .channelCoding => ChannelCoding.read
  | .csmaCaMode => CsmaCaMode.read
  | .channelHeader => ChannelHeader.read
  | .channel => Channel.read
  | .channelStatusIdentifier => ChannelStatusIdentifier.read
  | .channelStatus => ChannelStatus.read
  | .subBand => SubBand.read
  | .subProfile => SubProfile.read
  | .accessClass => AccessClass.read
  | .accessProfile => AccessProfile.read
  | .groupCondition => GroupCondition.read
  | .addressType => AddressType.read
  | .nlsMethod => NlsMethod.read cfg
  | .addressee => Addressee.read cfg
  | .varInt => VarInt.read
  | .length => Length.read
  | .fileOffset => FileOffset.read
  | .actionCondition => Data.ActionCondition.reader
  | .storageClass => Data.StorageClass.read
  | .userPermissions => Data.UserPermissions.reader
  | .filePermissions => Data.FilePermissions.read
  | .fileProperties => Data.FileProperties.read
  | .fileHeader => Data.FileHeader.read
  | .dllConfig => DllConfig.read
  | .dllStatus => DllStatus.read
  | .engineeringModeMethod => EngineeringModeMethod.read
  | .engineeringMode => EngineeringMode.read
  | .factorySettings => FactorySettings.read
  | .firmwareVersion => FirmwareVersion.read
  | .phyStatus => PhyStatus.read
  | .securityKey => SecurityKey.read cfg
  | .file => File.read cfg .other 0
  | .responseMode => ResponseMode.read
  | .retryMode => RetryMode.read
  | .qos => QoS.read
  | .dash7InterfaceStatus => Dash7InterfaceStatus.read cfg
  | .finalStatusCode => InterfaceFinalStatusCode.read
  | .dash7InterfaceTxStatus => Dash7InterfaceTxStatus.read cfg
  | .dash7InterfaceConfiguration => Dash7InterfaceConfiguration.read cfg
  | .loRaWAN => LoRaWANInterfaceConfiguration.read
  | .loRaWANOTAA => LoRaWANOTAAInterfaceConfiguration.read
  | .loRaWANABP => LoRaWANABPInterfaceConfiguration.read cfg
  | .interfaceConfiguration => InterfaceConfiguration.read cfg
  | .indirectInterface => IndirectInterface.read cfg
  | .arithmeticComparisonType => ArithmeticComparisonType.read
  | .arithmeticQueryParams => ArithmeticQueryParams.read
  | .rangeComparisonType => RangeComparisonType.read
  | .rangeQueryParams => RangeQueryParams.read
  | .query => Query.read
  | .nonVoid => NonVoid.read
  | .comparisonWithZero => ComparisonWithZero.read
  | .comparisonWithValue => ComparisonWithValue.read
  | .comparisonWithOtherFile => ComparisonWithOtherFile.read
  | .bitmapRangeComparison => BitmapRangeComparison.read
  | .stringTokenSearch => StringTokenSearch.read
  | .opCode => OpCode.read
  | .statusCode => StatusCode.read
  | .actionStatus => ActionStatus.read
  | .permission => Permission.read
  | .permissionLevel => PermissionLevel.read
  | .actionHeader => ActionHeader.read
  | .statusType => Op.StatusType.read
  | .status => Op.Status.read cfg .action
  | .interfaceStatusOperation => Op.InterfaceStatusOperation.read cfg
  | .interfaceFinalStatusOperation => Op.InterfaceFinalStatusOperation.read
  | .interfaceTxStatusOperation => Op.InterfaceTxStatusOperation.read cfg
  | .responseTagHeader => Op.ResponseTagHeader.read
  | .chunkStep => Op.ChunkStep.read
  | .logicOp => Op.LogicOp.read
  | .indirectForwardHeader => Op.IndirectForwardHeader.read
  | .forwardHeader => Op.ForwardHeader.read
  | .requestTagHeader => Op.RequestTagHeader.read
  | .txStatusType => Op.TxStatusType.read
  | .transControl => Trans.Control.read
  | .ackTemplate => Trans.AckTemplate.read
  | .netControl => Net.Control.read cfg
  | .hoppingControl => Net.HoppingControl.read
  | .foregroundFrameControl => ForegroundFrameControl.read
  | .backgroundFrameControl => BackgroundFrameControl.read
  | .backgroundFrame => BackgroundFrame.read cfg

/-- The derived writer, `DekuWriter::to_writer`; e.g. for `/repo/dash7/src/physical/mod.rs:101-106`. -/
def write (cfg : Cfg) : (i : Item) → i.Val → W
  | .bandwidth => Bandwidth.write
  | .channelBand => ChannelBand.write
  | .channelClass => ChannelClass.write
  | .channelCoding => ChannelCoding.write
  | .csmaCaMode => CsmaCaMode.write
  | .channelHeader => ChannelHeader.write
  | .channel => Channel.write
  | .channelStatusIdentifier => ChannelStatusIdentifier.write
  | .channelStatus => ChannelStatus.write
  | .subBand => SubBand.write
  | .subProfile => SubProfile.write
  | .accessClass => AccessClass.write
  | .accessProfile => AccessProfile.write
  | .groupCondition => GroupCondition.write
  | .addressType => AddressType.write
  | .nlsMethod => NlsMethod.write cfg
  | .addressee => Addressee.write cfg
  | .varInt => VarInt.write
  | .length => Length.write
  | .fileOffset => FileOffset.write
  | .actionCondition => Data.ActionCondition.writer
  | .storageClass => Data.StorageClass.write
  | .userPermissions => Data.UserPermissions.writer
  | .filePermissions => Data.FilePermissions.write
  | .fileProperties => Data.FileProperties.write
  | .fileHeader => Data.FileHeader.write
  | .dllConfig => DllConfig.write
  | .dllStatus => DllStatus.write
  | .engineeringModeMethod => EngineeringModeMethod.write
  | .engineeringMode => EngineeringMode.write
  | .factorySettings => FactorySettings.write
  | .firmwareVersion => FirmwareVersion.write
  | .phyStatus => PhyStatus.write
  | .securityKey => SecurityKey.write cfg
  | .file => File.write cfg
  | .responseMode => ResponseMode.write
  | .retryMode => RetryMode.write
  | .qos => QoS.write
  | .dash7InterfaceStatus => Dash7InterfaceStatus.write cfg
  | .finalStatusCode => InterfaceFinalStatusCode.write
  | .dash7InterfaceTxStatus => Dash7InterfaceTxStatus.write cfg
  | .dash7InterfaceConfiguration => Dash7InterfaceConfiguration.write cfg
  | .loRaWAN => LoRaWANInterfaceConfiguration.write
  | .loRaWANOTAA => LoRaWANOTAAInterfaceConfiguration.write
  | .loRaWANABP => LoRaWANABPInterfaceConfiguration.write cfg
  | .interfaceConfiguration => InterfaceConfiguration.write cfg
  | .indirectInterface => IndirectInterface.write cfg
  | .arithmeticComparisonType => ArithmeticComparisonType.write
  | .arithmeticQueryParams => ArithmeticQueryParams.write
  | .rangeComparisonType => RangeComparisonType.write
  | .rangeQueryParams => RangeQueryParams.write
  | .query => Query.write
  | .nonVoid => NonVoid.write
  | .comparisonWithZero => ComparisonWithZero.write
  | .comparisonWithValue => ComparisonWithValue.write
  | .comparisonWithOtherFile => ComparisonWithOtherFile.write
  | .bitmapRangeComparison => BitmapRangeComparison.write
  | .stringTokenSearch => StringTokenSearch.write
  | .opCode => OpCode.write
  | .statusCode => StatusCode.write
  | .actionStatus => ActionStatus.write
  | .permission => Permission.write
  | .permissionLevel => PermissionLevel.write
  | .actionHeader => ActionHeader.write
  | .statusType => Op.StatusType.write
  | .status => Op.Status.write cfg
  | .interfaceStatusOperation => Op.InterfaceStatusOperation.write cfg
  | .interfaceFinalStatusOperation => Op.InterfaceFinalStatusOperation.write
  | .interfaceTxStatusOperation => Op.InterfaceTxStatusOperation.write cfg
  | .responseTagHeader => Op.ResponseTagHeader.write
  | .chunkStep => Op.ChunkStep.write
  | .logicOp => Op.LogicOp.write
  | .indirectForwardHeader => Op.IndirectForwardHeader.write
  | .forwardHeader => Op.ForwardHeader.write
  | .requestTagHeader => Op.RequestTagHeader.write
  | .txStatusType => Op.TxStatusType.write
  | .transControl => Trans.Control.write
  | .ackTemplate => Trans.AckTemplate.write
  | .netControl => Net.Control.write cfg
  | .hoppingControl => Net.HoppingControl.write
  | .foregroundFrameControl => ForegroundFrameControl.write
  | .backgroundFrameControl => BackgroundFrameControl.write
  | .backgroundFrame => BackgroundFrame.write cfg

/-- The derived `DekuContainerRead::from_bytes`; e.g. for `/repo/dash7/src/physical/mod.rs:101-106`. -/
def fromBytes (cfg : Cfg) (i : Item) (input : Rest) : Except Err (Rest × i.Val) :=
  derivedFromBytes (i.read cfg).run input

/-- The derived `TryFrom<&[u8]>`; e.g. for `/repo/dash7/src/physical/mod.rs:101-106`. -/
def tryFrom (cfg : Cfg) (i : Item) (data : List U8) : Except Err i.Val :=
  derivedTryFrom (i.read cfg).run data

/-- The derived `DekuContainerWrite::to_bytes`; e.g. for `/repo/dash7/src/physical/mod.rs:101-106`. -/
def toBytes (cfg : Cfg) (i : Item) (v : i.Val) : Except Err (List U8) := (i.write cfg v).toBytes

end Item
end Dash7
