import Verif.Model.Items
import Verif.Spec.FrameAccept

/-!
# What stands for a value of a type read on its own
-/

namespace Dash7

/-- How to wait before sending, in four bits. -/
def Wire.csmaCaMode : CsmaCaMode → Nat
  | .unc => 0 | .aind => 1 | .raind => 2 | .rigd => 3

namespace Form

/-- A query without the three bits telling its type. -/
def queryBehindType (q : Query) : Form := fun c => ∃ type, type.length = 3 ∧ query q (type ++ c)

/-- The bits which stand for a value. A file read on its own, nobody telling its id, is always the empty file of
no particular structure. A status read on its own is an action status. -/
def item (cfg : Cfg) : (i : Item) → i.Val → Form
  | .bandwidth => fun b => field 2 (Wire.bandwidth b)
  | .channelBand => fun b => field 3 (Wire.channelBand b)
  | .channelClass => fun b => field 2 (Wire.channelClass b)
  | .channelCoding => fun b => field 2 (Wire.channelCoding b)
  | .csmaCaMode => fun b => field 4 (Wire.csmaCaMode b)
  | .channelHeader => channelHeader
  | .channel => channel
  | .channelStatusIdentifier =>
    fun c => all [field 3 (Wire.channelBand c.band), field 2 (Wire.bandwidth c.bandwidth), field 11 c.index.toNat]
  | .channelStatus => channelStatus
  | .subBand => subBand
  | .subProfile => subProfile
  | .accessClass => accessClass
  | .accessProfile => accessProfile
  | .groupCondition => fun b => field 2 (Wire.groupCondition b)
  | .addressType => fun b => field 2 (Wire.addressType b)
  | .nlsMethod => fun m => field (if cfg.variant = .wizzilab then 3 else 4) (Wire.nlsMethod m)
  | .addressee => addressee cfg.variant
  | .varInt => varInt
  | .length => fun l => length l.val.toNat
  | .fileOffset => fileOffset
  | .actionCondition => fun b => field 3 (Wire.actionCondition b)
  | .storageClass => fun b => field 2 (Wire.storageClass b)
  | .userPermissions => userPermissions
  | .filePermissions => filePermissions
  | .fileProperties => fileProperties
  | .fileHeader => fileHeader
  | .dllConfig => dllConfig
  | .dllStatus => dllStatus
  | .engineeringModeMethod => fun b => field 8 (Wire.engineeringModeMethod b).toNat
  | .engineeringMode => engineeringMode
  | .factorySettings => factorySettings
  | .firmwareVersion => firmwareVersion
  | .phyStatus => phyStatus
  | .securityKey => fun k => hostNumber cfg.bigEndianHost 16 k.key.toNat
  | .file => fun f => given (f = .other [])
  | .responseMode => fun b => field 3 (Wire.responseMode b)
  | .retryMode => fun b => field 3 (Wire.retryMode b)
  | .qos => qos
  | .dash7InterfaceStatus => dash7InterfaceStatus cfg.variant
  | .finalStatusCode => finalStatusCode
  | .dash7InterfaceTxStatus => dash7InterfaceTxStatus cfg.variant cfg.bigEndianHost
  | .dash7InterfaceConfiguration => dash7InterfaceConfiguration cfg.variant
  | .loRaWAN => loRaWAN
  | .loRaWANOTAA => loRaWANOTAA
  | .loRaWANABP => loRaWANABP cfg.bigEndianHost
  | .interfaceConfiguration => interfaceConfiguration cfg.variant cfg.bigEndianHost
  | .indirectInterface => indirectInterface cfg.variant
  | .arithmeticComparisonType => fun b => field 3 (Wire.arithmeticComparison b)
  | .arithmeticQueryParams => arithmetic
  | .rangeComparisonType => fun b => field 3 (Wire.rangeComparison b)
  | .rangeQueryParams => range
  | .query => query
  | .nonVoid => fun q => queryBehindType (.nonVoid q)
  | .comparisonWithZero => fun q => queryBehindType (.comparisonWithZero q)
  | .comparisonWithValue => fun q => queryBehindType (.comparisonWithValue q)
  | .comparisonWithOtherFile => fun q => queryBehindType (.comparisonWithOtherFile q)
  | .bitmapRangeComparison => fun q => queryBehindType (.bitmapRangeComparison q)
  | .stringTokenSearch => fun q => queryBehindType (.stringTokenSearch q)
  | .opCode => fun o => field 6 o.code.toNat
  | .statusCode => fun o => field 8 o.code.toNat
  | .actionStatus => fun s => all [field 8 s.actionId.toNat, field 8 s.status.code.toNat]
  | .permission => permission
  | .permissionLevel => fun l => field 8 (Wire.permissionLevel l).toNat
  | .actionHeader => header
  | .statusType => fun t => field 2 (Wire.statusType t)
  | .status => status cfg.variant cfg.unitPatConsumes .action
  | .interfaceStatusOperation => interfaceStatus cfg.variant cfg.unitPatConsumes
  | .interfaceFinalStatusOperation => interfaceFinalStatus
  | .interfaceTxStatusOperation => interfaceTxStatus cfg.variant cfg.bigEndianHost
  | .responseTagHeader => fun h => all [flag h.endOfPacket, flag h.error]
  | .chunkStep => fun t => field 2 (Wire.chunkStep t)
  | .logicOp => fun t => field 2 (Wire.logicOp t)
  | .indirectForwardHeader => fun h => all [flag h.overloaded, flag h.response]
  | .forwardHeader => fun h => all [reserved 1, flag h.response]
  | .requestTagHeader => fun h => all [flag h.endOfPacket, reserved 1]
  | .txStatusType => fun _ => field 2 1
  | .transControl => transControl
  | .ackTemplate => ackTemplate
  | .netControl => netControl cfg.variant
  | .hoppingControl => hopping
  | .foregroundFrameControl => fun c => all [field 2 (Wire.addressType c.addressType), field 6 c.eirpIndex.toNat]
  | .backgroundFrameControl => fun c => all [field 2 (Wire.addressType c.addressType), field 6 c.tagId.toNat]
  | .backgroundFrame => backgroundFrame cfg.bigEndianHost

end Form

/-- The number of bits by which a type exceeds whole bytes. -/
def Spec.bitsOver (cfg : Cfg) : Item → Nat
  | .bandwidth | .channelClass | .channelCoding | .groupCondition | .addressType | .storageClass | .actionHeader
  | .statusType | .responseTagHeader | .chunkStep | .logicOp | .indirectForwardHeader
  | .forwardHeader | .requestTagHeader | .txStatusType => 2
  | .channelBand | .actionCondition | .userPermissions | .responseMode | .retryMode | .arithmeticComparisonType
  | .rangeComparisonType => 3
  | .csmaCaMode | .arithmeticQueryParams | .rangeQueryParams => 4
  | .nonVoid | .comparisonWithZero | .comparisonWithValue | .comparisonWithOtherFile | .bitmapRangeComparison
  | .stringTokenSearch => 5
  | .opCode => 6
  | .transControl => 7
  | .nlsMethod => if cfg.variant = .wizzilab then 3 else 4
  | .netControl => if cfg.variant = .wizzilab then 0 else 1
  | _ => 0

/-- The status of an unknown interface, which is written without the id of the interface. -/
def Spec.unknownInterface : (i : Item) → i.Val → Prop
  | .interfaceStatusOperation, o => ∃ b, o.status = .other b
  | _, _ => False

end Dash7
