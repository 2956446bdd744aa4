import Verif.Model.Items

/-!
# `Default`: the values `T::default()` stands for

A derived `Default` of a struct puts together the defaults of the fields: `false`, zero, the empty vector, `None`; one
of an enum takes the variant marked `#[default]`.
-/

namespace Dash7

/-- `/repo/dash7/src/physical/mod.rs:79` (derived `Default`, with `/repo/dash7/src/physical/mod.rs:14,25,35`). -/
def ChannelHeader.default : ChannelHeader := ⟨.rfu0, .loRate, .pn9⟩

/-- `/repo/dash7/src/physical/mod.rs:101` (derived `Default`). -/
def Channel.default : Channel := ⟨.default, 0⟩

/-- `/repo/dash7/src/physical/mod.rs:108` (derived `Default`, with `/repo/dash7/src/physical/mod.rs:6,14`). -/
def ChannelStatusIdentifier.default : ChannelStatusIdentifier := ⟨.rfu0, .khz200, 0⟩

/-- `/repo/dash7/src/physical/mod.rs:118` (derived `Default`). -/
def SubBand.default : SubBand := ⟨0, 0, 0, 0, 0⟩

/-- `/repo/dash7/src/link/mod.rs:10` (derived `Default`). -/
def SubProfile.default : SubProfile := ⟨0, .default⟩

/-- `/repo/dash7/src/link/mod.rs:22` (derived `Default`). -/
def AccessClass.default : AccessClass := ⟨0, 0⟩

/-- `/repo/dash7/src/link/mod.rs:43` (derived `Default`). -/
def AccessProfile.default : AccessProfile :=
  ⟨.default, Vector.replicate 4 .default, Vector.replicate 8 .default⟩

/-- `/repo/dash7/src/network/mod.rs:75,82` (`#[default]`). -/
def AddressType.default : AddressType := .noId

/-- `/repo/dash7/src/network/mod.rs:93,100` (`#[default]`). -/
def Address.default : Address := .noId

/-- `/repo/dash7/src/network/mod.rs:13,19` (`#[default]`). -/
def NlsMethod.default : NlsMethod := .none

/-- `/repo/dash7/src/network/mod.rs:53,56` (`#[default]`). -/
def NlsState.default : NlsState := .none

/-- `/repo/dash7/src/transport/mod.rs:5,9` (`#[default]`). -/
def GroupCondition.default : GroupCondition := .any

/-- `/repo/dash7/src/network/addressee.rs:10` (derived `Default`). -/
def Addressee.default : Addressee := ⟨.default, .default, false, .default, .default, .default, .default⟩

/-- `/repo/dash7/src/app/operation/length.rs:7` (derived `Default`). -/
def Length.default : Length := ⟨0⟩

/-- `/repo/dash7/src/app/operation/file_offset.rs:6` (derived `Default`). -/
def FileOffset.default : FileOffset := ⟨0, .default⟩

/-- `/repo/dash7/src/data/mod.rs:40` (derived `Default`). -/
def Data.UserPermissions.default : Data.UserPermissions := ⟨false, false, false⟩

/-- `/repo/dash7/src/data/mod.rs:50` (derived `Default`). -/
def Data.FilePermissions.default : Data.FilePermissions := ⟨false, false, .default, .default⟩

/-- `/repo/dash7/src/data/mod.rs:60` (derived `Default`, with `/repo/dash7/src/data/mod.rs:7,22`). -/
def Data.FileProperties.default : Data.FileProperties := ⟨false, .list, .transient⟩

/-- `/repo/dash7/src/data/mod.rs:74` (derived `Default`). -/
def Data.FileHeader.default : Data.FileHeader := ⟨.default, .default, 0, 0, 0, 0⟩

/-- `/repo/dash7/src/session/mod.rs:133` (derived `Default`, with `/repo/dash7/src/session/mod.rs:58,113`). -/
def QoS.default : QoS := ⟨false, false, .no, .no⟩

/-- `/repo/dash7/src/app/interface.rs:9` (derived `Default`). -/
def Dash7InterfaceConfiguration.default : Dash7InterfaceConfiguration := ⟨.default, .default, .default, .default⟩

/-- `/repo/dash7/src/app/interface.rs:35` (derived `Default`). -/
def LoRaWANInterfaceConfiguration.default : LoRaWANInterfaceConfiguration := ⟨false, false, 0, 0⟩

/-- `/repo/dash7/src/app/interface.rs:48` (derived `Default`). -/
def LoRaWANOTAAInterfaceConfiguration.default : LoRaWANOTAAInterfaceConfiguration := ⟨.default, [], [], []⟩

/-- `/repo/dash7/src/app/interface.rs:62` (derived `Default`). -/
def LoRaWANABPInterfaceConfiguration.default : LoRaWANABPInterfaceConfiguration := ⟨.default, [], [], 0, 0⟩

/-- `/repo/dash7/src/app/interface.rs:77,80` (`#[default]`). -/
def InterfaceConfiguration.default : InterfaceConfiguration := .host

/-- `/repo/dash7/src/app/interface.rs:100,103` (`#[default]`). -/
def IndirectInterface.default : IndirectInterface := .host

/-- `/repo/dash7/src/app/query.rs:23` (derived `Default`, with `/repo/dash7/src/app/query.rs:8`). -/
def ArithmeticQueryParams.default : ArithmeticQueryParams := ⟨false, .inequal⟩

/-- `/repo/dash7/src/app/query.rs:40` (derived `Default`, with `/repo/dash7/src/app/query.rs:33`). -/
def RangeQueryParams.default : RangeQueryParams := ⟨false, .notInRange⟩

/-- `/repo/dash7/src/app/query.rs:72` (derived `Default`). -/
def NonVoid.default : NonVoid := ⟨.default, .default⟩

/-- `/repo/dash7/src/app/query.rs:79` (derived `Default`). -/
def ComparisonWithZero.default : ComparisonWithZero := ⟨false, .default, .default, [], .default⟩

/-- `/repo/dash7/src/app/query.rs:107` (derived `Default`). -/
def ComparisonWithValue.default : ComparisonWithValue := ⟨false, .default, .default, [], [], .default⟩

/-- `/repo/dash7/src/app/query.rs:145` (derived `Default`). -/
def ComparisonWithOtherFile.default : ComparisonWithOtherFile := ⟨false, .default, .default, [], .default, .default⟩

/-- `/repo/dash7/src/app/query.rs:178` (derived `Default`). -/
def BitmapRangeComparison.default : BitmapRangeComparison :=
  ⟨false, .default, .default, .default, .default, [], .default⟩

/-- `/repo/dash7/src/app/query.rs:219` (derived `Default`). -/
def StringTokenSearch.default : StringTokenSearch := ⟨false, 0, .default, [], [], .default⟩

/-- `/repo/dash7/src/app/query.rs:64-68` (`Default for Query`). -/
def Query.default : Query := .nonVoid .default

/-- `/repo/dash7/src/app/action.rs:28` (derived `Default`). -/
def OpCode.default : OpCode := ⟨0⟩

/-- `/repo/dash7/src/app/operation/mod.rs:24` (derived `Default`). -/
def StatusCode.default : StatusCode := ⟨0⟩

/-- `/repo/dash7/src/app/operation/mod.rs:55` (derived `Default`). -/
def ActionStatus.default : ActionStatus := ⟨0, .default⟩

/-- `/repo/dash7/src/app/operation/mod.rs:75-79` (`Default for Permission`). -/
def Permission.default : Permission := .dash7 (Vector.replicate 8 0)

/-- `/repo/dash7/src/app/operation/mod.rs:92` (derived `Default`). -/
def ActionHeader.default : ActionHeader := ⟨false, false⟩

namespace Op

/-- `/repo/dash7/src/app/operation/mod.rs:292-296` (`Default for Status`). -/
def Status.default : Status := .action .default

/-- `/repo/dash7/src/app/operation/mod.rs:320` (derived `Default`, with `/repo/dash7/src/session/mod.rs:16,147`). -/
def InterfaceStatusOperation.default : InterfaceStatusOperation := ⟨.host, .host⟩

/-- `/repo/dash7/src/app/operation/mod.rs:386` (derived `Default`). -/
def ResponseTagHeader.default : ResponseTagHeader := ⟨false, false⟩

/-- `/repo/dash7/src/app/operation/mod.rs:505` (derived `Default`). -/
def IndirectForwardHeader.default : IndirectForwardHeader := ⟨false, false⟩

/-- `/repo/dash7/src/app/operation/mod.rs:111` (derived `Default`). -/
def Nop.default : Nop := ⟨.default, .default⟩

/-- `/repo/dash7/src/app/operation/mod.rs:122` (derived `Default`). -/
def FileId.default : FileId := ⟨.default, .default, 0⟩

/-- `/repo/dash7/src/app/operation/mod.rs:136` (derived `Default`). -/
def FileData.default : FileData := ⟨.default, .default, .default, .default⟩

/-- `/repo/dash7/src/app/operation/mod.rs:186` (derived `Default`). -/
def FileProperties.default : FileProperties := ⟨.default, .default, 0, .default⟩

/-- `/repo/dash7/src/app/operation/mod.rs:200` (derived `Default`). -/
def ReadFileData.default : ReadFileData := ⟨.default, .default, .default, .default⟩

/-- `/repo/dash7/src/app/operation/mod.rs:212` (derived `Default`). -/
def ActionQuery.default : ActionQuery := ⟨.default, .default, .default⟩

/-- `/repo/dash7/src/app/operation/mod.rs:224` (derived `Default`, with
`/repo/dash7/src/app/operation/mod.rs:84`). -/
def PermissionRequest.default : PermissionRequest := ⟨.default, .default, .user, .default⟩

/-- `/repo/dash7/src/app/operation/mod.rs:243` (derived `Default`). -/
def CopyFile.default : CopyFile := ⟨.default, .default, 0, 0⟩

/-- `/repo/dash7/src/app/operation/mod.rs:308` (derived `Default`, with
`/repo/dash7/src/app/operation/mod.rs:260`). -/
def StatusOperand.default : StatusOperand := ⟨.action, .default, .default⟩

/-- `/repo/dash7/src/app/operation/mod.rs:402` (derived `Default`). -/
def ResponseTag.default : ResponseTag := ⟨.default, .default, 0⟩

/-- `/repo/dash7/src/app/operation/mod.rs:444` (derived `Default`, with
`/repo/dash7/src/app/operation/mod.rs:417`). -/
def Chunk.default : Chunk := ⟨.continue, .default⟩

/-- `/repo/dash7/src/app/operation/mod.rs:468` (derived `Default`, with
`/repo/dash7/src/app/operation/mod.rs:457`). -/
def Logic.default : Logic := ⟨.or, .default⟩

/-- `/repo/dash7/src/app/operation/mod.rs:477,484` (derived `Default`). -/
def Forward.default : Forward := ⟨false, .default, .default⟩

/-- `/repo/dash7/src/app/operation/mod.rs:524` (derived `Default`). -/
def IndirectForward.default : IndirectForward := ⟨.default, .default, none⟩

/-- `/repo/dash7/src/app/operation/mod.rs:552,559` (derived `Default`). -/
def RequestTag.default : RequestTag := ⟨false, .default, 0⟩

/-- `/repo/dash7/src/app/operation/mod.rs:570` (derived `Default`). -/
def Extension.default : Extension := ⟨.default, .default⟩

end Op

/-- `/repo/dash7/src/app/action.rs:84-138`: every variant of `Action` around the default of its operand,
`Action::X(Default::default())`. The operand of a TX status has no `Default`. -/
def Action.defaults : List Action :=
  [.nop .default, .readFileData .default, .readFileProperties .default, .writeFileData .default,
    .writeFileDataFlush .default, .writeFileProperties .default, .actionQuery .default, .breakQuery .default,
    .permissionRequest .default, .verifyChecksum .default, .existFile .default, .createNewFile .default,
    .deleteFile .default, .restoreFile .default, .flushFile .default, .copyFile .default, .executeFile .default,
    .returnFileData .default, .returnFileProperties .default, .status .default, .responseTag .default,
    .chunk .default, .logic .default, .forward .default, .indirectForward .default, .requestTag .default,
    .extension .default]

/-- `/repo/dash7/src/app/command.rs:23` (derived `Default`). -/
def Command.default : Command := ⟨[]⟩

/-- `/repo/dash7/src/transport/mod.rs:24` (derived `Default`). -/
def Trans.Control.default : Trans.Control := ⟨false, false, false, false, false, false, false⟩

/-- `/repo/dash7/src/transport/mod.rs:42` (derived `Default`). -/
def Trans.AckTemplate.default : Trans.AckTemplate := ⟨0, 0⟩

/-- `/repo/dash7/src/transport/mod.rs:48` (derived `Default`). -/
def Trans.Frame.default : Trans.Frame := ⟨⟨.default, 0, 0, none, none, none, none, none⟩, .default⟩

/-- `/repo/dash7/src/network/network.rs:7` (derived `Default`). -/
def Net.Control.default : Net.Control := ⟨false, false, .default, .default⟩

/-- `/repo/dash7/src/network/network.rs:20` (derived `Default`). -/
def Net.HoppingControl.default : Net.HoppingControl := ⟨false, .default⟩

/-- `/repo/dash7/src/network/network.rs:30` (derived `Default`). -/
def Net.Frame.default : Net.Frame := ⟨⟨.default, none, .default, .default⟩, .default⟩

/-- `/repo/dash7/src/link/frame.rs:8` (derived `Default`). -/
def BackgroundFrameControl.default : BackgroundFrameControl := ⟨.default, 0⟩

/-- `/repo/dash7/src/link/frame.rs:16` (derived `Default`). -/
def BackgroundFrame.default : BackgroundFrame := ⟨0, .default, 0, 0⟩

/-- `/repo/dash7/src/link/frame.rs:24` (derived `Default`). -/
def ForegroundFrameControl.default : ForegroundFrameControl := ⟨.default, 0⟩

/-- `/repo/dash7/src/link/frame.rs:32` (derived `Default`). -/
def ForegroundFrame.default : ForegroundFrame := ⟨⟨.default, 0, .default, .default⟩, .default, 0⟩

/-- The default of each type that has one; e.g. `/repo/dash7/src/physical/mod.rs:101`. `none`: the type has no
`Default` (the files and the types of `interface_final.rs`, `ChannelStatus`, `Dash7InterfaceStatus`). -/
def Item.default? : (i : Item) → Option i.Val
  | .bandwidth => some .khz200
  | .channelBand => some .rfu0
  | .channelClass => some .loRate
  | .channelCoding => some .pn9
  | .csmaCaMode => some .unc
  | .channelHeader => some ChannelHeader.default
  | .channel => some Channel.default
  | .channelStatusIdentifier => some ChannelStatusIdentifier.default
  | .channelStatus => none
  | .subBand => some SubBand.default
  | .subProfile => some SubProfile.default
  | .accessClass => some AccessClass.default
  | .accessProfile => some AccessProfile.default
  | .groupCondition => some GroupCondition.default
  | .addressType => some AddressType.default
  | .nlsMethod => some NlsMethod.default
  | .addressee => some Addressee.default
  | .varInt => some VarInt.default
  | .length => some Length.default
  | .fileOffset => some FileOffset.default
  | .actionCondition => some Data.ActionCondition.list
  | .storageClass => some Data.StorageClass.transient
  | .userPermissions => some Data.UserPermissions.default
  | .filePermissions => some Data.FilePermissions.default
  | .fileProperties => some Data.FileProperties.default
  | .fileHeader => some Data.FileHeader.default
  | .dllConfig | .dllStatus | .engineeringModeMethod | .engineeringMode | .factorySettings | .firmwareVersion
  | .phyStatus | .securityKey => none
  | .file => some File.default
  | .responseMode => some .no
  | .retryMode => some .no
  | .qos => some QoS.default
  | .dash7InterfaceStatus | .finalStatusCode | .dash7InterfaceTxStatus => none
  | .dash7InterfaceConfiguration => some Dash7InterfaceConfiguration.default
  | .loRaWAN => some LoRaWANInterfaceConfiguration.default
  | .loRaWANOTAA => some LoRaWANOTAAInterfaceConfiguration.default
  | .loRaWANABP => some LoRaWANABPInterfaceConfiguration.default
  | .interfaceConfiguration => some InterfaceConfiguration.default
  | .indirectInterface => some IndirectInterface.default
  | .arithmeticComparisonType => some ArithmeticComparisonType.inequal
  | .arithmeticQueryParams => some ArithmeticQueryParams.default
  | .rangeComparisonType => some RangeComparisonType.notInRange
  | .rangeQueryParams => some RangeQueryParams.default
  | .query => some Query.default
  | .nonVoid => some NonVoid.default
  | .comparisonWithZero => some ComparisonWithZero.default
  | .comparisonWithValue => some ComparisonWithValue.default
  | .comparisonWithOtherFile => some ComparisonWithOtherFile.default
  | .bitmapRangeComparison => some BitmapRangeComparison.default
  | .stringTokenSearch => some StringTokenSearch.default
  | .opCode => some OpCode.default
  | .statusCode => some StatusCode.default
  | .actionStatus => some ActionStatus.default
  | .permission => some Permission.default
  | .permissionLevel => some PermissionLevel.user
  | .actionHeader => some ActionHeader.default
  | .statusType => some Op.StatusType.action
  | .status => some Op.Status.default
  | .interfaceStatusOperation => some Op.InterfaceStatusOperation.default
  | .interfaceFinalStatusOperation | .interfaceTxStatusOperation => none
  | .responseTagHeader => some Op.ResponseTagHeader.default
  | .chunkStep => some Op.ChunkStep.continue
  | .logicOp => some Op.LogicOp.or
  | .indirectForwardHeader => some Op.IndirectForwardHeader.default
  | .forwardHeader => some ⟨false⟩
  | .requestTagHeader => some ⟨false⟩
  | .txStatusType => none
  | .transControl => some Trans.Control.default
  | .ackTemplate => some Trans.AckTemplate.default
  | .netControl => some Net.Control.default
  | .hoppingControl => some Net.HoppingControl.default
  | .foregroundFrameControl => some ForegroundFrameControl.default
  | .backgroundFrameControl => some BackgroundFrameControl.default
  | .backgroundFrame => some BackgroundFrame.default

end Dash7
