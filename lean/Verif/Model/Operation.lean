import Verif.Model.Data
import Verif.Model.File
import Verif.Model.Interface
import Verif.Model.Query

/-!
# `dash7/src/app/operation/mod.rs`, `app/interface_final.rs`

Operand types of the ALP actions.  Their readers re-read the opcode from the stream into the `opcode`
field; their writers write the opcode handed down as context and ignore the field.
-/

namespace Dash7

/-- `/repo/dash7/src/app/action.rs:28-29` (`OpCode`, a 6-bit field in a `u8`). -/
structure OpCode where
  code : U8
  deriving DecidableEq, Repr

/-- `/repo/dash7/src/app/action.rs:28-29` (derived reader). -/
def OpCode.read : P OpCode := do
  let c ← P.uint 8 6
  P.pure ⟨c⟩

/-- `/repo/dash7/src/app/action.rs:28-29` (derived writer), also
`/repo/dash7/src/app/action.rs:75-77` (`OpCode::write`). -/
def OpCode.write (c : OpCode) : W := W.uint 6 c.code

/-- `/repo/dash7/src/app/operation/mod.rs:24-25` (`StatusCode`). -/
structure StatusCode where
  code : U8
  deriving DecidableEq, Repr

/-- `/repo/dash7/src/app/operation/mod.rs:48-52` (`StatusCode::is_err`). -/
def StatusCode.isErr (s : StatusCode) : Bool := s.code.toNat > 0x80

/-- `/repo/dash7/src/app/operation/mod.rs:30` (`StatusCode::OK`). -/
def StatusCode.OK : StatusCode := ⟨0x00⟩
/-- `/repo/dash7/src/app/operation/mod.rs:31` (`StatusCode::RECEIVED`). -/
def StatusCode.RECEIVED : StatusCode := ⟨0x01⟩
/-- `/repo/dash7/src/app/operation/mod.rs:32` (`StatusCode::ITF_FULL`). -/
def StatusCode.ITF_FULL : StatusCode := ⟨0x02⟩
/-- `/repo/dash7/src/app/operation/mod.rs:45` (`StatusCode::UNKNOWN_ERROR`). -/
def StatusCode.UNKNOWN_ERROR : StatusCode := ⟨0x80⟩
/-- `/repo/dash7/src/app/operation/mod.rs:33-44`: the other error constants,
`FILE_ID_MISSING` .. `OPERATION_WRONG_FORMAT`. -/
def StatusCode.namedErrors : List StatusCode :=
  [⟨0xFF⟩, ⟨0xFE⟩, ⟨0xFD⟩, ⟨0xFC⟩, ⟨0xFB⟩, ⟨0xFA⟩, ⟨0xF9⟩, ⟨0xF8⟩, ⟨0xF7⟩, ⟨0xF6⟩, ⟨0xF5⟩,
   ⟨0xF4⟩]

/-- `/repo/dash7/src/app/operation/mod.rs:24-25` (derived reader). -/
def StatusCode.read : P StatusCode := do
  let c ← P.u8
  P.pure ⟨c⟩

/-- `/repo/dash7/src/app/operation/mod.rs:24-25` (derived writer). -/
def StatusCode.write (s : StatusCode) : W := W.u8 s.code

/-- `/repo/dash7/src/app/operation/mod.rs:55-65` (`ActionStatus`). -/
structure ActionStatus where
  actionId : U8
  status : StatusCode
  deriving DecidableEq, Repr

/-- `/repo/dash7/src/app/operation/mod.rs:55-65` (derived reader). -/
def ActionStatus.read : P ActionStatus := do
  let a ← P.u8
  let s ← StatusCode.read
  P.pure ⟨a, s⟩

/-- `/repo/dash7/src/app/operation/mod.rs:55-65` (derived writer). -/
def ActionStatus.write (s : ActionStatus) : W := W.seq [W.u8 s.actionId, s.status.write]

/-- `/repo/dash7/src/app/operation/mod.rs:68-73` (`Permission`, one variant). -/
inductive Permission
  | dash7 (b : Vector U8 8)
  deriving DecidableEq, Repr

/-- `/repo/dash7/src/app/operation/mod.rs:68-73` (derived reader). -/
def Permission.read : P Permission := do
  let i ← P.u8
  if i = 0x42 then do
    let b ← P.array P.u8 8
    P.pure (.dash7 b)
  else P.fail .parse

/-- `/repo/dash7/src/app/operation/mod.rs:68-73` (derived writer). -/
def Permission.write : Permission → W
  | .dash7 b => W.seq [W.u8 0x42, W.list W.u8 b.toList]

/-- `/repo/dash7/src/app/operation/mod.rs:81-90` (`PermissionLevel`). -/
inductive PermissionLevel | user | root
  deriving DecidableEq, Repr

/-- `/repo/dash7/src/app/operation/mod.rs:84-88` (ids). -/
def PermissionLevel.id : PermissionLevel → U8
  | .user => 0 | .root => 1

/-- `/repo/dash7/src/app/operation/mod.rs:84-88` (ids, reading). -/
def PermissionLevel.ofId (i : U8) : Option PermissionLevel :=
  match i.toNat with
  | 0 => some .user | 1 => some .root | _ => none

/-- `/repo/dash7/src/app/operation/mod.rs:81-82` (derived reader, `u8`). -/
def PermissionLevel.read : P PermissionLevel := P.enum 8 ofId
/-- `/repo/dash7/src/app/operation/mod.rs:81-82` (derived writer, `u8`). -/
def PermissionLevel.write (l : PermissionLevel) : W := W.uint 8 l.id

/-- `/repo/dash7/src/app/operation/mod.rs:92-101` (`ActionHeader`). -/
structure ActionHeader where
  group : Bool
  response : Bool
  deriving DecidableEq, Repr

/-- `/repo/dash7/src/app/operation/mod.rs:103-107` (`ActionHeader::new`). -/
def ActionHeader.new (group response : Bool) : ActionHeader := ⟨group, response⟩

/-- `/repo/dash7/src/app/operation/mod.rs:92-101` (derived reader). -/
def ActionHeader.read : P ActionHeader := do
  let g ← P.flag
  let r ← P.flag
  P.pure ⟨g, r⟩

/-- `/repo/dash7/src/app/operation/mod.rs:92-101` (derived writer). -/
def ActionHeader.write (h : ActionHeader) : W := W.seq [W.flag h.group, W.flag h.response]

namespace Op

/-- `/repo/dash7/src/app/operation/mod.rs:111-118` (`Nop`). -/
structure Nop where
  header : ActionHeader
  opcode : OpCode
  deriving DecidableEq, Repr

/-- `/repo/dash7/src/app/operation/mod.rs:111-118` (derived reader). -/
def Nop.read : P Nop := do
  let h ← ActionHeader.read
  let o ← OpCode.read
  P.pure ⟨h, o⟩

/-- `/repo/dash7/src/app/operation/mod.rs:111-118` (derived writer). -/
def Nop.write (op : OpCode) (a : Nop) : W := W.seq [a.header.write, op.write]

/-- `/repo/dash7/src/app/operation/mod.rs:122-131` (`FileId`). -/
structure FileId where
  header : ActionHeader
  opcode : OpCode
  fileId : U8
  deriving DecidableEq, Repr

/-- `/repo/dash7/src/app/operation/mod.rs:122-131` (derived reader). -/
def FileId.read : P FileId := do
  let h ← ActionHeader.read
  let o ← OpCode.read
  let f ← P.u8
  P.pure ⟨h, o, f⟩

/-- `/repo/dash7/src/app/operation/mod.rs:122-131` (derived writer). -/
def FileId.write (op : OpCode) (a : FileId) : W :=
  W.seq [a.header.write, op.write, W.u8 a.fileId]

/-- `/repo/dash7/src/app/operation/mod.rs:136-151` (`FileData`). -/
structure FileData where
  header : ActionHeader
  opcode : OpCode
  offset : FileOffset
  data : File
  deriving DecidableEq, Repr

/-- `/repo/dash7/src/app/operation/mod.rs:154-162` (`FileData::new`). -/
def FileData.new (header : ActionHeader) (offset : FileOffset) (data : File) (opcode : OpCode) :
    FileData := ⟨header, opcode, offset, data⟩

/-- `/repo/dash7/src/app/operation/mod.rs:164-171` (`FileData::read`). `FileId::try_from` never
fails (`Dash7.FileId.tryFrom`). -/
def FileData.readData (cfg : Cfg) (offset : FileOffset) : P File := do
  let length ← Length.read
  File.read cfg (Dash7.FileId.ofId offset.fileId) length.val

/-- `/repo/dash7/src/app/operation/mod.rs:173-183` (`FileData::write`); the context values have no
influence on what is written. -/
def FileData.writeData (cfg : Cfg) (data : File) : W := writeLengthPrefixed (data.write cfg)

/-- `/repo/dash7/src/app/operation/mod.rs:136-151` (derived reader). -/
def FileData.read (cfg : Cfg) : P FileData := do
  let h ← ActionHeader.read
  let o ← OpCode.read
  let off ← FileOffset.read
  let d ← FileData.readData cfg off
  P.pure ⟨h, o, off, d⟩

/-- `/repo/dash7/src/app/operation/mod.rs:136-151` (derived writer). -/
def FileData.write (cfg : Cfg) (op : OpCode) (a : FileData) : W :=
  W.seq [a.header.write, op.write, a.offset.write, FileData.writeData cfg a.data]

/-- `/repo/dash7/src/app/operation/mod.rs:186-196` (`FileProperties`). -/
structure FileProperties where
  header : ActionHeader
  opcode : OpCode
  fileId : U8
  fileHeader : Data.FileHeader
  deriving DecidableEq, Repr

/-- `/repo/dash7/src/app/operation/mod.rs:186-196` (derived reader). -/
def FileProperties.read : P FileProperties := do
  let h ← ActionHeader.read
  let o ← OpCode.read
  let f ← P.u8
  let fh ← Data.FileHeader.read
  P.pure ⟨h, o, f, fh⟩

/-- `/repo/dash7/src/app/operation/mod.rs:186-196` (derived writer). -/
def FileProperties.write (op : OpCode) (a : FileProperties) : W :=
  W.seq [a.header.write, op.write, W.u8 a.fileId, a.fileHeader.write]

/-- `/repo/dash7/src/app/operation/mod.rs:200-210` (`ReadFileData`). -/
structure ReadFileData where
  header : ActionHeader
  opcode : OpCode
  offset : FileOffset
  length : Length
  deriving DecidableEq, Repr

/-- `/repo/dash7/src/app/operation/mod.rs:200-210` (derived reader). -/
def ReadFileData.read : P ReadFileData := do
  let h ← ActionHeader.read
  let o ← OpCode.read
  let off ← FileOffset.read
  let l ← Length.read
  P.pure ⟨h, o, off, l⟩

/-- `/repo/dash7/src/app/operation/mod.rs:200-210` (derived writer). -/
def ReadFileData.write (op : OpCode) (a : ReadFileData) : W :=
  W.seq [a.header.write, op.write, a.offset.write, a.length.write]

/-- `/repo/dash7/src/app/operation/mod.rs:212-221` (`ActionQuery`). -/
structure ActionQuery where
  header : ActionHeader
  opcode : OpCode
  query : Query
  deriving DecidableEq, Repr

/-- `/repo/dash7/src/app/operation/mod.rs:212-221` (derived reader). -/
def ActionQuery.read : P ActionQuery := do
  let h ← ActionHeader.read
  let o ← OpCode.read
  let q ← Query.read
  P.pure ⟨h, o, q⟩

/-- `/repo/dash7/src/app/operation/mod.rs:212-221` (derived writer). -/
def ActionQuery.write (op : OpCode) (a : ActionQuery) : W :=
  W.seq [a.header.write, op.write, a.query.write]

/-- `/repo/dash7/src/app/operation/mod.rs:224-235` (`PermissionRequest`). -/
structure PermissionRequest where
  header : ActionHeader
  opcode : OpCode
  level : PermissionLevel
  permission : Permission
  deriving DecidableEq, Repr

/-- `/repo/dash7/src/app/operation/mod.rs:224-235` (derived reader). -/
def PermissionRequest.read : P PermissionRequest := do
  let h ← ActionHeader.read
  let o ← OpCode.read
  let l ← PermissionLevel.read
  let p ← Permission.read
  P.pure ⟨h, o, l, p⟩

/-- `/repo/dash7/src/app/operation/mod.rs:224-235` (derived writer). -/
def PermissionRequest.write (op : OpCode) (a : PermissionRequest) : W :=
  W.seq [a.header.write, op.write, a.level.write, a.permission.write]

/-- `/repo/dash7/src/app/operation/mod.rs:243-254` (`CopyFile`). -/
structure CopyFile where
  header : ActionHeader
  opcode : OpCode
  srcFileId : U8
  dstFileId : U8
  deriving DecidableEq, Repr

/-- `/repo/dash7/src/app/operation/mod.rs:243-254` (derived reader). -/
def CopyFile.read : P CopyFile := do
  let h ← ActionHeader.read
  let o ← OpCode.read
  let s ← P.u8
  let d ← P.u8
  P.pure ⟨h, o, s, d⟩

/-- `/repo/dash7/src/app/operation/mod.rs:243-254` (derived writer). -/
def CopyFile.write (op : OpCode) (a : CopyFile) : W :=
  W.seq [a.header.write, op.write, W.u8 a.srcFileId, W.u8 a.dstFileId]

/-- `/repo/dash7/src/app/operation/mod.rs:256-269` (`StatusType`). -/
inductive StatusType | action | interface | interfaceFinal
  deriving DecidableEq, Repr

/-- `/repo/dash7/src/app/operation/mod.rs:260-268` (ids). -/
def StatusType.id : StatusType → U8
  | .action => 0 | .interface => 1 | .interfaceFinal => 2

/-- `/repo/dash7/src/app/operation/mod.rs:260-268` (ids, reading). -/
def StatusType.ofId (i : U8) : Option StatusType :=
  match i.toNat with
  | 0 => some .action | 1 => some .interface | 2 => some .interfaceFinal | _ => none

/-- `/repo/dash7/src/app/operation/mod.rs:256-257` (derived reader, 2 bits). -/
def StatusType.read : P StatusType := P.enum 2 ofId
/-- `/repo/dash7/src/app/operation/mod.rs:256-257` (derived writer, 2 bits). -/
def StatusType.write (t : StatusType) : W := W.uint 2 t.id

/-- `/repo/dash7/src/app/operation/mod.rs:320-329` (`InterfaceStatusOperation`). -/
structure InterfaceStatusOperation where
  interfaceType : InterfaceType
  status : InterfaceStatus
  deriving DecidableEq, Repr

/-- `/repo/dash7/src/app/operation/mod.rs:331-338` (`From<InterfaceStatus>`). -/
def InterfaceStatusOperation.ofStatus (s : InterfaceStatus) : InterfaceStatusOperation :=
  ⟨s.type, s⟩

/-- `/repo/dash7/src/app/operation/length.rs:46-57`: `Length::read` when the stream stands at a byte
`b` already looked at (an `InterfaceType::Unknown` whose id has not been consumed, see
`Cfg.unitPatConsumes`). -/
def lengthAfter (b : U8) : P Length := do
  let value ← P.uint 32 (b.toNat / 64 * 8)
  P.pure ⟨BitVec.ofNat 32 (b.toNat % 64 * 2 ^ (b.toNat / 64 * 8) + value.toNat)⟩

/-- `/repo/dash7/src/app/operation/mod.rs:359-362` in front of which `interface_type`
(`/repo/dash7/src/session/mod.rs:13-34`) was read as the id byte `b`. -/
def statusLength (cfg : Cfg) (b : U8) : P Length :=
  if InterfaceType.ofId b = .unknown ∧ cfg.unitPatConsumes = false then lengthAfter b
  else Length.read

/-- `/repo/dash7/src/app/operation/mod.rs:320-329` (derived reader) with
`/repo/dash7/src/app/operation/mod.rs:347-365` (`InterfaceStatusOperation::read`). -/
def InterfaceStatusOperation.read (cfg : Cfg) : P InterfaceStatusOperation := do
  let b ← P.u8
  let l ← statusLength cfg b
  let s ← InterfaceStatus.read cfg (InterfaceType.ofId b) l.val
  P.pure ⟨InterfaceType.ofId b, s⟩

/-- `/repo/dash7/src/app/operation/mod.rs:320-329` (derived writer) with
`/repo/dash7/src/app/operation/mod.rs:367-383` (`InterfaceStatusOperation::write`). -/
def InterfaceStatusOperation.write (cfg : Cfg) (o : InterfaceStatusOperation) : W :=
  W.seq [o.interfaceType.write, writeLengthPrefixed (o.status.write cfg)]

/-- `/repo/dash7/src/app/interface_final.rs:40-49` (`InterfaceFinalStatusOperation`). -/
structure InterfaceFinalStatusOperation where
  interfaceId : U8
  status : InterfaceFinalStatus
  deriving DecidableEq, Repr

/-- `/repo/dash7/src/app/interface_final.rs:51-58` (`From<InterfaceFinalStatus>`):
`deku_id().unwrap()`. -/
def InterfaceFinalStatusOperation.ofStatus (s : InterfaceFinalStatus) :
    Except Err InterfaceFinalStatusOperation :=
  match s.id? with
  | some i => .ok ⟨i, s⟩
  | none => .error (.fault .panic)

/-- `/repo/dash7/src/app/interface_final.rs:40-49` (derived reader) with
`/repo/dash7/src/app/interface_final.rs:8-16, 67-75`. -/
def InterfaceFinalStatusOperation.read : P InterfaceFinalStatusOperation := do
  let i ← P.u8
  let l ← Length.read
  let s ← InterfaceFinalStatus.read i l.val
  P.pure ⟨i, s⟩

/-- `/repo/dash7/src/app/interface_final.rs:40-49` (derived writer) with
`/repo/dash7/src/app/interface_final.rs:18-38, 77-87`. -/
def InterfaceFinalStatusOperation.write (o : InterfaceFinalStatusOperation) : W :=
  W.seq [W.u8 o.interfaceId, writeLengthPrefixed o.status.write]

/-- `/repo/dash7/src/app/operation/mod.rs:272-290` (`Status`). `interfaceFinal` exists in the
wizzilab build only. -/
inductive Status
  | action (s : ActionStatus)
  | interface (o : InterfaceStatusOperation)
  | interfaceFinal (o : InterfaceFinalStatusOperation)
  deriving DecidableEq, Repr

/-- `/repo/dash7/src/app/operation/mod.rs:281-288` (`deku_id`). -/
def Status.type : Status → StatusType
  | .action _ => .action
  | .interface _ => .interface
  | .interfaceFinal _ => .interfaceFinal

/-- `/repo/dash7/src/app/operation/mod.rs:272-290` (derived reader in context). Builds without the
`InterfaceFinal` variant have no match for that type. -/
def Status.read (cfg : Cfg) : StatusType → P Status
  | .action => do let s ← ActionStatus.read; P.pure (.action s)
  | .interface => do let o ← InterfaceStatusOperation.read cfg; P.pure (.interface o)
  | .interfaceFinal =>
    match cfg.variant with
    | .wizzilab => do let o ← InterfaceFinalStatusOperation.read; P.pure (.interfaceFinal o)
    | _ => P.fail .parse

/-- `/repo/dash7/src/app/operation/mod.rs:272-290` (derived writer). -/
def Status.write (cfg : Cfg) : Status → W
  | .action s => s.write
  | .interface o => o.write cfg
  | .interfaceFinal o => o.write

/-- `/repo/dash7/src/app/operation/mod.rs:308-318` (`StatusOperand`). -/
structure StatusOperand where
  statusType : StatusType
  opcode : OpCode
  status : Status
  deriving DecidableEq, Repr

/-- `/repo/dash7/src/app/operation/mod.rs:340-344` (`Into<Status>` of `InterfaceStatusOperation`; the inner `into` goes
from `Status` to `Status`). -/
def InterfaceStatusOperation.intoStatus (o : InterfaceStatusOperation) : Status := .interface o

/-- `/repo/dash7/src/app/interface_final.rs:60-64` (`Into<Status>` of `InterfaceFinalStatusOperation`). -/
def InterfaceFinalStatusOperation.intoStatus (o : InterfaceFinalStatusOperation) : Status := .interfaceFinal o

/-- `/repo/dash7/src/app/operation/mod.rs:298-306` (`Into<StatusOperand> for Status`). -/
def StatusOperand.ofStatus (s : Status) : StatusOperand := ⟨s.type, ⟨34⟩, s⟩

/-- `/repo/dash7/src/app/operation/mod.rs:308-318` (derived reader). -/
def StatusOperand.read (cfg : Cfg) : P StatusOperand := do
  let t ← StatusType.read
  let o ← OpCode.read
  let s ← Status.read cfg t
  P.pure ⟨t, o, s⟩

/-- `/repo/dash7/src/app/operation/mod.rs:308-318` (derived writer). -/
def StatusOperand.write (cfg : Cfg) (op : OpCode) (a : StatusOperand) : W :=
  W.seq [a.statusType.write, op.write, a.status.write cfg]

/-- `/repo/dash7/src/app/operation/mod.rs:386-397` (`ResponseTagHeader`). -/
structure ResponseTagHeader where
  endOfPacket : Bool
  error : Bool
  deriving DecidableEq, Repr

/-- `/repo/dash7/src/app/operation/mod.rs:386-397` (derived reader). -/
def ResponseTagHeader.read : P ResponseTagHeader := do
  let e ← P.flag
  let r ← P.flag
  P.pure ⟨e, r⟩

/-- `/repo/dash7/src/app/operation/mod.rs:386-397` (derived writer). -/
def ResponseTagHeader.write (h : ResponseTagHeader) : W :=
  W.seq [W.flag h.endOfPacket, W.flag h.error]

/-- `/repo/dash7/src/app/operation/mod.rs:402-411` (`ResponseTag`). -/
structure ResponseTag where
  header : ResponseTagHeader
  opcode : OpCode
  id : U8
  deriving DecidableEq, Repr

/-- `/repo/dash7/src/app/operation/mod.rs:402-411` (derived reader). -/
def ResponseTag.read : P ResponseTag := do
  let h ← ResponseTagHeader.read
  let o ← OpCode.read
  let i ← P.u8
  P.pure ⟨h, o, i⟩

/-- `/repo/dash7/src/app/operation/mod.rs:402-411` (derived writer). -/
def ResponseTag.write (op : OpCode) (a : ResponseTag) : W :=
  W.seq [a.header.write, op.write, W.u8 a.id]

/-- `/repo/dash7/src/app/operation/mod.rs:414-426` (`ChunkStep`). -/
inductive ChunkStep | continue | start | end | startEnd
  deriving DecidableEq, Repr

/-- `/repo/dash7/src/app/operation/mod.rs:417-425` (ids). -/
def ChunkStep.id : ChunkStep → U8
  | .continue => 0 | .start => 1 | .end => 2 | .startEnd => 3

/-- `/repo/dash7/src/app/operation/mod.rs:417-425` (ids, reading). -/
def ChunkStep.ofId (i : U8) : Option ChunkStep :=
  match i.toNat with
  | 0 => some .continue | 1 => some .start | 2 => some .end | 3 => some .startEnd | _ => none

/-- `/repo/dash7/src/app/operation/mod.rs:414-415` (derived reader, 2 bits). -/
def ChunkStep.read : P ChunkStep := P.enum 2 ofId
/-- `/repo/dash7/src/app/operation/mod.rs:414-415` (derived writer, 2 bits). -/
def ChunkStep.write (t : ChunkStep) : W := W.uint 2 t.id

/-- `/repo/dash7/src/app/operation/mod.rs:444-451` (`Chunk`). -/
structure Chunk where
  step : ChunkStep
  opcode : OpCode
  deriving DecidableEq, Repr

/-- `/repo/dash7/src/app/operation/mod.rs:428-435` (`Into<Chunk> for ChunkStep`). -/
def Chunk.ofStep (s : ChunkStep) : Chunk := ⟨s, ⟨48⟩⟩

/-- `/repo/dash7/src/app/operation/mod.rs:444-451` (derived reader). -/
def Chunk.read : P Chunk := do
  let s ← ChunkStep.read
  let o ← OpCode.read
  P.pure ⟨s, o⟩

/-- `/repo/dash7/src/app/operation/mod.rs:444-451` (derived writer). -/
def Chunk.write (op : OpCode) (a : Chunk) : W := W.seq [a.step.write, op.write]

/-- `/repo/dash7/src/app/operation/mod.rs:454-466` (`LogicOp`). -/
inductive LogicOp | or | xor | nor | nand
  deriving DecidableEq, Repr

/-- `/repo/dash7/src/app/operation/mod.rs:457-465` (ids). -/
def LogicOp.id : LogicOp → U8
  | .or => 0 | .xor => 1 | .nor => 2 | .nand => 3

/-- `/repo/dash7/src/app/operation/mod.rs:457-465` (ids, reading). -/
def LogicOp.ofId (i : U8) : Option LogicOp :=
  match i.toNat with
  | 0 => some .or | 1 => some .xor | 2 => some .nor | 3 => some .nand | _ => none

/-- `/repo/dash7/src/app/operation/mod.rs:454-455` (derived reader, 2 bits). -/
def LogicOp.read : P LogicOp := P.enum 2 ofId
/-- `/repo/dash7/src/app/operation/mod.rs:454-455` (derived writer, 2 bits). -/
def LogicOp.write (t : LogicOp) : W := W.uint 2 t.id

/-- `/repo/dash7/src/app/operation/mod.rs:468-475` (`Logic`). -/
structure Logic where
  logic : LogicOp
  opcode : OpCode
  deriving DecidableEq, Repr

/-- `/repo/dash7/src/app/operation/mod.rs:468-475` (derived reader). -/
def Logic.read : P Logic := do
  let l ← LogicOp.read
  let o ← OpCode.read
  P.pure ⟨l, o⟩

/-- `/repo/dash7/src/app/operation/mod.rs:468-475` (derived writer). -/
def Logic.write (op : OpCode) (a : Logic) : W := W.seq [a.logic.write, op.write]

/-- `/repo/dash7/src/app/operation/mod.rs:477-481` (`ForwardHeader`). -/
structure ForwardHeader where
  response : Bool
  deriving DecidableEq, Repr

/-- `/repo/dash7/src/app/operation/mod.rs:477-481` (derived reader). -/
def ForwardHeader.read : P ForwardHeader := do
  P.pad 1
  let r ← P.flag
  P.pure ⟨r⟩

/-- `/repo/dash7/src/app/operation/mod.rs:477-481` (derived writer). -/
def ForwardHeader.write (h : ForwardHeader) : W := W.seq [W.pad 1, W.flag h.response]

/-- `/repo/dash7/src/app/operation/mod.rs:477-493` (`ForwardHeader`, `Forward`). The header has one field, which stands here
in its place. -/
structure Forward where
  response : Bool
  opcode : OpCode
  configuration : InterfaceConfiguration
  deriving DecidableEq, Repr

/-- `/repo/dash7/src/app/operation/mod.rs:496-502` (`Forward::new`). -/
def Forward.new (response : Bool) (configuration : InterfaceConfiguration) : Forward :=
  ⟨response, ⟨50⟩, configuration⟩

/-- `/repo/dash7/src/app/operation/mod.rs:477-493` (derived reader; one padding bit first). -/
def Forward.read (cfg : Cfg) : P Forward := do
  P.pad 1
  let r ← P.flag
  let o ← OpCode.read
  let c ← InterfaceConfiguration.read cfg
  P.pure ⟨r, o, c⟩

/-- `/repo/dash7/src/app/operation/mod.rs:477-493` (derived writer). -/
def Forward.write (cfg : Cfg) (op : OpCode) (a : Forward) : W :=
  W.seq [W.pad 1, W.flag a.response, op.write, a.configuration.write cfg]

/-- `/repo/dash7/src/app/operation/mod.rs:505-512` (`IndirectForwardHeader`). -/
structure IndirectForwardHeader where
  overloaded : Bool
  response : Bool
  deriving DecidableEq, Repr

/-- `/repo/dash7/src/app/operation/mod.rs:514-521` (`IndirectForwardHeader::new`). -/
def IndirectForwardHeader.new (overloaded response : Bool) : IndirectForwardHeader := ⟨overloaded, response⟩

/-- `/repo/dash7/src/app/operation/mod.rs:505-512` (derived reader). -/
def IndirectForwardHeader.read : P IndirectForwardHeader := do
  let v ← P.flag
  let r ← P.flag
  P.pure ⟨v, r⟩

/-- `/repo/dash7/src/app/operation/mod.rs:505-512` (derived writer). -/
def IndirectForwardHeader.write (h : IndirectForwardHeader) : W :=
  W.seq [W.flag h.overloaded, W.flag h.response]

/-- `/repo/dash7/src/app/operation/mod.rs:524-537` (`IndirectForward`). -/
structure IndirectForward where
  header : IndirectForwardHeader
  opcode : OpCode
  configuration : Option IndirectInterface
  deriving DecidableEq, Repr

/-- `/repo/dash7/src/app/operation/mod.rs:540-549` (`IndirectForward::new`). -/
def IndirectForward.new (response : Bool) (configuration : Option IndirectInterface) :
    IndirectForward := ⟨⟨configuration.isSome, response⟩, ⟨51⟩, configuration⟩

/-- `/repo/dash7/src/app/operation/mod.rs:527-530` (derived `update`). -/
def IndirectForward.update (a : IndirectForward) : IndirectForward :=
  { a with header := ⟨a.configuration.isSome, a.header.response⟩ }

/-- `/repo/dash7/src/app/operation/mod.rs:524-537` (derived reader). -/
def IndirectForward.read (cfg : Cfg) : P IndirectForward := do
  let h ← IndirectForwardHeader.read
  let o ← OpCode.read
  let c ← P.cond h.overloaded (IndirectInterface.read cfg)
  P.pure ⟨h, o, c⟩

/-- `/repo/dash7/src/app/operation/mod.rs:524-537` (derived writer; `cond` is not consulted). -/
def IndirectForward.write (cfg : Cfg) (op : OpCode) (a : IndirectForward) : W :=
  W.seq [a.header.write, op.write, W.opt (IndirectInterface.write cfg) a.configuration]

/-- `/repo/dash7/src/app/operation/mod.rs:552-556` (`RequestTagHeader`). -/
structure RequestTagHeader where
  endOfPacket : Bool
  deriving DecidableEq, Repr

/-- `/repo/dash7/src/app/operation/mod.rs:552-556` (derived reader). -/
def RequestTagHeader.read : P RequestTagHeader := do
  let e ← P.flag
  P.pad 1
  P.pure ⟨e⟩

/-- `/repo/dash7/src/app/operation/mod.rs:552-556` (derived writer). -/
def RequestTagHeader.write (h : RequestTagHeader) : W := W.seq [W.flag h.endOfPacket, W.pad 1]

/-- `/repo/dash7/src/app/operation/mod.rs:552-568` (`RequestTagHeader`, `RequestTag`). -/
structure RequestTag where
  endOfPacket : Bool
  opcode : OpCode
  id : U8
  deriving DecidableEq, Repr

/-- `/repo/dash7/src/app/operation/mod.rs:552-568` (derived reader; one padding bit after the
flag). -/
def RequestTag.read : P RequestTag := do
  let e ← P.flag
  P.pad 1
  let o ← OpCode.read
  let i ← P.u8
  P.pure ⟨e, o, i⟩

/-- `/repo/dash7/src/app/operation/mod.rs:552-568` (derived writer). -/
def RequestTag.write (op : OpCode) (a : RequestTag) : W :=
  W.seq [W.flag a.endOfPacket, W.pad 1, op.write, W.u8 a.id]

/-- `/repo/dash7/src/app/operation/mod.rs:570-577` (`Extension`). -/
structure Extension where
  header : ActionHeader
  opcode : OpCode
  deriving DecidableEq, Repr

/-- `/repo/dash7/src/app/operation/mod.rs:570-577` (derived reader). -/
def Extension.read : P Extension := do
  let h ← ActionHeader.read
  let o ← OpCode.read
  P.pure ⟨h, o⟩

/-- `/repo/dash7/src/app/operation/mod.rs:570-577` (derived writer). -/
def Extension.write (op : OpCode) (a : Extension) : W := W.seq [a.header.write, op.write]

/-! ## TX status (wizzilab build) -/

/-- `/repo/dash7/src/app/interface_final.rs:117-126` (`InterfaceTxStatusOperation`). -/
structure InterfaceTxStatusOperation where
  interfaceId : U8
  status : InterfaceTxStatus
  deriving DecidableEq, Repr

/-- `/repo/dash7/src/app/interface_final.rs:128-135` (`From<InterfaceTxStatus>`):
`deku_id().unwrap()`. -/
def InterfaceTxStatusOperation.ofStatus (s : InterfaceTxStatus) :
    Except Err InterfaceTxStatusOperation :=
  match s.id? with
  | some i => .ok ⟨i, s⟩
  | none => .error (.fault .panic)

/-- `/repo/dash7/src/app/interface_final.rs:117-126` (derived reader) with
`/repo/dash7/src/app/interface_final.rs:8-16, 138-146`. -/
def InterfaceTxStatusOperation.read (cfg : Cfg) : P InterfaceTxStatusOperation := do
  let i ← P.u8
  let l ← Length.read
  let s ← InterfaceTxStatus.read cfg i l.val
  P.pure ⟨i, s⟩

/-- `/repo/dash7/src/app/interface_final.rs:117-126` (derived writer) with
`/repo/dash7/src/app/interface_final.rs:18-38, 148-158`. -/
def InterfaceTxStatusOperation.write (cfg : Cfg) (o : InterfaceTxStatusOperation) : W :=
  W.seq [W.u8 o.interfaceId, writeLengthPrefixed (o.status.write cfg)]

/-- `/repo/dash7/src/app/interface_final.rs:90-115` (`TxStatusType`, `TxStatusOperation`,
`TxStatus`): both enums have the single variant `Interface`, so neither needs a field. -/
structure TxStatusOperation where
  opcode : OpCode
  status : InterfaceTxStatusOperation
  deriving DecidableEq, Repr

/-- `/repo/dash7/src/app/interface_final.rs:90-95` (`TxStatusType`, ids, reading). -/
def txStatusTypeOfId (i : U8) : Option Unit :=
  match i.toNat with
  | 1 => some () | _ => none

/-- `/repo/dash7/src/app/interface_final.rs:90-95` (`TxStatusType`). -/
inductive TxStatusType
  | interface
  deriving DecidableEq, Repr

/-- `/repo/dash7/src/app/interface_final.rs:90-95` (ids, reading). -/
def TxStatusType.ofId (i : U8) : Option TxStatusType :=
  match i.toNat with
  | 1 => some .interface | _ => none

/-- `/repo/dash7/src/app/interface_final.rs:90-95` (ids, writing). -/
def TxStatusType.id : TxStatusType → U8
  | .interface => 1

/-- `/repo/dash7/src/app/interface_final.rs:90-95` (derived reader). -/
def TxStatusType.read : P TxStatusType := P.enum 2 ofId

/-- `/repo/dash7/src/app/interface_final.rs:90-95` (derived writer). -/
def TxStatusType.write (t : TxStatusType) : W := W.uint 2 t.id

/-- `/repo/dash7/src/app/interface_final.rs:97-108` (derived reader; six padding bits after the
status type). -/
def TxStatusOperation.read (cfg : Cfg) : P TxStatusOperation := do
  let _ ← P.enum 2 txStatusTypeOfId
  P.pad 6
  let o ← OpCode.read
  let s ← InterfaceTxStatusOperation.read cfg
  P.pure ⟨o, s⟩

/-- `/repo/dash7/src/app/interface_final.rs:97-108` (derived writer). -/
def TxStatusOperation.write (cfg : Cfg) (op : OpCode) (a : TxStatusOperation) : W :=
  W.seq [W.uint 2 1#8, W.pad 6, op.write, a.status.write cfg]

end Op

end Dash7
