import Verif.Model.Operation
import Verif.Model.Utils

/-!
# `dash7/src/app/action.rs`
-/

namespace Dash7

/-- `/repo/dash7/src/app/action.rs:84-138` (`Action`). `txStatus` exists in the wizzilab build only. -/
inductive Action
  | nop (o : Op.Nop)
  | readFileData (o : Op.ReadFileData)
  | readFileProperties (o : Op.FileId)
  | writeFileData (o : Op.FileData)
  | writeFileDataFlush (o : Op.FileData)
  | writeFileProperties (o : Op.FileProperties)
  | actionQuery (o : Op.ActionQuery)
  | breakQuery (o : Op.ActionQuery)
  | permissionRequest (o : Op.PermissionRequest)
  | verifyChecksum (o : Op.ActionQuery)
  | existFile (o : Op.FileId)
  | createNewFile (o : Op.FileProperties)
  | deleteFile (o : Op.FileId)
  | restoreFile (o : Op.FileId)
  | flushFile (o : Op.FileId)
  | copyFile (o : Op.CopyFile)
  | executeFile (o : Op.FileId)
  | returnFileData (o : Op.FileData)
  | returnFileProperties (o : Op.FileProperties)
  | status (o : Op.StatusOperand)
  | responseTag (o : Op.ResponseTag)
  | txStatus (o : Op.TxStatusOperation)
  | chunk (o : Op.Chunk)
  | logic (o : Op.Logic)
  | forward (o : Op.Forward)
  | indirectForward (o : Op.IndirectForward)
  | requestTag (o : Op.RequestTag)
  | extension (o : Op.Extension)
  deriving DecidableEq, Repr

namespace Action

/-- `/repo/dash7/src/app/action.rs:270-304` (`deku_id`), with the constants of
`/repo/dash7/src/app/action.rs:31-72`. -/
def opcode : Action → OpCode
  | .nop _ => ⟨0x00⟩
  | .readFileData _ => ⟨0x01⟩
  | .readFileProperties _ => ⟨0x02⟩
  | .writeFileData _ => ⟨0x04⟩
  | .writeFileDataFlush _ => ⟨0x05⟩
  | .writeFileProperties _ => ⟨0x06⟩
  | .actionQuery _ => ⟨0x08⟩
  | .breakQuery _ => ⟨0x09⟩
  | .permissionRequest _ => ⟨0x0a⟩
  | .verifyChecksum _ => ⟨0x0b⟩
  | .existFile _ => ⟨16⟩
  | .createNewFile _ => ⟨17⟩
  | .deleteFile _ => ⟨18⟩
  | .restoreFile _ => ⟨19⟩
  | .flushFile _ => ⟨20⟩
  | .copyFile _ => ⟨23⟩
  | .executeFile _ => ⟨31⟩
  | .returnFileData _ => ⟨32⟩
  | .returnFileProperties _ => ⟨33⟩
  | .status _ => ⟨34⟩
  | .responseTag _ => ⟨35⟩
  | .txStatus _ => ⟨38⟩
  | .chunk _ => ⟨48⟩
  | .logic _ => ⟨49⟩
  | .forward _ => ⟨50⟩
  | .indirectForward _ => ⟨51⟩
  | .requestTag _ => ⟨52⟩
  | .extension _ => ⟨63⟩

/-- `/repo/dash7/src/app/action.rs:186-239`: the `match code` of the reader. -/
def dispatch (cfg : Cfg) (code : OpCode) : P Action :=
  match code.code.toNat with
  | 0x00 => do let o ← Op.Nop.read; P.pure (.nop o)
  | 0x01 => do let o ← Op.ReadFileData.read; P.pure (.readFileData o)
  | 0x02 => do let o ← Op.FileId.read; P.pure (.readFileProperties o)
  | 0x04 => do let o ← Op.FileData.read cfg; P.pure (.writeFileData o)
  | 0x05 => do let o ← Op.FileData.read cfg; P.pure (.writeFileDataFlush o)
  | 0x06 => do let o ← Op.FileProperties.read; P.pure (.writeFileProperties o)
  | 0x08 => do let o ← Op.ActionQuery.read; P.pure (.actionQuery o)
  | 0x09 => do let o ← Op.ActionQuery.read; P.pure (.breakQuery o)
  | 0x0a => do let o ← Op.PermissionRequest.read; P.pure (.permissionRequest o)
  | 0x0b => do let o ← Op.ActionQuery.read; P.pure (.verifyChecksum o)
  | 16 => do let o ← Op.FileId.read; P.pure (.existFile o)
  | 17 => do let o ← Op.FileProperties.read; P.pure (.createNewFile o)
  | 18 => do let o ← Op.FileId.read; P.pure (.deleteFile o)
  | 19 => do let o ← Op.FileId.read; P.pure (.restoreFile o)
  | 20 => do let o ← Op.FileId.read; P.pure (.flushFile o)
  | 23 => do let o ← Op.CopyFile.read; P.pure (.copyFile o)
  | 31 => do let o ← Op.FileId.read; P.pure (.executeFile o)
  | 32 => do let o ← Op.FileData.read cfg; P.pure (.returnFileData o)
  | 33 => do let o ← Op.FileProperties.read; P.pure (.returnFileProperties o)
  | 34 => do let o ← Op.StatusOperand.read cfg; P.pure (.status o)
  | 35 => do let o ← Op.ResponseTag.read; P.pure (.responseTag o)
  | 38 => match cfg.variant with
    | .wizzilab => do let o ← Op.TxStatusOperation.read cfg; P.pure (.txStatus o)
    | _ => P.fail .invalidParam
  | 48 => do let o ← Op.Chunk.read; P.pure (.chunk o)
  | 49 => do let o ← Op.Logic.read; P.pure (.logic o)
  | 50 => do let o ← Op.Forward.read cfg; P.pure (.forward o)
  | 51 => do let o ← Op.IndirectForward.read cfg; P.pure (.indirectForward o)
  | 52 => do let o ← Op.RequestTag.read; P.pure (.requestTag o)
  | 63 => do let o ← Op.Extension.read; P.pure (.extension o)
  | _ => P.fail .invalidParam

/-- `/repo/dash7/src/app/action.rs:159-241` (`DekuReader for Action`). -/
def read (cfg : Cfg) : R Action := do
  (P.pad 2).run
  let code ← OpCode.read.run
  R.seekBack cfg
  (dispatch cfg code).run

/-- `/repo/dash7/src/app/action.rs:312-353` (`DekuWriter for Action`). -/
def write (cfg : Cfg) (a : Action) : W :=
  match a with
  | .nop o => o.write a.opcode
  | .readFileData o => o.write a.opcode
  | .readFileProperties o => o.write a.opcode
  | .writeFileData o => o.write cfg a.opcode
  | .writeFileDataFlush o => o.write cfg a.opcode
  | .writeFileProperties o => o.write a.opcode
  | .actionQuery o => o.write a.opcode
  | .breakQuery o => o.write a.opcode
  | .permissionRequest o => o.write a.opcode
  | .verifyChecksum o => o.write a.opcode
  | .existFile o => o.write a.opcode
  | .createNewFile o => o.write a.opcode
  | .deleteFile o => o.write a.opcode
  | .restoreFile o => o.write a.opcode
  | .flushFile o => o.write a.opcode
  | .copyFile o => o.write a.opcode
  | .executeFile o => o.write a.opcode
  | .returnFileData o => o.write cfg a.opcode
  | .returnFileProperties o => o.write a.opcode
  | .status o => o.write cfg a.opcode
  | .responseTag o => o.write a.opcode
  | .txStatus o => o.write cfg a.opcode
  | .chunk o => o.write a.opcode
  | .logic o => o.write a.opcode
  | .forward o => o.write cfg a.opcode
  | .indirectForward o => o.write cfg a.opcode
  | .requestTag o => o.write a.opcode
  | .extension o => o.write a.opcode

/-- `/repo/dash7/src/app/action.rs:306-310` (`DekuUpdate for Action`): does nothing. -/
def update (a : Action) : Except Err Action := .ok a

/-- `/repo/dash7/src/app/action.rs:355-361` (`TryFrom<Action> for Vec<u8>`, `to_bytes`). -/
def toBytes (cfg : Cfg) (a : Action) : Except Err (List U8) := (a.write cfg).toBytes

/-- `/repo/dash7/src/app/action.rs:265-267` (`Action::from_bytes`). -/
def fromBytes (cfg : Cfg) (input : Rest) : Except Err (Rest × Action) :=
  Dash7.fromBytes (read cfg) input

/-- `/repo/dash7/src/app/action.rs:258-263` (`Action::from_reader`). -/
def fromReader (cfg : Cfg) (data : List U8) (off : Nat) : Except Err (Nat × Action) :=
  Dash7.fromReader (read cfg) data off

/-- `/repo/dash7/src/app/action.rs:243-255` (`TryFrom<&[u8]>`). -/
def tryFrom (cfg : Cfg) (data : List U8) : Except Err Action :=
  match fromBytes cfg (data, 0) with
  | .error e => .error e
  | .ok (rest, a) => if rest.1 ≠ [] then .error (.fault .parse) else .ok a

end Action
end Dash7
