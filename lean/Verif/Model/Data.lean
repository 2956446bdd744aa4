import Verif.Model.Types

/-!
# `dash7/src/data/mod.rs`
-/

namespace Dash7.Data

/-- `/repo/dash7/src/data/mod.rs:4-16` (`ActionCondition`). -/
inductive ActionCondition | list | read | write | writeFlush
  deriving DecidableEq, Repr

/-- `/repo/dash7/src/data/mod.rs:8-15` (ids). -/
def ActionCondition.id : ActionCondition → U8
  | .list => 0 | .read => 1 | .write => 2 | .writeFlush => 3

/-- `/repo/dash7/src/data/mod.rs:8-15` (ids, reading). -/
def ActionCondition.ofId (i : U8) : Option ActionCondition :=
  match i.toNat with
  | 0 => some .list | 1 => some .read | 2 => some .write | 3 => some .writeFlush | _ => none

/-- `/repo/dash7/src/data/mod.rs:4-5` (derived reader, 3 bits). -/
def ActionCondition.reader : P ActionCondition := P.enum 3 ofId
/-- `/repo/dash7/src/data/mod.rs:4-5` (derived writer, 3 bits). -/
def ActionCondition.writer (c : ActionCondition) : W := W.uint 3 c.id

/-- `/repo/dash7/src/data/mod.rs:18-38` (`StorageClass`). -/
inductive StorageClass | transient | volatile | restorable | permanent
  deriving DecidableEq, Repr

/-- `/repo/dash7/src/data/mod.rs:23-37` (ids). -/
def StorageClass.id : StorageClass → U8
  | .transient => 0 | .volatile => 1 | .restorable => 2 | .permanent => 3

/-- `/repo/dash7/src/data/mod.rs:23-37` (ids, reading). -/
def StorageClass.ofId (i : U8) : Option StorageClass :=
  match i.toNat with
  | 0 => some .transient | 1 => some .volatile | 2 => some .restorable | 3 => some .permanent
  | _ => none

/-- `/repo/dash7/src/data/mod.rs:18-19` (derived reader, 2 bits). -/
def StorageClass.read : P StorageClass := P.enum 2 ofId
/-- `/repo/dash7/src/data/mod.rs:18-19` (derived writer, 2 bits). -/
def StorageClass.write (c : StorageClass) : W := W.uint 2 c.id

/-- `/repo/dash7/src/data/mod.rs:40-48` (`UserPermissions`). -/
structure UserPermissions where
  read : Bool
  write : Bool
  executable : Bool
  deriving DecidableEq, Repr

/-- `/repo/dash7/src/data/mod.rs:40-48` (derived reader). -/
def UserPermissions.reader : P UserPermissions := do
  let r ← P.flag
  let w ← P.flag
  let x ← P.flag
  P.pure ⟨r, w, x⟩

/-- `/repo/dash7/src/data/mod.rs:40-48` (derived writer). -/
def UserPermissions.writer (u : UserPermissions) : W :=
  W.seq [W.flag u.read, W.flag u.write, W.flag u.executable]

/-- `/repo/dash7/src/data/mod.rs:50-58` (`FilePermissions`). -/
structure FilePermissions where
  encrypted : Bool
  executable : Bool
  user : UserPermissions
  guest : UserPermissions
  deriving DecidableEq, Repr

/-- `/repo/dash7/src/data/mod.rs:50-58` (derived reader). -/
def FilePermissions.read : P FilePermissions := do
  let e ← P.flag
  let x ← P.flag
  let u ← UserPermissions.reader
  let g ← UserPermissions.reader
  P.pure ⟨e, x, u, g⟩

/-- `/repo/dash7/src/data/mod.rs:50-58` (derived writer). -/
def FilePermissions.write (p : FilePermissions) : W :=
  W.seq [W.flag p.encrypted, W.flag p.executable, p.user.writer, p.guest.writer]

/-- `/repo/dash7/src/data/mod.rs:60-72` (`FileProperties`). -/
structure FileProperties where
  enabled : Bool
  condition : ActionCondition
  storageClass : StorageClass
  deriving DecidableEq, Repr

/-- `/repo/dash7/src/data/mod.rs:60-72` (derived reader; two padding bits before the class). -/
def FileProperties.read : P FileProperties := do
  let e ← P.flag
  let c ← ActionCondition.reader
  P.pad 2
  let s ← StorageClass.read
  P.pure ⟨e, c, s⟩

/-- `/repo/dash7/src/data/mod.rs:60-72` (derived writer). -/
def FileProperties.write (p : FileProperties) : W :=
  W.seq [W.flag p.enabled, p.condition.writer, W.pad 2, p.storageClass.write]

/-- `/repo/dash7/src/data/mod.rs:74-84` (`FileHeader`). -/
structure FileHeader where
  permissions : FilePermissions
  properties : FileProperties
  alpCommandFileId : U8
  interfaceFileId : U8
  fileSize : U32
  allocatedSize : U32
  deriving DecidableEq, Repr

/-- `/repo/dash7/src/data/mod.rs:74-84` (derived reader). -/
def FileHeader.read : P FileHeader := do
  let pe ← FilePermissions.read
  let pr ← FileProperties.read
  let a ← P.u8
  let i ← P.u8
  let fs ← P.uint 32 32
  let al ← P.uint 32 32
  P.pure ⟨pe, pr, a, i, fs, al⟩

/-- `/repo/dash7/src/data/mod.rs:74-84` (derived writer). -/
def FileHeader.write (h : FileHeader) : W :=
  W.seq [h.permissions.write, h.properties.write, W.u8 h.alpCommandFileId, W.u8 h.interfaceFileId,
    W.uint 32 h.fileSize, W.uint 32 h.allocatedSize]

end Dash7.Data
