import Verif.Model.Utils
import Verif.Model.File
import Verif.Model.Session

/-!
# Types with a unit `id_pat` variant, on their own

`FileId`, `InterfaceType` and `NoiseFloor` end in a variant that takes every id left and has no field to put it in. Whether
deku goes back behind such an id is left open (`Cfg.unitPatConsumes`).
-/

namespace Dash7

/-- deku derive, reader of an enum with unit `id_pat` variants, e.g. of `/repo/dash7/src/session/mod.rs:13-34`: the id of
`width` bits is read; if it belongs to such a variant (`unit`) the reader is put back where it was, unless
`unitPatConsumes`; then the fields of the variant are read. -/
def readTagged {α : Type} (cfg : Cfg) (width : Nat) (unit : U8 → Bool) (fields : U8 → P α) : R α := fun r =>
  match (P.uint 8 width).run r with
  | .error e => .error e
  | .ok (i, r') => (fields i).run (if unit i && !cfg.unitPatConsumes then r else r')

/-- `/repo/dash7/src/file/mod.rs:28-115` (derived reader). -/
def FileId.read (cfg : Cfg) : R FileId :=
  readTagged cfg 8 (fun i => (FileId.ofId i).id?.isNone) fun i => P.pure (FileId.ofId i)

/-- `/repo/dash7/src/file/mod.rs:28-115` (derived writer). A unit `id_pat` variant has no field to write, hence writes
nothing. -/
def FileId.write (f : FileId) : W :=
  match f.id? with
  | some i => W.u8 i
  | none => .ok []

/-- `/repo/dash7/src/file/mod.rs:28` (derived `from_bytes`). -/
def FileId.fromBytes (cfg : Cfg) (input : Rest) : Except Err (Rest × FileId) := derivedFromBytes (FileId.read cfg) input

/-- `/repo/dash7/src/file/mod.rs:28` (derived `TryFrom<&[u8]>`). -/
def FileId.tryFromBytes (cfg : Cfg) (data : List U8) : Except Err FileId := derivedTryFrom (FileId.read cfg) data

/-- `/repo/dash7/src/file/mod.rs:28` (derived `to_bytes`). -/
def FileId.toBytes (f : FileId) : Except Err (List U8) := f.write.toBytes

/-- `/repo/dash7/src/session/mod.rs:13-34` (derived reader). -/
def InterfaceType.read (cfg : Cfg) : R InterfaceType :=
  readTagged cfg 8 (fun i => (InterfaceType.ofId i).id?.isNone) fun i => P.pure (InterfaceType.ofId i)

/-- `/repo/dash7/src/session/mod.rs:13` (derived `from_bytes`). -/
def InterfaceType.fromBytes (cfg : Cfg) (input : Rest) : Except Err (Rest × InterfaceType) :=
  derivedFromBytes (InterfaceType.read cfg) input

/-- `/repo/dash7/src/session/mod.rs:13` (derived `TryFrom<&[u8]>`). -/
def InterfaceType.tryFromBytes (cfg : Cfg) (data : List U8) : Except Err InterfaceType :=
  derivedTryFrom (InterfaceType.read cfg) data

/-- `/repo/dash7/src/session/mod.rs:13` (derived `to_bytes`). -/
def InterfaceType.toBytes (t : InterfaceType) : Except Err (List U8) := t.write.toBytes

/-- `/repo/dash7/src/physical/mod.rs:57-77` (`NoiseFloor`). -/
inductive NoiseFloor
  | fixed (dbm : U8)
  | forgetFactor (seconds : U8)
  | other
  deriving DecidableEq, Repr

/-- `/repo/dash7/src/physical/mod.rs:60-76` (fields of each variant). -/
def NoiseFloor.fields (i : U8) : P NoiseFloor :=
  match i.toNat with
  | 0 => do let n ← P.u8; P.pure (.fixed n)
  | 1 => do let n ← P.u8; P.pure (.forgetFactor n)
  | _ => P.pure .other

/-- `/repo/dash7/src/physical/mod.rs:57-77` (derived reader). -/
def NoiseFloor.read (cfg : Cfg) : R NoiseFloor :=
  readTagged cfg 4 (fun i => i.toNat != 0 && i.toNat != 1) NoiseFloor.fields

/-- `/repo/dash7/src/physical/mod.rs:57-77` (derived writer). -/
def NoiseFloor.write : NoiseFloor → W
  | .fixed n => W.seq [W.uint 4 0#8, W.u8 n]
  | .forgetFactor n => W.seq [W.uint 4 1#8, W.u8 n]
  | .other => .ok []

/-- `/repo/dash7/src/physical/mod.rs:57` (derived `from_bytes`). -/
def NoiseFloor.fromBytes (cfg : Cfg) (input : Rest) : Except Err (Rest × NoiseFloor) :=
  derivedFromBytes (NoiseFloor.read cfg) input

/-- `/repo/dash7/src/physical/mod.rs:57` (derived `TryFrom<&[u8]>`). -/
def NoiseFloor.tryFrom (cfg : Cfg) (data : List U8) : Except Err NoiseFloor := derivedTryFrom (NoiseFloor.read cfg) data

/-- `/repo/dash7/src/physical/mod.rs:57` (derived `to_bytes`). -/
def NoiseFloor.toBytes (n : NoiseFloor) : Except Err (List U8) := n.write.toBytes

end Dash7
