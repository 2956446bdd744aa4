import Verif.Model.Action

/-!
# Changing the two bits in front of the opcode
-/

namespace Dash7.Spec

/-- The byte with its two upper bits replaced. -/
def withTop (x y : Bool) (b : U8) : U8 :=
  (if x then 0x80 else 0) ||| (if y then 0x40 else 0) ||| (b &&& 0x3F)

/-- The step of a chunk in two bits. -/
def stepOf : Bool → Bool → Op.ChunkStep
  | false, false => .continue
  | false, true => .start
  | true, false => .end
  | true, true => .startEnd

/-- The logical link in two bits. -/
def logicOf : Bool → Bool → Op.LogicOp
  | false, false => .or
  | false, true => .xor
  | true, false => .nor
  | true, true => .nand

/-- The same action with other bits in front of the opcode: group and response flag; end of packet and error for a
response tag; end of packet, and a bit that says nothing, for a request tag; a bit that says nothing, and the response
flag, for a forward; step of a chunk; logical link. Of an indirect forward, the first bit tells whether something
follows, and only the response flag can be changed. The type of a status tells what follows and cannot be changed. -/
def retag (x y : Bool) : Action → Option Action
  | .nop o => some (.nop { o with header := ⟨x, y⟩ })
  | .readFileData o => some (.readFileData { o with header := ⟨x, y⟩ })
  | .readFileProperties o => some (.readFileProperties { o with header := ⟨x, y⟩ })
  | .writeFileData o => some (.writeFileData { o with header := ⟨x, y⟩ })
  | .writeFileDataFlush o => some (.writeFileDataFlush { o with header := ⟨x, y⟩ })
  | .writeFileProperties o => some (.writeFileProperties { o with header := ⟨x, y⟩ })
  | .actionQuery o => some (.actionQuery { o with header := ⟨x, y⟩ })
  | .breakQuery o => some (.breakQuery { o with header := ⟨x, y⟩ })
  | .permissionRequest o => some (.permissionRequest { o with header := ⟨x, y⟩ })
  | .verifyChecksum o => some (.verifyChecksum { o with header := ⟨x, y⟩ })
  | .existFile o => some (.existFile { o with header := ⟨x, y⟩ })
  | .createNewFile o => some (.createNewFile { o with header := ⟨x, y⟩ })
  | .deleteFile o => some (.deleteFile { o with header := ⟨x, y⟩ })
  | .restoreFile o => some (.restoreFile { o with header := ⟨x, y⟩ })
  | .flushFile o => some (.flushFile { o with header := ⟨x, y⟩ })
  | .copyFile o => some (.copyFile { o with header := ⟨x, y⟩ })
  | .executeFile o => some (.executeFile { o with header := ⟨x, y⟩ })
  | .returnFileData o => some (.returnFileData { o with header := ⟨x, y⟩ })
  | .returnFileProperties o => some (.returnFileProperties { o with header := ⟨x, y⟩ })
  | .status _ => none
  | .responseTag o => some (.responseTag { o with header := ⟨x, y⟩ })
  | .txStatus _ => none
  | .chunk o => some (.chunk { o with step := stepOf x y })
  | .logic o => some (.logic { o with logic := logicOf x y })
  | .forward o => some (.forward { o with response := y })
  | .indirectForward o =>
    if x = o.header.overloaded then some (.indirectForward { o with header := ⟨x, y⟩ }) else none
  | .requestTag o => some (.requestTag { o with endOfPacket := x })
  | .extension o => some (.extension { o with header := ⟨x, y⟩ })

/-- What is written for these bits: bits that say nothing are written as 0. -/
def writtenTop (x y : Bool) : Action → Bool × Bool
  | .forward _ => (false, y)
  | .requestTag _ => (x, false)
  | _ => (x, y)

end Dash7.Spec
