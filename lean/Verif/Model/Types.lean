import Verif.Deku

/-!
# `dash7/src/types.rs`, `app/operation/length.rs`, `app/operation/file_offset.rs`
-/

namespace Dash7

/-! ## VarInt -/

/-- `/repo/dash7/src/types.rs:9-15` (`VarIntError`). `overflow` is added: it stands for a Rust
arithmetic-overflow panic in the `u32` computations. -/
inductive VarIntError
  | valueTooLarge (v : U32)
  | exponentTooLarge (e : U8)
  | mantissaTooLarge (m : U8)
  | unknown
  | overflow
  deriving DecidableEq, Repr

/-- `/repo/dash7/src/types.rs:17-42` (`Into<DekuError> for VarIntError`), message texts dropped
(they are in `Model/Messages.lean`). -/
def VarIntError.toFault : VarIntError → Fault
  | .valueTooLarge _ => .invalidParam
  | .exponentTooLarge _ => .invalidParam
  | .mantissaTooLarge _ => .invalidParam
  | .unknown => .parse
  | .overflow => .panic

/-- `/repo/dash7/src/types.rs:46-56` (`struct VarInt`). -/
structure VarInt where
  value : U32
  ceil : Bool
  deriving DecidableEq, Repr

namespace VarInt

/-- `/repo/dash7/src/types.rs:59` (`VarInt::MAX`). -/
def MAX : Nat := 507904

/-- `/repo/dash7/src/types.rs:46` (`derive(Default)`). -/
def default : VarInt := ⟨0, false⟩

/-- `/repo/dash7/src/types.rs:113-115` (`VarInt::is_valid`). -/
def isValid (n : U32) : Bool := n.toNat ≤ MAX

/-- `/repo/dash7/src/types.rs:61-67` (`VarInt::new`). -/
def new (value : U32) (ceil : Bool) : Except VarIntError VarInt :=
  if !isValid value then .error (.valueTooLarge value) else .ok ⟨value, ceil⟩

/-- `/repo/dash7/src/types.rs:69-71` (`VarInt::new_unchecked`). -/
def newUnchecked (value : U32) (ceil : Bool) : VarInt := ⟨value, ceil⟩

/-- `/repo/dash7/src/types.rs:150-154` (`From<u32> for VarInt`). -/
def ofU32 (value : U32) : VarInt := ⟨value, false⟩

/-- `/repo/dash7/src/types.rs:144-148` (`Into<u32> for VarInt`). -/
def toU32 (v : VarInt) : U32 := v.value

/-- `/repo/dash7/src/types.rs:73-83` (`VarInt::decompress`). The product is computed in `u32`;
exceeding it is the panic `overflow`. Note the error of line 79. -/
def decompress (exponent mantissa : U8) : Except VarIntError U32 :=
  if (exponent &&& 0b11111000#8).toNat > 0 then .error (.exponentTooLarge exponent)
  else if (mantissa &&& 0b11100000#8).toNat > 0 then .error (.exponentTooLarge mantissa)
  else
    let r := 4 ^ exponent.toNat * mantissa.toNat
    if r < 2 ^ 32 then .ok (BitVec.ofNat 32 r) else .error .overflow

/-- `/repo/dash7/src/types.rs:93-108`: the `for i in 0..8` loop of `VarInt::compress`, over the
values of `i` still to come. `as u8` casts truncate. -/
def compressLoop (value : U32) (ceil : Bool) : List Nat → Except VarIntError (U8 × U8)
  | [] => .error .unknown
  | i :: is =>
    let exp := 4 ^ i
    if 2 ^ 32 ≤ exp ∨ 2 ^ 32 ≤ exp * 31 then .error .overflow
    else if value.toNat ≤ exp * 31 then
      let mantissa := value.toNat / exp
      let remainder := value.toNat % exp
      let mantissa := if ceil && decide (remainder > 0) then mantissa + 1 else mantissa
      .ok (BitVec.ofNat 8 i, BitVec.ofNat 8 mantissa)
    else compressLoop value ceil is

/-- `/repo/dash7/src/types.rs:85-109` (`VarInt::compress`): (exponent, mantissa). -/
def compress (value : U32) (ceil : Bool) : Except VarIntError (U8 × U8) :=
  if !isValid value then .error (.valueTooLarge value)
  else compressLoop value ceil [0, 1, 2, 3, 4, 5, 6, 7]

/-- `/repo/dash7/src/types.rs:117-127` (`VarInt::read`) inside the derived reader (46-56): `ceil` is
`skip, default = "false"`. -/
def read : P VarInt := do
  let exponent ← P.uint 8 3
  let mantissa ← P.uint 8 5
  match decompress exponent mantissa with
  | .ok v => P.pure ⟨v, false⟩
  | .error e => P.fail e.toFault

/-- `/repo/dash7/src/types.rs:129-141` (`VarInt::write`). -/
def write (v : VarInt) : W :=
  match compress v.value v.ceil with
  | .ok (exponent, mantissa) => W.seq [W.uint 3 exponent, W.uint 5 mantissa]
  | .error e => .error (.fault e.toFault)

end VarInt

/-! ## Length -/

/-- `/repo/dash7/src/app/operation/length.rs:7-14` (`struct Length`). -/
structure Length where
  val : U32
  deriving DecidableEq, Repr

namespace Length

/-- `/repo/dash7/src/app/operation/length.rs:34-38` (`From<usize>`): `as u32` truncates. -/
def ofUsize (n : Nat) : Length := ⟨BitVec.ofNat 32 n⟩

/-- `/repo/dash7/src/app/operation/length.rs:22-26` (`From<u32>`). -/
def ofU32 (n : U32) : Length := ⟨n⟩

/-- `/repo/dash7/src/app/operation/length.rs:16-20` (`Into<u32>`). -/
def toU32 (l : Length) : U32 := l.val

/-- `/repo/dash7/src/app/operation/length.rs:28-32` (`Into<usize>`), where a `usize` has at least 32 bits. -/
def toNat (l : Length) : Nat := l.val.toNat

/-- `/repo/dash7/src/app/operation/length.rs:41-44` (`Length::required_bits`). -/
def requiredBits (v : U32) : Nat := Nat.log2 v.toNat + 1

/-- `/repo/dash7/src/app/operation/length.rs:63-68`: `num_extra_bytes` in `Length::write`. -/
def extraBytes (v : U32) : Nat :=
  let extraBits := requiredBits v - 6
  let n := extraBits / 8
  if extraBits % 8 > 0 then n + 1 else n

/-- `/repo/dash7/src/app/operation/length.rs:46-57` (`Length::read`). -/
def read : P Length := do
  let size ← P.uint 8 2
  let value ← P.uint 32 (6 + size.toNat * 8)
  P.pure ⟨value⟩

/-- `/repo/dash7/src/app/operation/length.rs:59-81` (`Length::write`). -/
def write (l : Length) : W :=
  W.seq [W.uint 2 (BitVec.ofNat 32 (extraBytes l.val)), W.uint (6 + extraBytes l.val * 8) l.val]

end Length

/-- `/repo/dash7/src/app/operation/file_offset.rs:6-10` (`struct FileOffset`). -/
structure FileOffset where
  fileId : U8
  offset : Length
  deriving DecidableEq, Repr

namespace FileOffset

/-- `/repo/dash7/src/app/operation/file_offset.rs:13-18` (`FileOffset::no_offset`). -/
def noOffset (fileId : U8) : FileOffset := ⟨fileId, ⟨0⟩⟩

/-- `/repo/dash7/src/app/operation/file_offset.rs:6-10` (derived reader). -/
def read : P FileOffset := do
  let fileId ← P.u8
  let offset ← Length.read
  P.pure ⟨fileId, offset⟩

/-- `/repo/dash7/src/app/operation/file_offset.rs:6-10` (derived writer). -/
def write (f : FileOffset) : W := W.seq [W.u8 f.fileId, f.offset.write]

end FileOffset

/-- `/repo/dash7/src/utils.rs:84-108` (`write_length_prefixed`), also
`/repo/dash7/src/utils.rs:110-140` (`write_length_prefixed_ext`) and
`/repo/dash7/src/app/interface_final.rs:18-38`: the item goes to a buffer of its own, filled up to whole
bytes by `finalize`; then the buffer's length and the buffer are written. -/
def writeLengthPrefixed (item : W) : W :=
  match item with
  | .error e => .error e
  | .ok bs =>
    let buf := packBits bs
    W.seq [(Length.ofUsize buf.length).write, W.list W.u8 buf]

end Dash7
