import Verif.Bits

/-!
# Model of the parts of `deku` 0.18.1 the crate relies on

`/repo/Cargo.toml:19` (`deku = "0.18.1"`) is a dependency whose source is not in `/repo`.  What is
stated here about it is part of the trusted base (DESIGN.md §1).
-/

namespace Dash7

/-- Which of the mutually exclusive protocol features the crate is built with.
`/repo/dash7/Cargo.toml` features `_spec`, `_subiot`, `_wizzilab`. -/
inductive Variant | spec | subiot | wizzilab
  deriving DecidableEq, Repr

/-- Everything the behaviour depends on besides its input.
`variant`: `/repo/dash7/Cargo.toml` features; the remaining fields are host/deku properties. -/
structure Cfg where
  /-- protocol feature -/
  variant : Variant
  /-- host byte order; used by deku for fields without `endian` attribute -/
  bigEndianHost : Bool
  /-- does the one byte look-ahead of `Reader::end` increment `bits_read` by 8? -/
  endCounts : Bool
  /-- does seeking a `Reader` drop its left-over bits? -/
  seekClears : Bool
  /-- does a unit enum variant selected by `id_pat` consume the id? -/
  unitPatConsumes : Bool
  deriving DecidableEq, Repr

/-- Kinds of `DekuError` (message texts dropped), plus `panic` for a Rust panic; raised e.g. at
`/repo/dash7/src/app/action.rs:237` and `/repo/dash7/src/utils.rs:44` (slicing). -/
inductive Fault | parse | invalidParam | idVariantNotFound | io | panic
  deriving DecidableEq, Repr

/-- `DekuError::Incomplete` is kept apart: only running out of input raises it, in any of
the readers, e.g. `/repo/dash7/src/utils.rs:75`. -/
inductive Err | incomplete | fault (f : Fault)
  deriving DecidableEq, Repr

/-! ## Derive-generated readers -/

/-- What a derive-generated `from_reader_with_ctx` does to its `Reader`: take some bits and
continue depending on them, return a value, or fail. Stands for the code behind every
`#[derive(DekuRead)]`, e.g. `/repo/dash7/src/app/operation/mod.rs:55`. -/
inductive P (α : Type) : Type
  | pure (a : α)
  | fail (f : Fault)
  | bits (n : Nat) (k : List Bool → P α)

namespace P

/-- Sequencing (`?` in the generated code); fields of a struct one after the other, e.g.
`/repo/dash7/src/app/operation/mod.rs:62-64`. -/
def bind {α β : Type} : P α → (α → P β) → P β
  | pure a, f => f a
  | fail e, _ => fail e
  | bits n k, f => bits n (fun l => (k l).bind f)

/-- `do`-notation for the derived readers (`/repo/dash7/src/app/operation/mod.rs:55` and alike). -/
instance : Monad P where
  pure := P.pure
  bind := P.bind

/-- Running a reader on an abstract string of bits: value and unread bits. The meaning of the
derived readers (`/repo/dash7/src/app/operation/mod.rs:55` and alike) away from any `Reader`. -/
def eval {α : Type} : P α → List Bool → Except Err (α × List Bool)
  | pure a, s => .ok (a, s)
  | fail e, _ => .error (.fault e)
  | bits n k, s =>
    if n ≤ s.length then (k (s.take n)).eval (s.drop n) else .error .incomplete

/-- `DekuReader<(Endian::Big, BitSize(n))>` of an unsigned `w`-bit integer, e.g.
`/repo/dash7/src/app/operation/length.rs:51-54`. -/
def uint (w n : Nat) : P (BitVec w) :=
  if w < n then .fail .parse else .bits n fun l => .pure (BitVec.ofNat w (bitsNat l))

/-- Whole-byte integer of `k` bytes, least significant byte first (`Endian::Little`): the field
`/repo/dash7/src/file/security_key.rs:6` on a little-endian host. -/
def uintLE (k : Nat) : P (BitVec (8 * k)) :=
  .bits (8 * k) fun l =>
    .pure (BitVec.ofNat (8 * k) (bitsNat (bytesBits (packBits l).reverse)))

/-- Whole-byte integer field without `endian` attribute: host byte order, e.g.
`/repo/dash7/src/file/security_key.rs:6`. -/
def uintHost (cfg : Cfg) (k : Nat) : P (BitVec (8 * k)) :=
  if cfg.bigEndianHost then uint (8 * k) (8 * k) else uintLE k

/-- `u8` field (also `i8`, by its bit pattern), e.g. `/repo/dash7/src/app/operation/mod.rs:62`. -/
def u8 : P U8 := uint 8 8

/-- `bool` field with `bits = 1`, e.g. `/repo/dash7/src/app/operation/mod.rs:95-96`. -/
def flag : P Bool := .bits 1 fun l => .pure (l == [true])

/-- `pad_bits_before` / `pad_bits_after`: bits skipped on read, e.g.
`/repo/dash7/src/app/query.rs:74`; also `reader.skip_bits`, `/repo/dash7/src/app/action.rs:165`. -/
def pad (n : Nat) : P Unit := .bits n fun _ => .pure ()

/-- `#[deku(count = "n")]` on a `Vec<T>`, e.g. `/repo/dash7/src/app/query.rs:120-121`. -/
def count {α : Type} (p : P α) : Nat → P (List α)
  | 0 => .pure []
  | n + 1 => p.bind fun a => (count p n).bind fun as => .pure (a :: as)

/-- Fixed size array `[T; n]`, elements read front to back, e.g.
`/repo/dash7/src/app/operation/mod.rs:72`. -/
def array {α : Type} (p : P α) : (n : Nat) → P (Vector α n)
  | 0 => .pure #v[]
  | n + 1 => (array p n).bind fun as => p.bind fun a => .pure (as.push a)

/-- An enum with `id_type = "u8", bits = n` and unit variants only: read the id and look it up;
no matching variant is a `Parse` error. E.g. `/repo/dash7/src/app/operation/mod.rs:256-269`. -/
def enum {ε : Type} (n : Nat) (ofId : U8 → Option ε) : P ε :=
  (uint 8 n).bind fun i =>
    match ofId i with
    | some e => .pure e
    | none => .fail .parse

/-- `Option<T>` field with `cond`, e.g. `/repo/dash7/src/app/operation/mod.rs:535-536`. -/
def cond {α : Type} (c : Bool) (p : P α) : P (Option α) :=
  if c then p.bind fun a => .pure (some a) else .pure none

end P

/-! ## Concrete reader -/

/-- State of a `deku::reader::Reader` over a byte cursor, as made at
`/repo/dash7/src/utils.rs:70-71`. -/
structure Rd where
  /-- the bytes the cursor runs over -/
  data : List U8
  /-- position of the cursor -/
  pos : Nat
  /-- `leftover`: bits already taken from the cursor but not yet consumed -/
  left : List Bool
  /-- `Reader::bits_read` -/
  bitsRead : Nat
  deriving DecidableEq, Repr

/-- `Reader::new(Cursor::new(data))`, `/repo/dash7/src/utils.rs:70-71`. -/
def Rd.new (data : List U8) : Rd := ⟨data, 0, [], 0⟩

/-- The bits a reader (`/repo/dash7/src/utils.rs:70-71`) will deliver next. -/
def Rd.rem (r : Rd) : List Bool := r.left ++ bytesBits (r.data.drop r.pos)

/-- `Reader::read_bits` / `skip_bits` / `read_bytes`: serve from the left-over, fetch as many whole
bytes as needed, keep what remains as left-over. Called directly at
`/repo/dash7/src/app/action.rs:165`, and by every derived reader. -/
def Rd.readBits (n : Nat) (r : Rd) : Except Err (List Bool × Rd) :=
  if n ≤ r.left.length then
    .ok (r.left.take n, { r with left := r.left.drop n, bitsRead := r.bitsRead + n })
  else
    let nb := (n - r.left.length + 7) / 8
    if r.pos + nb ≤ r.data.length then
      let all := r.left ++ bytesBits ((r.data.drop r.pos).take nb)
      .ok (all.take n,
        { r with pos := r.pos + nb, left := all.drop n, bitsRead := r.bitsRead + n })
    else .error .incomplete

/-- Hand-written readers: functions on the reader state
(`/repo/dash7/src/app/action.rs:160-163`, `/repo/dash7/src/app/command.rs:35-38`). -/
def R (α : Type) : Type := Rd → Except Err (α × Rd)

namespace R

/-- `Ok(a)`, e.g. `/repo/dash7/src/app/action.rs:239`. -/
def pure {α : Type} (a : α) : R α := fun r => .ok (a, r)

/-- `?`-sequencing, e.g. `/repo/dash7/src/app/action.rs:165-168`. -/
def bind {α β : Type} (m : R α) (f : α → R β) : R β := fun r =>
  match m r with
  | .ok (a, r') => f a r'
  | .error e => .error e

/-- `do`-notation for the hand-written readers (`/repo/dash7/src/app/action.rs:160-240`). -/
instance : Monad R where
  pure := R.pure
  bind := R.bind

/-- `Err(e)`, e.g. `/repo/dash7/src/app/action.rs:237`. -/
def throw {α : Type} (e : Err) : R α := fun _ => .error e

/-- `Reader::end`: left-over bits present → not at the end; otherwise try to fetch one byte, which
becomes the left-over. Called at `/repo/dash7/src/app/command.rs:53`. -/
def atEnd (cfg : Cfg) : R Bool := fun r =>
  if r.left ≠ [] then .ok (false, r)
  else match r.data.drop r.pos with
    | [] => .ok (true, r)
    | b :: _ => .ok (false, { r with
        pos := r.pos + 1, left := natBits 8 b.toNat,
        bitsRead := if cfg.endCounts then r.bitsRead + 8 else r.bitsRead })

/-- `reader.seek_relative(-1)` with its result ignored: at position 0 the cursor refuses and stays.
`/repo/dash7/src/app/action.rs:171`. -/
def seekBack (cfg : Cfg) : R Unit := fun r =>
  .ok ((), { r with
    pos := r.pos - 1, left := if cfg.seekClears then [] else r.left })

/-- `reader.stream_position()`, i.e. `seek(SeekFrom::Current(0))`;
`/repo/dash7/src/app/command.rs:46`. -/
def streamPosition (cfg : Cfg) : R Nat := fun r =>
  .ok (r.pos, { r with left := if cfg.seekClears then [] else r.left })

end R

/-- Running a derive-generated reader on the concrete reader, as
`/repo/dash7/src/app/action.rs:154` does with the operands. -/
def P.run {α : Type} : P α → R α
  | .pure a => R.pure a
  | .fail f => R.throw (.fault f)
  | .bits n k => fun r =>
    match r.readBits n with
    | .ok (l, r') => (k l).run r'
    | .error e => .error e

/-! ## Writers -/

/-- What a writer appends to a `deku::writer::Writer`, e.g. the one made at
`/repo/dash7/src/app/command.rs:79`. -/
abbrev W := Except Err (List Bool)

namespace W

/-- Fields written one after the other, e.g. `/repo/dash7/src/app/operation/mod.rs:62-64`. -/
def seq : List W → W
  | [] => .ok []
  | w :: ws =>
    match w with
    | .error e => .error e
    | .ok b =>
      match seq ws with
      | .error e => .error e
      | .ok bs => .ok (b ++ bs)

/-- `DekuWriter<(Endian::Big, BitSize(n))>` of an unsigned `w`-bit integer: the low `n` bits;
more bits than the type has are refused. E.g. `/repo/dash7/src/app/operation/length.rs:70-75`. -/
def uint {w : Nat} (n : Nat) (v : BitVec w) : W :=
  if w < n then .error (.fault .invalidParam) else .ok (natBits n v.toNat)

/-- Whole-byte little-endian integer: `/repo/dash7/src/file/security_key.rs:6` on such a host. -/
def uintLE (k : Nat) (v : BitVec (8 * k)) : W :=
  .ok (bytesBits (packBits (natBits (8 * k) v.toNat)).reverse)

/-- Whole-byte integer field without `endian` attribute, e.g.
`/repo/dash7/src/file/security_key.rs:6`. -/
def uintHost (cfg : Cfg) (k : Nat) (v : BitVec (8 * k)) : W :=
  if cfg.bigEndianHost then uint (8 * k) v else uintLE k v

/-- `u8` (or `i8`) field, e.g. `/repo/dash7/src/app/operation/mod.rs:62`. -/
def u8 (v : U8) : W := uint 8 v

/-- `bool` field with `bits = 1`, e.g. `/repo/dash7/src/app/operation/mod.rs:95-96`. -/
def flag (b : Bool) : W := .ok [b]

/-- Padding is written as zeros, e.g. `/repo/dash7/src/app/query.rs:74`. -/
def pad (n : Nat) : W := .ok (List.replicate n false)

/-- `Vec<T>` or slice: all elements, e.g. `/repo/dash7/src/app/query.rs:120-121`. -/
def list {α : Type} (w : α → W) (l : List α) : W := seq (l.map w)

/-- `Option<T>`: the value if there is one, e.g.
`/repo/dash7/src/app/operation/mod.rs:535-536`. -/
def opt {α : Type} (w : α → W) : Option α → W
  | none => .ok []
  | some a => w a

/-- `writer.finalize()` and taking the bytes (`to_bytes`),
`/repo/dash7/src/app/command.rs:81-82`. -/
def toBytes (w : W) : Except Err (List U8) :=
  match w with
  | .error e => .error e
  | .ok bs => .ok (packBits bs)

end W

end Dash7
