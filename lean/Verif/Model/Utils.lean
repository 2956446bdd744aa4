import Verif.Deku

/-!
# `dash7/src/utils.rs` (container helpers) and deku's derived `from_bytes` / `TryFrom`
-/

namespace Dash7

/-- Bytes left over together with a bit offset, as returned by `from_bytes`
(`/repo/dash7/src/utils.rs:66`). -/
abbrev Rest := List U8 × Nat

/-- Rust `&s[i..]`, `/repo/dash7/src/utils.rs:44`: panics when `i` exceeds the length. -/
def sliceFrom (s : List U8) (i : Nat) : Except Err (List U8) :=
  if i ≤ s.length then .ok (s.drop i) else .error (.fault .panic)

/-- `/repo/dash7/src/utils.rs:33-45` (`pad_rest`). -/
def padRest (rest : Rest) (bitsRead : Nat) : Except Err Rest :=
  if rest.1.length * 8 + rest.2 ≤ bitsRead then .ok ([], bitsRead % 8)
  else
    let idx := if bitsRead % 8 = 0 then bitsRead / 8 else (bitsRead - bitsRead % 8) / 8
    match sliceFrom rest.1 idx with
    | .ok s => .ok (s, bitsRead % 8)
    | .error e => .error e

/-- `/repo/dash7/src/utils.rs:55-59, 70-75`: skip `off` bits of a fresh reader, then read. -/
def startAt {α : Type} (off : Nat) (m : R α) : R α :=
  if off ≠ 0 then (P.pad off).run.bind fun _ => m else m

/-- `/repo/dash7/src/utils.rs:47-61` (`from_reader` on a cursor over `data`). -/
def fromReader {α : Type} (m : R α) (data : List U8) (off : Nat) : Except Err (Nat × α) :=
  match startAt off m (Rd.new data) with
  | .ok (a, r) => .ok (r.bitsRead, a)
  | .error e => .error e

/-- `/repo/dash7/src/utils.rs:63-82` (`from_bytes`); the `println!` is dropped
here and modelled in `Model/Output.lean`. -/
def fromBytes {α : Type} (m : R α) (input : Rest) : Except Err (Rest × α) :=
  match startAt input.2 m (Rd.new input.1) with
  | .error e => .error e
  | .ok (a, r) =>
    match padRest input r.bitsRead with
    | .ok rest => .ok (rest, a)
    | .error e => .error e

/-- deku derive, `DekuContainerRead::from_bytes` (DESIGN.md §1); generated e.g. for
`/repo/dash7/src/link/frame.rs:32-44`. -/
def derivedFromBytes {α : Type} (m : R α) (input : Rest) : Except Err (Rest × α) :=
  match startAt input.2 m (Rd.new input.1) with
  | .error e => .error e
  | .ok (a, r) =>
    match sliceFrom input.1 (r.bitsRead / 8) with
    | .ok s => .ok ((s, r.bitsRead % 8), a)
    | .error e => .error e

/-- deku derive, `TryFrom<&[u8]>` (DESIGN.md §1): all bytes must have been read. Used at
`/repo/dash7-cli/src/parse.rs:40,46`. -/
def derivedTryFrom {α : Type} (m : R α) (data : List U8) : Except Err α :=
  match m (Rd.new data) with
  | .error e => .error e
  | .ok (a, r) => if r.bitsRead / 8 ≠ data.length then .error (.fault .parse) else .ok a

/-! ## `read_array` with its drop guard -/

/-- `/repo/dash7/src/utils.rs:189-194`: the loop of `read_array`, `n` elements to go, with the drop
guard's `base_ptr` (as a slot index) and `initialized_count`. On an error the guard's `Drop`
(`/repo/dash7/src/utils.rs:22-31`) drops `count` slots from `base` on; those slots are returned. -/
def readArrayGo {α : Type} (p : P α) : (n base count : Nat) → List α → List Bool →
    Except (Err × List Nat) (List α × List Bool)
  | 0, _, _, acc, s => .ok (acc, s)
  | n + 1, base, count, acc, s =>
    match p.eval s with
    | .ok (a, s') => readArrayGo p n (base + 1) (count + 1) (acc ++ [a]) s'
    | .error e => .error (e, (List.range count).map (base + ·))

/-- `/repo/dash7/src/utils.rs:169-199` (`read_array`): on success the guard is forgotten. -/
def readArray {α : Type} (p : P α) (n : Nat) (s : List Bool) :
    Except (Err × List Nat) (List α × List Bool) := readArrayGo p n 0 0 [] s

end Dash7
