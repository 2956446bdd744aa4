import Verif.Model.Stream

/-!
# What is expected of reading from a source that is used again
-/

namespace Dash7

/-- The source as if it began where it stands. -/
def Source.ahead (s : Source) : Source := ⟨s.data.drop s.pos, 0⟩

/-- A result for `s.ahead`, told of `s`: the same count, value or error, and as many bytes gone on. -/
def Source.result {α : Type} (s : Source) : Except Err (Nat × α × Source) → Except Err (Nat × α × Source)
  | .ok (count, a, t) => .ok (count, a, ⟨s.data, s.pos + t.pos⟩)
  | .error e => .error e

namespace Spec

/-- Values of several types, read one after the other by as many calls of `from_reader` on one source. -/
def readItems (cfg : Cfg) : List Item → Source → Except Err (List (Σ i : Item, i.Val) × Source)
  | [], s => .ok ([], s)
  | i :: is, s =>
    match i.fromSource cfg s 0 with
    | .error e => .error e
    | .ok (_, v, s') =>
      match readItems cfg is s' with
      | .error e => .error e
      | .ok (vs, s'') => .ok (⟨i, v⟩ :: vs, s'')

/-- What `to_bytes` gives for each of some values, one after the other. -/
def writeItems (cfg : Cfg) : List (Σ i : Item, i.Val) → Except Err (List U8)
  | [] => .ok []
  | v :: vs =>
    match v.1.toBytes cfg v.2 with
    | .error e => .error e
    | .ok b =>
      match writeItems cfg vs with
      | .error e => .error e
      | .ok bs => .ok (b ++ bs)

/-- What `to_bytes` gives for each of some actions, one after the other. -/
def writeActions (cfg : Cfg) : List Action → Except Err (List U8)
  | [] => .ok []
  | a :: as =>
    match a.toBytes cfg with
    | .error e => .error e
    | .ok b =>
      match writeActions cfg as with
      | .error e => .error e
      | .ok bs => .ok (b ++ bs)

/-- So many actions, read one after the other by as many calls of `from_reader` on one source. -/
def readActions (cfg : Cfg) : Nat → Source → Except Err (List Action × Source)
  | 0, s => .ok ([], s)
  | n + 1, s =>
    match Action.fromSource cfg s 0 with
    | .error e => .error e
    | .ok (_, a, s') =>
      match readActions cfg n s' with
      | .error e => .error e
      | .ok (as, s'') => .ok (a :: as, s'')

end Spec
end Dash7
