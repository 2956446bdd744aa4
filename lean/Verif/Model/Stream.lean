import Verif.Model.Items
import Verif.Model.Command

/-!
# `from_reader`: reading from a source of bytes that is used again afterwards
-/

namespace Dash7

/-- What is handed to `from_reader`, e.g. a `Cursor` or a file (`/repo/dash7/src/utils.rs:47-54`): its bytes, and
where it stands. -/
structure Source where
  data : List U8
  pos : Nat
  deriving DecidableEq, Repr

/-- `/repo/dash7/src/utils.rs:47-61` (`from_reader`), and the one deku derives: a new `Reader` on the source as it
stands. The source afterwards is part of the result; bits the reader kept back are lost with it. Where the source
stands after an error is not modelled. -/
def readSource {α : Type} (m : R α) (s : Source) (off : Nat) : Except Err (Nat × α × Source) :=
  match startAt off m ⟨s.data, s.pos, [], 0⟩ with
  | .ok (a, r) => .ok (r.bitsRead, a, ⟨r.data, r.pos⟩)
  | .error e => .error e

/-- `/repo/dash7/src/app/action.rs:258-263` (`Action::from_reader`). -/
def Action.fromSource (cfg : Cfg) (s : Source) (off : Nat) : Except Err (Nat × Action × Source) :=
  readSource (Action.read cfg) s off

/-- `/repo/dash7/src/app/command.rs:65-70` (`Command::from_reader`). -/
def Command.fromSource (cfg : Cfg) (s : Source) (off : Nat) : Except Err (Nat × Command × Source) :=
  readSource (Command.read cfg 0) s off

/-- The derived `DekuContainerRead::from_reader`; e.g. for `/repo/dash7/src/physical/mod.rs:101-106`. -/
def Item.fromSource (cfg : Cfg) (i : Item) (s : Source) (off : Nat) : Except Err (Nat × i.Val × Source) :=
  readSource (i.read cfg).run s off

/-- `/repo/dash7/src/transport/mod.rs:48-49` (derived `from_reader`; the length is 0 by `ctx_default`). -/
def Trans.Frame.fromSource (cfg : Cfg) (s : Source) (off : Nat) : Except Err (Nat × Trans.Frame × Source) :=
  readSource (Trans.Frame.read cfg 0) s off

/-- `/repo/dash7/src/network/network.rs:30-31` (derived `from_reader`; the length is 0 by `ctx_default`). -/
def Net.Frame.fromSource (cfg : Cfg) (s : Source) (off : Nat) : Except Err (Nat × Net.Frame × Source) :=
  readSource (Net.Frame.read cfg 0) s off

/-- `/repo/dash7/src/link/frame.rs:32` (derived `from_reader`). -/
def ForegroundFrame.fromSource (cfg : Cfg) (s : Source) (off : Nat) : Except Err (Nat × ForegroundFrame × Source) :=
  readSource (ForegroundFrame.read cfg) s off

end Dash7
