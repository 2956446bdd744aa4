import Verif.Model.Action

/-!
# `dash7/src/app/command.rs`
-/

namespace Dash7

/-- `/repo/dash7/src/app/command.rs:23-32` (`Command`). -/
structure Command where
  actions : List Action
  deriving DecidableEq, Repr

namespace Command

/-- `/repo/dash7/src/app/command.rs:42-51` (`valid_length`). -/
def validLength (cfg : Cfg) (length : U32) : R Bool :=
  if length.toNat = 0 then R.pure true
  else (R.streamPosition cfg).bind fun p => R.pure (decide (p < length.toNat))

/-- `/repo/dash7/src/app/command.rs:54`: is the last action read an indirect forward? -/
def endsIndirect (acc : List Action) : Bool :=
  match acc.getLast? with
  | some (.indirectForward _) => true
  | _ => false

/-- `/repo/dash7/src/app/command.rs:53-59`: the reading loop. `fuel` bounds the number of
iterations; running out of it is made visible as a panic and shown not to happen. -/
def loop (cfg : Cfg) (length : U32) : Nat → List Action → R (List Action)
  | 0, _ => R.throw (.fault .panic)
  | fuel + 1, acc => do
    let valid ← validLength cfg length
    if !valid then R.pure acc
    else do
      let stop ← R.atEnd cfg
      if stop then R.pure acc
      else if endsIndirect acc then R.pure acc
      else do
        let a ← Action.read cfg
        loop cfg length fuel (acc ++ [a])

/-- `/repo/dash7/src/app/command.rs:34-62` (`DekuReader<u32> for Command`). -/
def read (cfg : Cfg) (length : U32) : R Command := fun r =>
  (loop cfg length (r.data.length + 1) []).bind (fun as => R.pure ⟨as⟩) r

/-- `/repo/dash7/src/app/command.rs:87-97` (`DekuWriter<u32> for Command`). -/
def write (cfg : Cfg) (c : Command) : W := W.list (Action.write cfg) c.actions

/-- `/repo/dash7/src/app/command.rs:65-70` (`Command::from_reader`). -/
def fromReader (cfg : Cfg) (data : List U8) (off : Nat) : Except Err (Nat × Command) :=
  Dash7.fromReader (read cfg 0) data off

/-- `/repo/dash7/src/app/command.rs:72-74` (`Command::from_bytes`). -/
def fromBytes (cfg : Cfg) (input : Rest) : Except Err (Rest × Command) :=
  Dash7.fromBytes (read cfg 0) input

/-- `/repo/dash7/src/app/command.rs:76-83` (`Command::to_bytes`), also
`/repo/dash7/src/app/command.rs:188-193` (`TryFrom<Command> for Vec<u8>`). -/
def toBytes (cfg : Cfg) (c : Command) : Except Err (List U8) := (c.write cfg).toBytes

/-- `/repo/dash7/src/app/command.rs:174-186` (`TryFrom<&[u8]>`). -/
def tryFrom (cfg : Cfg) (data : List U8) : Except Err Command :=
  match fromBytes cfg (data, 0) with
  | .error e => .error e
  | .ok (rest, c) => if rest.1 ≠ [] then .error (.fault .parse) else .ok c

/-- `/repo/dash7/src/app/command.rs:100-103` (`Command::new`). -/
def new (actions : List Action) : Command := ⟨actions⟩

/-- `/repo/dash7/src/app/command.rs:105-114` (`interface_status`): the `for` loop with early
return. -/
def interfaceStatusLoop : List Action → Option InterfaceStatus
  | [] => none
  | a :: as =>
    match a with
    | .status s =>
      match s.status with
      | .interface i => some i.status
      | _ => interfaceStatusLoop as
    | _ => interfaceStatusLoop as

/-- `/repo/dash7/src/app/command.rs:105-114` (`interface_status`). -/
def interfaceStatus (c : Command) : Option InterfaceStatus := interfaceStatusLoop c.actions

/-- `/repo/dash7/src/app/command.rs:117-128`: the `for` loop of
`actions_without_interface_status`. -/
def withoutInterfaceStatusLoop : List Action → List Action → List Action
  | acc, [] => acc
  | acc, a :: as =>
    match a with
    | .status s =>
      match s.status with
      | .interface _ => withoutInterfaceStatusLoop acc as
      | _ => withoutInterfaceStatusLoop (acc ++ [a]) as
    | _ => withoutInterfaceStatusLoop (acc ++ [a]) as

/-- `/repo/dash7/src/app/command.rs:117-128` (`actions_without_interface_status`). -/
def actionsWithoutInterfaceStatus (c : Command) : List Action :=
  withoutInterfaceStatusLoop [] c.actions

/-- `/repo/dash7/src/app/command.rs:131-135`: the `for` loop of `request_tag`. -/
def requestTagLoop : List Action → Option Op.RequestTag
  | [] => none
  | a :: as =>
    match a with
    | .requestTag o => some o
    | _ => requestTagLoop as

/-- `/repo/dash7/src/app/command.rs:130-137` (`request_tag`). -/
def requestTag (c : Command) : Option Op.RequestTag := requestTagLoop c.actions

/-- `/repo/dash7/src/app/command.rs:139-141` (`request_id`). -/
def requestId (c : Command) : Option U8 := c.requestTag.map (·.id)

/-- `/repo/dash7/src/app/command.rs:144-148`: the `for` loop of `response_tag`. -/
def responseTagLoop : List Action → Option Op.ResponseTag
  | [] => none
  | a :: as =>
    match a with
    | .responseTag o => some o
    | _ => responseTagLoop as

/-- `/repo/dash7/src/app/command.rs:143-150` (`response_tag`). -/
def responseTag (c : Command) : Option Op.ResponseTag := responseTagLoop c.actions

/-- `/repo/dash7/src/app/command.rs:152-154` (`response_id`). -/
def responseId (c : Command) : Option U8 := c.responseTag.map (·.id)

/-- `/repo/dash7/src/app/command.rs:156-158` (`tag_id`). -/
def tagId (c : Command) : Option U8 := c.requestId.or c.responseId

/-- `/repo/dash7/src/app/command.rs:161-169`: the `for` loop of `is_last_response`. -/
def isLastResponseLoop : List Action → Bool
  | [] => false
  | a :: as =>
    match a with
    | .responseTag o => o.header.endOfPacket
    | _ => isLastResponseLoop as

/-- `/repo/dash7/src/app/command.rs:160-171` (`is_last_response`). -/
def isLastResponse (c : Command) : Bool := isLastResponseLoop c.actions

/-- `/repo/dash7/src/app/command.rs:203-215`: the status word of `Display`. -/
def displayStatus (c : Command) : String :=
  match c.responseTag with
  | some o =>
    if o.header.endOfPacket then
      if o.header.error then "completed, with error" else "completed, without error"
    else "executing"
  | none => "executing"

/-- `/repo/dash7/src/app/command.rs:195-238` (`Display`). The `{:?}` of an action and the `{}` of an
interface status are parameters. -/
def display (dbg : Action → String) (itf : InterfaceStatus → String) (c : Command) : String :=
  let tagStr := match c.tagId with
    | some t => "with tag " ++ toString t.toNat ++ " "
    | none => ""
  let actions := c.actionsWithoutInterfaceStatus
  let acts := if actions.length > 0 then
      "\n\tactions:\n" ++ String.join (actions.map fun a => "\t\t" ++ dbg a ++ "\n")
    else ""
  let st := match c.interfaceStatus with
    | some s => (if actions.length > 0 then "\n" else "") ++ "\tinterface status: " ++ itf s ++ "\n"
    | none => ""
  "Command " ++ tagStr ++ "(" ++ c.displayStatus ++ ")" ++ acts ++ st

end Command
end Dash7
