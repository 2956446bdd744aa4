import Verif.Model.Debug

/-!
# What is written to the standard output: the `println!` in `utils::from_bytes` and those of `dash7-cli`

The functions here are those of `Model/Utils.lean`, `Model/Action.lean`, `Model/Command.lean` and `Model/Cli.lean`
once more, with what they write next to what they return. What goes to the standard error (the messages of `expect`) is
left out.
-/

namespace Dash7

/-- What a call writes to the standard output, and what it returns; for `/repo/dash7/src/utils.rs:63-82` and
`/repo/dash7-cli/src/parse.rs:39-120`. -/
structure Out (α : Type) where
  text : String
  result : Except Err α

/-- Nothing is written; e.g. the calls at `/repo/dash7-cli/src/parse.rs:40,46,58`. -/
def Out.quiet {α : Type} (r : Except Err α) : Out α := ⟨"", r⟩

/-- The operator `?`, e.g. `/repo/dash7-cli/src/parse.rs:52`: an error is returned at once, with what has been written so
far. -/
def Out.andThen {α β : Type} (m : Out α) (k : α → Out β) : Out β :=
  match m.result with
  | .ok a => ⟨m.text ++ (k a).text, (k a).result⟩
  | .error e => ⟨m.text, .error e⟩

/-- `/repo/dash7/src/utils.rs:76-79`: the line printed, of the value, the number of bits read and the input. -/
def traceLine (plain : Char → Bool) (value : Dbg) (bitsRead : Nat) (input : Rest) : String :=
  "value " ++ value.text plain ++ ", reader.bits_read " ++ (Dbg.num bitsRead).text plain ++ "  " ++
    (Dbg.pair (Dbg.bytes input.1) (.num input.2)).text plain ++ "\n"

/-- `/repo/dash7/src/utils.rs:63-82` (`from_bytes`), with its `println!` between reading and `pad_rest`. -/
def fromBytesOut {α : Type} (plain : Char → Bool) (dbg : α → Dbg) (m : R α) (input : Rest) : Out (Rest × α) :=
  match startAt input.2 m (Rd.new input.1) with
  | .error e => ⟨"", .error e⟩
  | .ok (a, r) =>
    ⟨traceLine plain (dbg a) r.bitsRead input,
      match padRest input r.bitsRead with
      | .ok rest => .ok (rest, a)
      | .error e => .error e⟩

/-- `/repo/dash7/src/app/action.rs:265-267` (`Action::from_bytes`). -/
def Action.fromBytesOut (plain : Char → Bool) (cfg : Cfg) (input : Rest) : Out (Rest × Action) :=
  Dash7.fromBytesOut plain (Dbg.action cfg) (Action.read cfg) input

/-- `/repo/dash7/src/app/action.rs:243-255` (`TryFrom<&[u8]>`). -/
def Action.tryFromOut (plain : Char → Bool) (cfg : Cfg) (data : List U8) : Out Action :=
  (Action.fromBytesOut plain cfg (data, 0)).andThen fun p =>
    .quiet (if p.1.1 ≠ [] then .error (.fault .parse) else .ok p.2)

/-- `/repo/dash7/src/app/command.rs:72-74` (`Command::from_bytes`). -/
def Command.fromBytesOut (plain : Char → Bool) (cfg : Cfg) (input : Rest) : Out (Rest × Command) :=
  Dash7.fromBytesOut plain (Dbg.command cfg) (Command.read cfg 0) input

/-- `/repo/dash7/src/app/command.rs:174-186` (`TryFrom<&[u8]>`). -/
def Command.tryFromOut (plain : Char → Bool) (cfg : Cfg) (data : List U8) : Out Command :=
  (Command.fromBytesOut plain cfg (data, 0)).andThen fun p =>
    .quiet (if p.1.1 ≠ [] then .error (.fault .parse) else .ok p.2)

/-- `/repo/dash7/src/file/mod.rs:215-221` (`File::from_bytes`). -/
def File.fromBytesOut (plain : Char → Bool) (cfg : Cfg) (input : Rest) (fid : FileId) (length : U32) :
    Out (Rest × File) := Dash7.fromBytesOut plain Dbg.file (File.read cfg fid length).run input

namespace Cli

/-- The `println!` at `/repo/dash7-cli/src/parse.rs:41,47,53,63`, followed by `Ok(())`. -/
def say (plain : Char → Bool) (cfg : Cfg) (p : Printed) : Out Printed := ⟨p.text plain cfg, .ok p⟩

/-- `/repo/dash7-cli/src/parse.rs:39-43` (`parse_foreground_frame`). The derived `try_from` prints nothing. -/
def parseForegroundFrameOut (plain : Char → Bool) (cfg : Cfg) (input : List U8) : Out Printed :=
  (Out.quiet (ForegroundFrame.tryFrom cfg input)).andThen fun f => say plain cfg (.foreground f)

/-- `/repo/dash7-cli/src/parse.rs:45-49` (`parse_background_frame`). The derived `try_from` prints nothing. -/
def parseBackgroundFrameOut (plain : Char → Bool) (cfg : Cfg) (input : List U8) : Out Printed :=
  (Out.quiet (BackgroundFrame.tryFrom cfg input)).andThen fun f => say plain cfg (.background f)

/-- `/repo/dash7-cli/src/parse.rs:51-55` (`parse_alp_command`). -/
def parseAlpCommandOut (plain : Char → Bool) (cfg : Cfg) (input : List U8) : Out Printed :=
  (Command.tryFromOut plain cfg input).andThen fun c => say plain cfg (.command c)

/-- `/repo/dash7-cli/src/parse.rs:57-59` (`parse_serial`). -/
def parseSerialOut (input : List U8) : Out Printed := .quiet (parseSerial input)

/-- `/repo/dash7-cli/src/parse.rs:61-65` (`parse_file`). -/
def parseFileOut (plain : Char → Bool) (cfg : Cfg) (input : List U8) (fid : FileId) : Out Printed :=
  (File.fromBytesOut plain cfg (input, 0) fid 0).andThen fun p => say plain cfg (.file p.1 p.2)

/-- The `is_ok` tests at `/repo/dash7-cli/src/parse.rs:70,78,81,84,87,90`: what the first attempt wrote stays written, and
the second is made unless the first succeeded (or panicked). -/
def orElseOut (a b : Out Printed) : Out Printed :=
  match a.result with
  | .ok _ => a
  | .error e => if isPanic e then a else ⟨a.text ++ b.text, b.result⟩

/-- `/repo/dash7-cli/src/parse.rs:68-74`: the loop over file ids. -/
def parseAnyFileLoopOut (plain : Char → Bool) (cfg : Cfg) (input : List U8) : List Nat → Out Printed
  | [] => .quiet (.ok .nothing)
  | i :: is =>
    orElseOut (parseFileOut plain cfg input (FileId.ofId (BitVec.ofNat 8 i))) (parseAnyFileLoopOut plain cfg input is)

/-- `/repo/dash7-cli/src/parse.rs:67-75` (`parse_any_file`). -/
def parseAnyFileOut (plain : Char → Bool) (cfg : Cfg) (input : List U8) : Out Printed :=
  parseAnyFileLoopOut plain cfg input (List.range 0x2F)

/-- `/repo/dash7-cli/src/parse.rs:77-95` (`parse_any`). -/
def parseAnyOut (plain : Char → Bool) (cfg : Cfg) (input : List U8) : Out Printed :=
  orElseOut (parseForegroundFrameOut plain cfg input) <|
  orElseOut (parseBackgroundFrameOut plain cfg input) <|
  orElseOut (parseAlpCommandOut plain cfg input) <|
  orElseOut (parseSerialOut input) <|
  orElseOut (parseAnyFileOut plain cfg input) <|
  .quiet (.error (.fault .parse))

/-- `/repo/dash7-cli/src/parse.rs:101-119`: the `match` on the type to parse, without the `expect`. -/
def runOut (plain : Char → Bool) (cfg : Cfg) (t : Option ParseType) (fileId : Option U8) (input : List U8) :
    Out Printed :=
  match t with
  | some .foreground => parseForegroundFrameOut plain cfg input
  | some .background => parseBackgroundFrameOut plain cfg input
  | some .alp => parseAlpCommandOut plain cfg input
  | some .serial => parseSerialOut input
  | some .systemfile =>
    match fileId with
    | some i => parseFileOut plain cfg input (FileId.ofId i)
    | none => parseAnyFileOut plain cfg input
  | none => parseAnyOut plain cfg input

/-- `/repo/dash7-cli/src/parse.rs:97-120` (`main`): what a run writes to the standard output, and how it ends. -/
def mainOut (plain : Char → Bool) (cfg : Cfg) (t : Option ParseType) (fileId : Option U8) (hex : String) :
    String × Outcome :=
  match hexDecode (removeWhitespace hex.toList) with
  | none => ("", .crash)
  | some input => ((runOut plain cfg t fileId input).text, expect (runOut plain cfg t fileId input).result)

end Cli
end Dash7
