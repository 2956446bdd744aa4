import Verif.Model.Frame

/-!
# `dash7-cli/src/parse.rs`
-/

namespace Dash7.Cli

/-- `char::is_whitespace` (Unicode `White_Space`), used at `/repo/dash7-cli/src/parse.rs:36`. -/
def isWhitespace (c : Char) : Bool :=
  let n := c.toNat
  (0x09 ≤ n && n ≤ 0x0D) || n == 0x20 || n == 0x85 || n == 0xA0 || n == 0x1680 ||
  (0x2000 ≤ n && n ≤ 0x200A) || n == 0x2028 || n == 0x2029 || n == 0x202F || n == 0x205F ||
  n == 0x3000

/-- `/repo/dash7-cli/src/parse.rs:35-37` (`remove_whitespace`), on the string's characters. -/
def removeWhitespace (s : List Char) : List Char := s.filter fun c => !isWhitespace c

/-- Value of a hexadecimal digit (the `hex` crate's `val`, behind `hex::decode` at
`/repo/dash7-cli/src/parse.rs:98`). -/
def hexVal (c : Char) : Option Nat :=
  let n := c.toNat
  if 0x30 ≤ n ∧ n ≤ 0x39 then some (n - 0x30)
  else if 0x41 ≤ n ∧ n ≤ 0x46 then some (n - 0x41 + 10)
  else if 0x61 ≤ n ∧ n ≤ 0x66 then some (n - 0x61 + 10)
  else none

/-- `hex::decode`, used at `/repo/dash7-cli/src/parse.rs:98`. The crate works on UTF-8 bytes and
reports odd lengths and non-digits; both are errors here, and a character outside ASCII is an error
either way. -/
def hexDecode : List Char → Option (List U8)
  | [] => some []
  | [_] => none
  | a :: b :: cs =>
    match hexVal a, hexVal b, hexDecode cs with
    | some x, some y, some bs => some (BitVec.ofNat 8 (16 * x + y) :: bs)
    | _, _, _ => none

/-- `/repo/dash7-cli/src/parse.rs:9-21` (`ParseType`). -/
inductive ParseType | foreground | background | alp | serial | systemfile
  deriving DecidableEq, Repr

/-- What a run prints (`println!` at `/repo/dash7-cli/src/parse.rs:41,47,53,63`). The text
itself is `Cli.Printed.text` in `Verif/Model/Debug.lean`. -/
inductive Printed
  | foreground (f : ForegroundFrame)
  | background (f : BackgroundFrame)
  | command (c : Command)
  | file (rest : Rest) (f : File)
  | nothing
  deriving DecidableEq, Repr

/-- `/repo/dash7-cli/src/parse.rs:39-43` (`parse_foreground_frame`). -/
def parseForegroundFrame (cfg : Cfg) (input : List U8) : Except Err Printed :=
  match ForegroundFrame.tryFrom cfg input with
  | .ok f => .ok (.foreground f)
  | .error e => .error e

/-- `/repo/dash7-cli/src/parse.rs:45-49` (`parse_background_frame`). -/
def parseBackgroundFrame (cfg : Cfg) (input : List U8) : Except Err Printed :=
  match BackgroundFrame.tryFrom cfg input with
  | .ok f => .ok (.background f)
  | .error e => .error e

/-- `/repo/dash7-cli/src/parse.rs:51-55` (`parse_alp_command`). -/
def parseAlpCommand (cfg : Cfg) (input : List U8) : Except Err Printed :=
  match Command.tryFrom cfg input with
  | .ok c => .ok (.command c)
  | .error e => .error e

/-- `/repo/dash7-cli/src/parse.rs:57-59` (`parse_serial`): always `DekuError::Assertion`, which the
model does not tell from `Parse`. -/
def parseSerial (_input : List U8) : Except Err Printed := .error (.fault .parse)

/-- `/repo/dash7/src/file/mod.rs:215-221` (`File::from_bytes`). -/
def fileFromBytes (cfg : Cfg) (input : Rest) (fid : FileId) (length : U32) :
    Except Err (Rest × File) := Dash7.fromBytes (File.read cfg fid length).run input

/-- `/repo/dash7-cli/src/parse.rs:61-65` (`parse_file`): the declared length is always 0. -/
def parseFile (cfg : Cfg) (input : List U8) (fid : FileId) : Except Err Printed :=
  match fileFromBytes cfg (input, 0) fid 0 with
  | .ok (rest, f) => .ok (.file rest f)
  | .error e => .error e

/-- Does the error unwind (a Rust panic) rather than being returned as `Err`, so that the
`is_ok` tests at `/repo/dash7-cli/src/parse.rs:70,78,81,84,87,90` are not reached? -/
def isPanic : Err → Bool
  | .fault .panic => true
  | _ => false

/-- `/repo/dash7-cli/src/parse.rs:68-73`: the loop over file ids; `FileId::try_from` never fails. A
panic would not be caught by `is_ok`. -/
def parseAnyFileLoop (cfg : Cfg) (input : List U8) : List Nat → Except Err Printed
  | [] => .ok .nothing
  | i :: is =>
    match parseFile cfg input (FileId.ofId (BitVec.ofNat 8 i)) with
    | .ok p => .ok p
    | .error e => if isPanic e then .error e else parseAnyFileLoop cfg input is

/-- `/repo/dash7-cli/src/parse.rs:67-75` (`parse_any_file`). -/
def parseAnyFile (cfg : Cfg) (input : List U8) : Except Err Printed :=
  parseAnyFileLoop cfg input (List.range 0x2F)

/-- Try one parser, go on with the next unless it succeeded (or panicked);
`/repo/dash7-cli/src/parse.rs:78-92`. -/
def orElse (a : Except Err Printed) (b : Except Err Printed) : Except Err Printed :=
  match a with
  | .ok p => .ok p
  | .error e => if isPanic e then .error e else b

/-- `/repo/dash7-cli/src/parse.rs:77-95` (`parse_any`). -/
def parseAny (cfg : Cfg) (input : List U8) : Except Err Printed :=
  orElse (parseForegroundFrame cfg input) <|
  orElse (parseBackgroundFrame cfg input) <|
  orElse (parseAlpCommand cfg input) <|
  orElse (parseSerial input) <|
  orElse (parseAnyFile cfg input) <|
  .error (.fault .parse)

/-- How a run of the program ends: it printed something, or it panicked (`expect`,
`/repo/dash7-cli/src/parse.rs:98-119`). -/
inductive Outcome
  | printed (p : Printed)
  | crash
  deriving DecidableEq, Repr

/-- `Result::expect`, `/repo/dash7-cli/src/parse.rs:103-119`. -/
def expect : Except Err Printed → Outcome
  | .ok p => .printed p
  | .error _ => .crash

/-- `/repo/dash7-cli/src/parse.rs:101-119`: the `match` on the type to parse. -/
def run (cfg : Cfg) (t : Option ParseType) (fileId : Option U8) (input : List U8) : Outcome :=
  match t with
  | some .foreground => expect (parseForegroundFrame cfg input)
  | some .background => expect (parseBackgroundFrame cfg input)
  | some .alp => expect (parseAlpCommand cfg input)
  | some .serial => expect (parseSerial input)
  | some .systemfile =>
    match fileId with
    | some i => expect (parseFile cfg input (FileId.ofId i))
    | none => expect (parseAnyFile cfg input)
  | none => expect (parseAny cfg input)

/-- `/repo/dash7-cli/src/parse.rs:97-120` (`main`). -/
def main (cfg : Cfg) (t : Option ParseType) (fileId : Option U8) (hex : String) : Outcome :=
  match hexDecode (removeWhitespace hex.toList) with
  | none => .crash
  | some input => run cfg t fileId input

end Dash7.Cli
