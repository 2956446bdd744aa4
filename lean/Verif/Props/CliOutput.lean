import Verif.Props.Output

/-!
# C81: the whole output of a run of `dash7-cli`
-/

namespace Dash7
open Sample

/-- What `dash7-cli` itself means to print: the text of what it decoded (see C75), and nothing if it fails. -/
def Spec.shown (plain : Char → Bool) (cfg : Cfg) : Cli.Outcome → String
  | .printed p => p.text plain cfg
  | .crash => ""

/-- The line `Command::from_bytes` prints for this input. -/
def Spec.commandTrace (plain : Char → Bool) (cfg : Cfg) (input : List U8) : String :=
  Spec.traceOf (fun c => (Dbg.command cfg c).text plain) input 0 (Command.fromReader cfg input 0)

/-- The line `File::from_bytes` prints if a file is what was decoded: its bits are those not left over. -/
def Spec.fileTrace (plain : Char → Bool) (input : List U8) : Cli.Outcome → String
  | .printed (.file rest f) =>
    Spec.trace ((Dbg.file f).text plain) (8 * (input.length - rest.1.length) + rest.2) input 0
  | _ => ""

/-- Has the input been tried as a command? If asked for, or if asked for nothing and it is no frame. -/
def Spec.triedAsCommand (t : Option Cli.ParseType) : Cli.Outcome → Bool
  | .printed (.foreground _) => false
  | .printed (.background _) => false
  | _ => t = none ∨ t = some .alp

/-! ## The pieces -/

namespace Cli

theorem orElseOut_result (a b : Out Printed) : (orElseOut a b).result = orElse a.result b.result := by
  unfold orElseOut orElse
  cases h : a.result with
  | ok p => exact h
  | error e =>
    dsimp only
    split
    · exact h
    · rfl

theorem orElseOut_ok {a b : Out Printed} {p : Printed} (h : a.result = .ok p) : orElseOut a b = a := by
  unfold orElseOut
  rw [h]

theorem orElseOut_error {a b : Out Printed} {e : Err} (h : a.result = .error e) (he : Spec.Refusal e) :
    orElseOut a b = ⟨a.text ++ b.text, b.result⟩ := by
  unfold orElseOut
  rw [h]
  simp [Refusal.isPanic he]

theorem say_result {α : Type} (plain : Char → Bool) (cfg : Cfg) (m : Out α) (k : α → Printed) :
    (m.andThen fun a => say plain cfg (k a)).result = m.result.map k := by
  unfold Out.andThen
  cases h : m.result <;> rfl

theorem say_text {α : Type} (plain : Char → Bool) (cfg : Cfg) (m : Out α) (k : α → Printed) :
    (m.andThen fun a => say plain cfg (k a)).text =
      m.text ++ Spec.shown plain cfg (expect (m.result.map k)) := by
  unfold Out.andThen
  cases h : m.result with
  | ok a => rfl
  | error e => simp [Except.map, expect, Spec.shown]

theorem foreground_result (plain : Char → Bool) (cfg : Cfg) (input : List U8) :
    (parseForegroundFrameOut plain cfg input).result = parseForegroundFrame cfg input := by
  unfold parseForegroundFrameOut parseForegroundFrame
  rw [say_result, Out.quiet]
  cases ForegroundFrame.tryFrom cfg input <;> rfl

theorem foreground_text (plain : Char → Bool) (cfg : Cfg) (input : List U8) :
    (parseForegroundFrameOut plain cfg input).text =
      Spec.shown plain cfg (expect (parseForegroundFrame cfg input)) := by
  rw [← foreground_result plain cfg input]
  unfold parseForegroundFrameOut
  rw [say_text, say_result, Out.quiet, String.empty_append]

theorem background_result (plain : Char → Bool) (cfg : Cfg) (input : List U8) :
    (parseBackgroundFrameOut plain cfg input).result = parseBackgroundFrame cfg input := by
  unfold parseBackgroundFrameOut parseBackgroundFrame
  rw [say_result, Out.quiet]
  cases BackgroundFrame.tryFrom cfg input <;> rfl

theorem background_text (plain : Char → Bool) (cfg : Cfg) (input : List U8) :
    (parseBackgroundFrameOut plain cfg input).text =
      Spec.shown plain cfg (expect (parseBackgroundFrame cfg input)) := by
  rw [← background_result plain cfg input]
  unfold parseBackgroundFrameOut
  rw [say_text, say_result, Out.quiet, String.empty_append]

theorem alp_result (plain : Char → Bool) (cfg : Cfg) (input : List U8) :
    (parseAlpCommandOut plain cfg input).result = parseAlpCommand cfg input := by
  unfold parseAlpCommandOut parseAlpCommand
  rw [say_result, (C80_try_from_partial plain cfg input).2.2.1]
  cases Command.tryFrom cfg input <;> rfl

theorem alp_text (plain : Char → Bool) (cfg : Cfg) (input : List U8) :
    (parseAlpCommandOut plain cfg input).text =
      Spec.commandTrace plain cfg input ++ Spec.shown plain cfg (expect (parseAlpCommand cfg input)) := by
  rw [← alp_result plain cfg input]
  unfold parseAlpCommandOut
  rw [say_text, say_result, (C80_try_from_partial plain cfg input).2.2.2, (C80_command_partial plain cfg input 0).2]
  rfl

theorem file_result (plain : Char → Bool) (cfg : Cfg) (input : List U8) (fid : FileId) :
    (parseFileOut plain cfg input fid).result = parseFile cfg input fid := by
  unfold parseFileOut parseFile
  rw [say_result, (C80_file_partial plain cfg input 0 fid 0).1]
  cases fileFromBytes cfg (input, 0) fid 0 <;> rfl

theorem file_text (plain : Char → Bool) (cfg : Cfg) (input : List U8) (fid : FileId) :
    (parseFileOut plain cfg input fid).text =
      Spec.fileTrace plain input (expect (parseFile cfg input fid)) ++
        Spec.shown plain cfg (expect (parseFile cfg input fid)) := by
  rw [← file_result plain cfg input fid]
  unfold parseFileOut
  rw [say_text, say_result, (C80_file_partial plain cfg input 0 fid 0).2, (C80_file_partial plain cfg input 0 fid 0).1]
  congr 1
  unfold fileFromBytes Dash7.fromBytes Dash7.fromReader
  dsimp only
  rw [startAt_zero]
  match he : (File.read cfg fid 0).eval (bytesBits input) with
  | .error e =>
    rw [P.run_err _ (Rd.new_con input).toOK (by rw [Rd.new_rem]; exact he)]
    rfl
  | .ok (f, s') =>
    obtain ⟨r, hr, hb, -⟩ := P.run_new he
    rw [hr]
    dsimp only
    have hp : padRest (input, 0) r.bitsRead = .ok (input.drop (r.bitsRead / 8), r.bitsRead % 8) := by
      unfold padRest sliceFrom
      dsimp only
      split
      · rw [List.drop_eq_nil_of_le (by omega)]
      · rw [show (if r.bitsRead % 8 = 0 then r.bitsRead / 8 else (r.bitsRead - r.bitsRead % 8) / 8) = r.bitsRead / 8 by
          split <;> omega, if_pos (by omega)]
    rw [hp]
    simp only [Except.map, expect, Spec.fileTrace, Spec.traceOf, List.length_drop]
    congr 1
    omega

theorem fileTrace_error (plain : Char → Bool) (cfg : Cfg) (input : List U8) (e : Err) :
    Spec.fileTrace plain input (expect (.error e)) ++ Spec.shown plain cfg (expect (.error e)) = "" := rfl

theorem files_out (plain : Char → Bool) (cfg : Cfg) (input : List U8) (is : List Nat) :
    (parseAnyFileLoopOut plain cfg input is).result = parseAnyFileLoop cfg input is ∧
    (parseAnyFileLoopOut plain cfg input is).text =
      Spec.fileTrace plain input (expect (parseAnyFileLoop cfg input is)) ++
        Spec.shown plain cfg (expect (parseAnyFileLoop cfg input is)) := by
  induction is with
  | nil => exact ⟨rfl, rfl⟩
  | cons i is ih =>
    have hr := file_result plain cfg input (FileId.ofId (BitVec.ofNat 8 i))
    have ht := file_text plain cfg input (FileId.ofId (BitVec.ofNat 8 i))
    unfold parseAnyFileLoopOut parseAnyFileLoop
    generalize parseFileOut plain cfg input (FileId.ofId (BitVec.ofNat 8 i)) = o at hr ht
    rw [← hr] at ht ⊢
    unfold orElseOut
    cases h : o.result with
    | ok p => rw [h] at ht; exact ⟨h, ht⟩
    | error e =>
      rw [h, fileTrace_error] at ht
      dsimp only
      split
      · exact ⟨h, by rw [ht, fileTrace_error]⟩
      · refine ⟨ih.1, ?_⟩
        dsimp only
        rw [ht, String.empty_append]
        exact ih.2

theorem anyFile_out (plain : Char → Bool) (cfg : Cfg) (input : List U8) :
    (parseAnyFileOut plain cfg input).result = parseAnyFile cfg input ∧
    (parseAnyFileOut plain cfg input).text =
      Spec.fileTrace plain input (expect (parseAnyFile cfg input)) ++
        Spec.shown plain cfg (expect (parseAnyFile cfg input)) := files_out plain cfg input _

theorem any_result (plain : Char → Bool) (cfg : Cfg) (input : List U8) :
    (parseAnyOut plain cfg input).result = parseAny cfg input := by
  unfold parseAnyOut parseAny
  simp only [orElseOut_result, foreground_result, background_result, alp_result, (anyFile_out plain cfg input).1]
  rfl

theorem any_text (plain : Char → Bool) (cfg : Cfg) (input : List U8) :
    (parseAnyOut plain cfg input).text =
      (if Spec.triedAsCommand none (expect (parseAny cfg input)) then Spec.commandTrace plain cfg input else "") ++
      Spec.fileTrace plain input (expect (parseAny cfg input)) ++
        Spec.shown plain cfg (expect (parseAny cfg input)) := by
  unfold parseAnyOut parseAny
  have hf := foreground_result plain cfg input
  have tf := foreground_text plain cfg input
  have hb := background_result plain cfg input
  have tb := background_text plain cfg input
  have ha := alp_result plain cfg input
  have ta := alp_text plain cfg input
  obtain ⟨hs, ts⟩ := anyFile_out plain cfg input
  cases h1 : ForegroundFrame.tryFrom cfg input with
  | ok f =>
    have h : parseForegroundFrame cfg input = .ok (.foreground f) := by simp only [parseForegroundFrame, h1]
    rw [h] at hf tf
    rw [orElseOut_ok hf, tf, h]
    simp [orElse, expect, Spec.triedAsCommand, Spec.fileTrace]
  | error e =>
    have r1 := refusal_of (derivedTryFrom_total (ForegroundFrame.tame cfg) input) h1
    have h : parseForegroundFrame cfg input = .error e := by simp only [parseForegroundFrame, h1]
    rw [h] at hf tf
    rw [orElseOut_error hf r1, orElse_error h r1, tf]
    dsimp only
    cases h2 : BackgroundFrame.tryFrom cfg input with
    | ok f =>
      have h : parseBackgroundFrame cfg input = .ok (.background f) := by simp only [parseBackgroundFrame, h2]
      rw [h] at hb tb
      rw [orElseOut_ok hb, tb, h]
      simp [orElse, expect, Spec.triedAsCommand, Spec.fileTrace, Spec.shown]
    | error e =>
      have r2 := refusal_of (derivedTryFrom_total (.run (BackgroundFrame.safe cfg)) input) h2
      have h : parseBackgroundFrame cfg input = .error e := by simp only [parseBackgroundFrame, h2]
      rw [h] at hb tb
      rw [orElseOut_error hb r2, orElse_error h r2, tb]
      dsimp only
      cases h3 : Command.tryFrom cfg input with
      | ok c =>
        have h : parseAlpCommand cfg input = .ok (.command c) := by simp only [parseAlpCommand, h3]
        rw [h] at ha ta
        rw [orElseOut_ok ha, ta, h]
        simp [orElse, expect, Spec.triedAsCommand, Spec.fileTrace, Spec.shown]
      | error e =>
        have r3 := refusal_of (C04_command_total cfg input) h3
        have h : parseAlpCommand cfg input = .error e := by simp only [parseAlpCommand, h3]
        rw [h] at ha ta
        rw [orElseOut_error ha r3, orElse_error h r3, ta]
        dsimp only
        have r4 : Spec.Refusal (.fault .parse) := by simp [Spec.Refusal]
        rw [orElseOut_error (a := parseSerialOut input) (e := .fault .parse) rfl r4,
          orElse_error (a := parseSerial input) (e := .fault .parse) rfl r4]
        dsimp only
        rw [parseAnyFile_eq] at hs ts ⊢
        rw [orElseOut_ok hs, ts]
        split <;> simp [orElse, expect, Spec.triedAsCommand, Spec.shown, parseSerialOut, Out.quiet, String.append_assoc]

theorem run_out (plain : Char → Bool) (cfg : Cfg) (t : Option ParseType) (fid : Option U8) (input : List U8) :
    expect (runOut plain cfg t fid input).result = run cfg t fid input ∧
    (runOut plain cfg t fid input).text =
      (if Spec.triedAsCommand t (run cfg t fid input) then Spec.commandTrace plain cfg input else "") ++
      Spec.fileTrace plain input (run cfg t fid input) ++ Spec.shown plain cfg (run cfg t fid input) := by
  unfold runOut run
  cases t with
  | none => exact ⟨by rw [any_result], any_text plain cfg input⟩
  | some t =>
    cases t with
    | foreground =>
      refine ⟨by dsimp only; rw [foreground_result], ?_⟩
      dsimp only
      rw [foreground_text]
      unfold parseForegroundFrame
      cases ForegroundFrame.tryFrom cfg input <;> simp [expect, Spec.triedAsCommand, Spec.fileTrace]
    | background =>
      refine ⟨by dsimp only; rw [background_result], ?_⟩
      dsimp only
      rw [background_text]
      unfold parseBackgroundFrame
      cases BackgroundFrame.tryFrom cfg input <;> simp [expect, Spec.triedAsCommand, Spec.fileTrace]
    | alp =>
      refine ⟨by dsimp only; rw [alp_result], ?_⟩
      dsimp only
      rw [alp_text]
      unfold parseAlpCommand
      cases Command.tryFrom cfg input <;> simp [expect, Spec.triedAsCommand, Spec.fileTrace]
    | serial => exact ⟨rfl, rfl⟩
    | systemfile =>
      have key : ∀ o, (Spec.fileTrace plain input o ++ Spec.shown plain cfg o) =
          (if Spec.triedAsCommand (some .systemfile) o then Spec.commandTrace plain cfg input else "") ++
            Spec.fileTrace plain input o ++ Spec.shown plain cfg o := by
        intro o
        have : Spec.triedAsCommand (some .systemfile) o = false := by
          unfold Spec.triedAsCommand
          split <;> simp
        simp [this]
      cases fid with
      | none =>
        refine ⟨by dsimp only; rw [(anyFile_out plain cfg input).1], ?_⟩
        dsimp only
        rw [(anyFile_out plain cfg input).2, ← key]
      | some i =>
        refine ⟨by dsimp only; rw [file_result], ?_⟩
        dsimp only
        rw [file_text, ← key]

theorem parseForegroundFrame_ok {cfg : Cfg} {input : List U8} {p : Printed}
    (h : parseForegroundFrame cfg input = .ok p) : ∃ f, p = .foreground f := by
  unfold parseForegroundFrame at h
  split at h
  · cases h; exact ⟨_, rfl⟩
  · cases h

theorem parseBackgroundFrame_ok {cfg : Cfg} {input : List U8} {p : Printed}
    (h : parseBackgroundFrame cfg input = .ok p) : ∃ f, p = .background f := by
  unfold parseBackgroundFrame at h
  split at h
  · cases h; exact ⟨_, rfl⟩
  · cases h

theorem parseAlpCommand_ok {cfg : Cfg} {input : List U8} {p : Printed}
    (h : parseAlpCommand cfg input = .ok p) : ∃ c, p = .command c ∧ Command.tryFrom cfg input = .ok c := by
  unfold parseAlpCommand at h
  split at h
  · cases h; exact ⟨_, rfl, by assumption⟩
  · cases h

theorem parseFile_file {cfg : Cfg} {input : List U8} {fid : FileId} {p : Printed}
    (h : parseFile cfg input fid = .ok p) : ∃ rest f, p = .file rest f := by
  unfold parseFile at h
  split at h
  · cases h; exact ⟨_, _, rfl⟩
  · cases h

theorem parseAnyFile_file {cfg : Cfg} {input : List U8} {p : Printed}
    (h : parseAnyFile cfg input = .ok p) : ∃ rest f, p = .file rest f := by
  rw [parseAnyFile_eq] at h
  cases h
  split <;> exact ⟨_, _, rfl⟩

theorem expect_ok {e : Except Err Printed} {p : Printed} (h : expect e = .printed p) : e = .ok p := by
  cases e with
  | ok q => cases h; rfl
  | error e => cases h

/-- How a run that prints something can have come to it. -/
theorem run_printed {cfg : Cfg} {t : Option ParseType} {fid : Option U8} {input : List U8} {p : Printed}
    (h : run cfg t fid input = .printed p) :
    (∃ f, p = .foreground f) ∨ (∃ f, p = .background f) ∨
      (∃ c, p = .command c ∧ Command.tryFrom cfg input = .ok c ∧ (t = none ∨ t = some .alp)) ∨
      ∃ rest f, p = .file rest f := by
  unfold run at h
  split at h
  · exact .inl (parseForegroundFrame_ok (expect_ok h))
  · exact .inr (.inl (parseBackgroundFrame_ok (expect_ok h)))
  · obtain ⟨c, h1, h2⟩ := parseAlpCommand_ok (expect_ok h)
    exact .inr (.inr (.inl ⟨c, h1, h2, .inr rfl⟩))
  · cases expect_ok h
  · split at h
    · exact .inr (.inr (.inr (parseFile_file (expect_ok h))))
    · exact .inr (.inr (.inr (parseAnyFile_file (expect_ok h))))
  · rcases orElse_ok (expect_ok h) with h | h
    · exact .inl (parseForegroundFrame_ok h)
    rcases orElse_ok h with h | h
    · exact .inr (.inl (parseBackgroundFrame_ok h))
    rcases orElse_ok h with h | h
    · obtain ⟨c, h1, h2⟩ := parseAlpCommand_ok h
      exact .inr (.inr (.inl ⟨c, h1, h2, .inl rfl⟩))
    rcases orElse_ok h with h | h
    · cases h
    rcases orElse_ok h with h | h
    · exact .inr (.inr (.inr (parseAnyFile_file h)))
    · cases h

theorem run_command {cfg : Cfg} {t : Option ParseType} {fid : Option U8} {input : List U8} {c : Command}
    (h : run cfg t fid input = .printed (.command c)) :
    (t = none ∨ t = some .alp) ∧ Command.tryFrom cfg input = .ok c := by
  rcases run_printed h with ⟨f, h⟩ | ⟨f, h⟩ | ⟨d, h, h1, h2⟩ | ⟨r, f, h⟩ <;> cases h
  exact ⟨h2, h1⟩

end Cli

theorem Command.fromReader_of_tryFrom {cfg : Cfg} {data : List U8} {c : Command} (h : Command.tryFrom cfg data = .ok c) :
    ∃ n, Command.fromReader cfg data 0 = .ok (n, c) := by
  unfold Command.tryFrom at h
  cases hb : Command.fromBytes cfg (data, 0) with
  | error e => rw [hb] at h; cases h
  | ok p =>
    rw [hb] at h
    dsimp only at h
    split at h
    · cases h
    · cases h
      exact fromReader_of_fromBytes hb

/-! ## C81 -/

/-- **C81** Printing does not change how a run ends. -/
theorem C81_outcome (plain : Char → Bool) (cfg : Cfg) (t : Option Cli.ParseType) (fid : Option U8) (hex : String) :
    (Cli.mainOut plain cfg t fid hex).2 = Cli.main cfg t fid hex := by
  unfold Cli.mainOut Cli.main
  cases Cli.hexDecode (Cli.removeWhitespace hex.toList) with
  | none => rfl
  | some input => exact (Cli.run_out plain cfg t fid input).1

/-- **C81** (partial: there is more) All that a run writes to the standard output: the line of the command, if the input
has been tried as one and can be read as one, then the line of the file, if it is one, then the text of what was decoded. -/
theorem C81_output_partial (plain : Char → Bool) (cfg : Cfg) (t : Option Cli.ParseType) (fid : Option U8) (hex : String)
    (input : List U8) (h : Spec.Hex hex.toList input) :
    (Cli.mainOut plain cfg t fid hex).1 =
      (if Spec.triedAsCommand t (Cli.main cfg t fid hex) then Spec.commandTrace plain cfg input else "") ++
      Spec.fileTrace plain input (Cli.main cfg t fid hex) ++ Spec.shown plain cfg (Cli.main cfg t fid hex) := by
  unfold Cli.mainOut Cli.main
  rw [(Cli.decode_iff _ _).2 h]
  exact (Cli.run_out plain cfg t fid input).2

/-- **C81** Input that is not hexadecimal gives no output. -/
theorem C81_no_hex (plain : Char → Bool) (cfg : Cfg) (t : Option Cli.ParseType) (fid : Option U8) (hex : String)
    (h : ¬ ∃ input, Spec.Hex hex.toList input) : Cli.mainOut plain cfg t fid hex = ("", .crash) := by
  unfold Cli.mainOut
  split
  · rfl
  · rename_i bytes hd
    exact absurd ⟨bytes, (Cli.decode_iff _ _).1 hd⟩ h

/-- **C81** Asked for a frame or for serial data, or having decoded a frame, it prints the text of what it decoded and
nothing else. -/
theorem C81_frames (plain : Char → Bool) (cfg : Cfg) (t : Option Cli.ParseType) (fid : Option U8) (hex : String)
    (h : t = some .foreground ∨ t = some .background ∨ t = some .serial ∨
      (∃ f, Cli.main cfg t fid hex = .printed (.foreground f)) ∨ ∃ f, Cli.main cfg t fid hex = .printed (.background f)) :
    (Cli.mainOut plain cfg t fid hex).1 = Spec.shown plain cfg (Cli.main cfg t fid hex) := by
  by_cases hx : ∃ input, Spec.Hex hex.toList input
  · obtain ⟨input, hx⟩ := hx
    rw [C81_output_partial plain cfg t fid hex input hx]
    have hm : Cli.main cfg t fid hex = Cli.run cfg t fid input := C38_accepts cfg t fid hex input hx
    rcases h with rfl | rfl | rfl | ⟨f, h⟩ | ⟨f, h⟩
    · rw [hm]
      unfold Cli.run Cli.parseForegroundFrame
      cases ForegroundFrame.tryFrom cfg input <;> simp [Cli.expect, Spec.triedAsCommand, Spec.fileTrace]
    · rw [hm]
      unfold Cli.run Cli.parseBackgroundFrame
      cases BackgroundFrame.tryFrom cfg input <;> simp [Cli.expect, Spec.triedAsCommand, Spec.fileTrace]
    · rw [hm]
      rfl
    · rw [h]; simp [Spec.triedAsCommand, Spec.fileTrace]
    · rw [h]; simp [Spec.triedAsCommand, Spec.fileTrace]
  · have := C81_no_hex plain cfg t fid hex hx
    rw [this, C38_refuses cfg t fid hex hx]
    rfl

/-- **C81** fails: with every command, and with every file, a line that is not its text is printed first. -/
theorem C81_violates (plain : Char → Bool) (cfg : Cfg) (t : Option Cli.ParseType) (fid : Option U8) (hex : String) :
    (∀ c, Cli.main cfg t fid hex = .printed (.command c) → ∃ line, line ≠ "" ∧
      (Cli.mainOut plain cfg t fid hex).1 = line ++ Spec.shown plain cfg (.printed (.command c))) ∧
    (∀ rest f, Cli.main cfg t fid hex = .printed (.file rest f) → ∃ line, line ≠ "" ∧
      (Cli.mainOut plain cfg t fid hex).1 = line ++ Spec.shown plain cfg (.printed (.file rest f))) := by
  by_cases hx : ∃ input, Spec.Hex hex.toList input
  · obtain ⟨input, hx⟩ := hx
    rw [C81_output_partial plain cfg t fid hex input hx]
    refine ⟨fun c h => ?_, fun rest f h => ?_⟩
    · rw [h]
      rw [C38_accepts cfg t fid hex input hx] at h
      obtain ⟨ht, hc⟩ := Cli.run_command h
      obtain ⟨n, hn⟩ := Command.fromReader_of_tryFrom hc
      refine ⟨Spec.commandTrace plain cfg input, ?_, ?_⟩
      · unfold Spec.commandTrace
        rw [hn]
        exact Spec.trace_ne _ _ _ _
      · simp [Spec.triedAsCommand, ht, Spec.fileTrace]
    · rw [h]
      refine ⟨_, fun he => ?_, rfl⟩
      have := congrArg String.toList he
      rw [String.toList_append] at this
      have := (List.append_eq_nil_iff.1 this).2
      exact Spec.trace_ne _ _ _ _ (String.toList_inj.1 this)
  · rw [C38_refuses cfg t fid hex hx]
    exact ⟨fun _ h => (nomatch h), fun _ _ h => (nomatch h)⟩

/-- **C81** fails for runs that fail: an indirect forward with zeros behind it is not a command, but before the program
ends with an error, its text has been written. -/
theorem C81_failed_violates (plain : Char → Bool) (cfg : Cfg) :
    ∃ hex, Cli.main cfg (some .alp) none hex = .crash ∧ (Cli.mainOut plain cfg (some .alp) none hex).1 ≠ "" := by
  have hx : Cli.hexDecode (Cli.removeWhitespace "330000000000".toList) = some [0x33, 0, 0, 0, 0, 0] := by decide +kernel
  have key : ∀ cfg : Cfg, (Command.fromReader cfg [0x33, 0, 0, 0, 0, 0] 0).isOk = true ∧
      Command.tryFrom cfg [0x33, 0, 0, 0, 0, 0] = .error (.fault .parse) := by
    rintro ⟨v, a, b, c, d⟩
    cases v <;> revert a b c d <;> decide +kernel
  obtain ⟨h1, h2⟩ := key cfg
  have hm : Cli.main cfg (some .alp) none "330000000000" = .crash := by
    unfold Cli.main
    rw [hx]
    simp only [Cli.run, Cli.parseAlpCommand, h2, Cli.expect]
  refine ⟨_, hm, ?_⟩
  rw [C81_output_partial plain cfg _ _ _ _ ((Cli.decode_iff _ _).1 hx), hm]
  unfold Spec.commandTrace
  cases hr : Command.fromReader cfg [0x33, 0, 0, 0, 0, 0] 0 with
  | error e => rw [hr] at h1; cases h1
  | ok p =>
    simp only [Spec.triedAsCommand, Spec.fileTrace, Spec.shown, String.append_empty]
    exact Spec.trace_ne _ _ _ _

/-- **C81** fails for input of unknown kind: with one more zero the file that is reported comes behind the text of the
command it is not. -/
theorem C81_refused_violates (plain : Char → Bool) (cfg : Cfg) :
    ∃ hex input rest f n c more, Spec.Hex hex.toList input ∧ Cli.main cfg none none hex = .printed (.file rest f) ∧
      (∀ d, Command.tryFrom cfg input ≠ .ok d) ∧
      (Cli.mainOut plain cfg none none hex).1 = Spec.trace ((Dbg.command cfg c).text plain) n input 0 ++ more := by
  have hx : Cli.hexDecode (Cli.removeWhitespace "33000000000000".toList) = some [0x33, 0, 0, 0, 0, 0, 0] := by decide +kernel
  have key : ∀ cfg : Cfg, (Command.fromReader cfg [0x33, 0, 0, 0, 0, 0, 0] 0).isOk = true ∧
      Command.tryFrom cfg [0x33, 0, 0, 0, 0, 0, 0] = .error (.fault .parse) ∧
      Cli.run cfg none none [0x33, 0, 0, 0, 0, 0, 0] = .printed (.file ([0x33, 0, 0, 0, 0, 0, 0], 0) (.other [])) := by
    rintro ⟨v, a, b, c, d⟩
    cases v <;> revert a b c d <;> decide +kernel
  obtain ⟨h1, h2, h3⟩ := key cfg
  have hx := (Cli.decode_iff _ _).1 hx
  have hm := C38_accepts cfg none none _ _ hx
  rw [h3] at hm
  cases hr : Command.fromReader cfg [0x33, 0, 0, 0, 0, 0, 0] 0 with
  | error e => rw [hr] at h1; cases h1
  | ok p =>
    refine ⟨_, _, _, _, p.1, p.2, Spec.fileTrace plain [0x33, 0, 0, 0, 0, 0, 0] (.printed (.file ([0x33, 0, 0, 0, 0, 0, 0], 0) (.other []))) ++
      Spec.shown plain cfg (.printed (.file ([0x33, 0, 0, 0, 0, 0, 0], 0) (.other []))), hx, hm,
      ?_, ?_⟩
    · intro d hd
      rw [h2] at hd
      cases hd
    rw [C81_output_partial plain cfg _ _ _ _ hx, hm]
    unfold Spec.commandTrace
    rw [hr, String.append_assoc]
    rfl

/-! ## What the output tells -/

/-- Two texts standing for the same bytes. -/
def Spec.sameBytes (hex hex' : String) : Prop := ∃ input, Spec.Hex hex.toList input ∧ Spec.Hex hex'.toList input

/-- Two runs that ended alike, and if they decoded something, decoded the same: frames, or commands and files from the same
bytes. -/
def Spec.SameRun (hex hex' : String) : Cli.Outcome → Cli.Outcome → Prop
  | .crash, .crash => True
  | .printed (.foreground f), .printed (.foreground g) => f = g
  | .printed (.background f), .printed (.background g) => f = g
  | .printed (.command c), .printed (.command d) => c = d ∧ Spec.sameBytes hex hex'
  | .printed (.file r f), .printed (.file s g) => r = s ∧ f = g ∧ Spec.sameBytes hex hex'
  | _, _ => False

namespace Cli

/-- The kinds of output there are. -/
inductive Shape (plain : Char → Bool) (cfg : Cfg) (hex : String) : Outcome → String → Prop
  | empty : Shape plain cfg hex .crash ""
  | refused (c : Command) (n : Nat) (input : List U8) :
      Shape plain cfg hex .crash (traceLine plain (Dbg.command cfg c) n (input, 0) ++ "")
  | foreground (f : ForegroundFrame) (h : ∀ a ∈ f.frame.frame.command.actions, Spec.InBuild cfg a) :
      Shape plain cfg hex (.printed (.foreground f)) ((Printed.foreground f).text plain cfg)
  | background (f : BackgroundFrame) : Shape plain cfg hex (.printed (.background f)) ((Printed.background f).text plain cfg)
  | command (c : Command) (n : Nat) (input : List U8) (h : ∀ a ∈ c.actions, Spec.InBuild cfg a)
      (hx : Spec.Hex hex.toList input) : Shape plain cfg hex (.printed (.command c))
        (traceLine plain (Dbg.command cfg c) n (input, 0) ++ (Printed.command c).text plain cfg)
  | file (rest : Rest) (f : File) (n : Nat) (input : List U8) (hx : Spec.Hex hex.toList input) :
      Shape plain cfg hex (.printed (.file rest f))
        (traceLine plain (Dbg.file f) n (input, 0) ++ (Printed.file rest f).text plain cfg)
  | both (rest : Rest) (f : File) (c : Command) (m n : Nat) (input : List U8) (hx : Spec.Hex hex.toList input) :
      Shape plain cfg hex (.printed (.file rest f))
        (traceLine plain (Dbg.command cfg c) m (input, 0) ++
          (traceLine plain (Dbg.file f) n (input, 0) ++ (Printed.file rest f).text plain cfg))

theorem mainOut_shape (plain : Char → Bool) (cfg : Cfg) (t : Option ParseType) (fid : Option U8) (hex : String) :
    Shape plain cfg hex (main cfg t fid hex) (mainOut plain cfg t fid hex).1 := by
  by_cases hx : ∃ input, Spec.Hex hex.toList input
  · obtain ⟨input, hx⟩ := hx
    rw [C81_output_partial plain cfg t fid hex input hx, C38_accepts cfg t fid hex input hx]
    have hn : Spec.commandTrace plain cfg input = "" ∨
        ∃ c n, Spec.commandTrace plain cfg input = traceLine plain (Dbg.command cfg c) n (input, 0) := by
      unfold Spec.commandTrace
      cases Command.fromReader cfg input 0 with
      | error e => exact .inl rfl
      | ok p => exact .inr ⟨p.2, p.1, (traceLine_eq ..).symm⟩
    cases ho : run cfg t fid input with
    | crash =>
      simp only [Spec.fileTrace, Spec.shown, String.append_empty]
      split
      · rcases hn with hn | ⟨c, n, hn⟩
        · rw [hn]; exact .empty
        · rw [hn, ← String.append_empty (s := traceLine ..)]; exact .refused c n input
      · exact .empty
    | printed p =>
      have hb := run_inBuild ho
      rcases run_printed ho with ⟨f, rfl⟩ | ⟨f, rfl⟩ | ⟨c, rfl, h1, h2⟩ | ⟨r, f, rfl⟩
      · simp only [Spec.triedAsCommand, Bool.false_eq_true, if_false, Spec.fileTrace, String.empty_append]
        exact .foreground f hb
      · simp only [Spec.triedAsCommand, Bool.false_eq_true, if_false, Spec.fileTrace, String.empty_append]
        exact .background f
      · obtain ⟨n, hr⟩ := Command.fromReader_of_tryFrom h1
        have : Spec.commandTrace plain cfg input = traceLine plain (Dbg.command cfg c) n (input, 0) := by
          unfold Spec.commandTrace
          rw [hr, traceLine_eq]
          rfl
        simp only [Spec.triedAsCommand, h2, decide_true, if_true, Spec.fileTrace, String.append_empty, this]
        exact .command c n input hb hx
      · simp only [Spec.fileTrace, ← traceLine_eq]
        split
        · rcases hn with hn | ⟨c, n, hn⟩
          · rw [hn, String.empty_append]
            exact .file r f _ input hx
          · rw [hn, String.append_assoc]
            exact .both r f c n _ input hx
        · rw [String.empty_append]
          exact .file r f _ input hx
  · have h1 := C81_no_hex plain cfg t fid hex hx
    rw [h1, C38_refuses cfg t fid hex hx]
    exact .empty

theorem traceLine_head (plain : Char → Bool) (d : Dbg) (n : Nat) (i : Rest) (x : String) :
    (traceLine plain d n i ++ x).toList.head? = some 'v' := by
  simp [traceLine]

end Cli

/-- **C81** The output tells how the run ended and what was decoded, and for commands and files from which bytes: two runs,
with any options on any inputs, that write the same have decoded the same thing. -/
theorem C81_tells (plain : Char → Bool) (cfg : Cfg) (t t' : Option Cli.ParseType) (fid fid' : Option U8)
    (hex hex' : String) (h : (Cli.mainOut plain cfg t fid hex).1 = (Cli.mainOut plain cfg t' fid' hex').1) :
    Spec.SameRun hex hex' (Cli.main cfg t fid hex) (Cli.main cfg t' fid' hex') := by
  have s := Cli.mainOut_shape plain cfg t fid hex
  have s' := Cli.mainOut_shape plain cfg t' fid' hex'
  revert s s' h
  generalize (Cli.mainOut plain cfg t fid hex).1 = x
  generalize (Cli.mainOut plain cfg t' fid' hex').1 = y
  generalize Cli.main cfg t fid hex = o
  generalize Cli.main cfg t' fid' hex' = o'
  intro h s s'
  have cut : ∀ {a b : String}, a ++ "\n" = b ++ "\n" → a = b := fun e => String.append_left_inj _ |>.1 e
  have peel : ∀ {d d' : Dbg} {n n' : Nat} {i i' : Rest} {x y : String}, Dbg.ok d = true → Dbg.ok d' = true →
      traceLine plain d n i ++ x = traceLine plain d' n' i' ++ y → d = d' ∧ i = i' ∧ x = y := by
    intro d d' n n' i i' x y hd hd' he
    have := congrArg String.toList he
    rw [String.toList_append, String.toList_append] at this
    obtain ⟨h1, -, h3, h4⟩ := traceLine_inj hd hd' this
    exact ⟨h1, h3, String.toList_inj.1 h4⟩
  have same : ∀ {i i' : List U8}, (i, 0) = ((i', 0) : Rest) → i = i' := fun e => congrArg Prod.fst e
  have vp : ∀ {d n i x} {p : Cli.Printed}, traceLine plain d n i ++ x ≠ p.text plain cfg := by
    intro d n i x p he
    have := Cli.traceLine_head plain d n i x
    rw [he, Cli.Printed.text_head] at this
    cases p <;> simp [Cli.Printed.initial] at this
  have v0 : ∀ {d n i x}, traceLine plain d n i ++ x ≠ "" := by
    intro d n i x he
    have := Cli.traceLine_head plain d n i x
    rw [he] at this
    simp at this
  have pp : ∀ {p q : Cli.Printed}, p.text plain cfg = q.text plain cfg → p.initial = q.initial := by
    intro p q he
    rw [← Cli.Printed.text_head plain cfg, he, Cli.Printed.text_head]
  have p0 : ∀ {p : Cli.Printed}, p.text plain cfg = "" → p.initial = none := by
    intro p he
    rw [← Cli.Printed.text_head plain cfg, he]
    rfl
  cases s with
  | empty =>
    cases s' with
    | empty => trivial
    | refused => exact absurd h.symm v0
    | foreground => exact absurd (p0 h.symm) (by simp [Cli.Printed.initial])
    | background => exact absurd (p0 h.symm) (by simp [Cli.Printed.initial])
    | command => exact absurd h.symm v0
    | file => exact absurd h.symm v0
    | both => exact absurd h.symm v0
  | foreground f hf =>
    cases s' with
    | empty => exact absurd (p0 h) (by simp [Cli.Printed.initial])
    | refused => exact absurd h.symm vp
    | foreground g hg => exact C75_foreground plain cfg _ _ hf hg (cut h)
    | background => exact absurd (pp h) (by simp [Cli.Printed.initial])
    | command => exact absurd h.symm vp
    | file => exact absurd h.symm vp
    | both => exact absurd h.symm vp
  | background f =>
    cases s' with
    | empty => exact absurd (p0 h) (by simp [Cli.Printed.initial])
    | refused => exact absurd h.symm vp
    | foreground => exact absurd (pp h) (by simp [Cli.Printed.initial])
    | background => exact C75_background plain _ _ (cut h)
    | command => exact absurd h.symm vp
    | file => exact absurd h.symm vp
    | both => exact absurd h.symm vp
  | refused c n input =>
    cases s' with
    | empty => exact absurd h v0
    | refused => trivial
    | foreground => exact absurd h vp
    | background => exact absurd h vp
    | command => exact absurd (p0 (peel (Dbg.ok_command ..) (Dbg.ok_command ..) h).2.2.symm) (by simp [Cli.Printed.initial])
    | file => exact absurd (p0 (peel (Dbg.ok_command ..) (Dbg.ok_file ..) h).2.2.symm) (by simp [Cli.Printed.initial])
    | both => exact absurd (peel (Dbg.ok_command ..) (Dbg.ok_command ..) h).2.2.symm v0
  | command c n input hc hx =>
    cases s' with
    | empty => exact absurd h v0
    | refused => exact absurd (p0 (peel (Dbg.ok_command ..) (Dbg.ok_command ..) h).2.2) (by simp [Cli.Printed.initial])
    | foreground => exact absurd h vp
    | background => exact absurd h vp
    | command d n' input' hd hx' =>
      obtain ⟨e1, e2, -⟩ := peel (Dbg.ok_command ..) (Dbg.ok_command ..) h
      exact ⟨Dbg.command_inj hc hd e1, input, hx, same e2 ▸ hx'⟩
    | file => exact absurd (pp (peel (Dbg.ok_command ..) (Dbg.ok_file ..) h).2.2) (by simp [Cli.Printed.initial])
    | both => exact absurd (peel (Dbg.ok_command ..) (Dbg.ok_command ..) h).2.2.symm vp
  | file r f n input hx =>
    cases s' with
    | empty => exact absurd h v0
    | refused => exact absurd (p0 (peel (Dbg.ok_file ..) (Dbg.ok_command ..) h).2.2) (by simp [Cli.Printed.initial])
    | foreground => exact absurd h vp
    | background => exact absurd h vp
    | command => exact absurd (pp (peel (Dbg.ok_file ..) (Dbg.ok_command ..) h).2.2) (by simp [Cli.Printed.initial])
    | file r' f' n' input' hx' =>
      obtain ⟨-, e2, e3⟩ := peel (Dbg.ok_file ..) (Dbg.ok_file ..) h
      obtain ⟨h1, h2⟩ := Dbg.restAndFile_inj (Dbg.text_inj (Dbg.ok_restAndFile _ _) (Dbg.ok_restAndFile _ _) (cut e3))
      exact ⟨h1, h2, input, hx, same e2 ▸ hx'⟩
    | both => exact absurd (peel (Dbg.ok_file ..) (Dbg.ok_command ..) h).2.2.symm vp
  | both r f c m n input hx =>
    cases s' with
    | empty => exact absurd h v0
    | refused => exact absurd (peel (Dbg.ok_command ..) (Dbg.ok_command ..) h).2.2 v0
    | foreground => exact absurd h vp
    | background => exact absurd h vp
    | command => exact absurd (peel (Dbg.ok_command ..) (Dbg.ok_command ..) h).2.2 vp
    | file => exact absurd (peel (Dbg.ok_command ..) (Dbg.ok_file ..) h).2.2 vp
    | both r' f' c' m' n' input' hx' =>
      obtain ⟨-, e2, e3⟩ := peel (Dbg.ok_command ..) (Dbg.ok_command ..) h
      obtain ⟨-, -, e3⟩ := peel (Dbg.ok_file ..) (Dbg.ok_file ..) e3
      obtain ⟨h1, h2⟩ := Dbg.restAndFile_inj (Dbg.text_inj (Dbg.ok_restAndFile _ _) (Dbg.ok_restAndFile _ _) (cut e3))
      exact ⟨h1, h2, input, hx, same e2 ▸ hx'⟩

/-! ## Cases the theorems speak of -/

/-- A request tag on the command line: the run prints the command twice, and the first time in a line of its own. -/
example : Cli.main spec (some .alp) none "b4 07" = .printed (.command ⟨[.requestTag ⟨true, ⟨52⟩, 7⟩]⟩) ∧
    Spec.Hex "b4 07".toList [0xB4, 7] ∧
    ((Cli.mainOut (fun _ => true) spec (some .alp) none "b4 07").1.toList.filter (· = '\n')).length = 5 ∧
    (Cli.mainOut (fun _ => true) spec (some .alp) none "b4 07").1.toList.drop 131 =
      ", reader.bits_read 24  ([180, 7], 0)\nCommand with tag 7 (executing)\n\tactions:\n\t\tRequestTag(RequestTag { header: RequestTagHeader { end_of_packet: true }, opcode: OpCode(52), id: 7 })\n\n".toList :=
  ⟨by decide +kernel, (Cli.decode_iff _ _).1 (by decide +kernel), by decide +kernel, by decide +kernel⟩
/-- A text that is not hexadecimal, and a frame. -/
example : Cli.mainOut (fun _ => true) spec none none "b4 0" = ("", .crash) ∧
    (Cli.mainOut (fun _ => true) spec none none "010203040506").1 =
      "BackgroundFrame { subnet: 1, control: BackgroundFrameControl { address_type: NbId, tag_id: 2 }, payload: 1027, crc16: 1541 }\n" := by
  decide +kernel

#print axioms C81_outcome
#print axioms C81_output_partial
#print axioms C81_no_hex
#print axioms C81_frames
#print axioms C81_violates
#print axioms C81_failed_violates
#print axioms C81_refused_violates
#print axioms C81_tells

end Dash7
