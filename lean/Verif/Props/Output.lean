import Verif.Model.Output
import Verif.Props.Debug
import Verif.Props.Cli
import Verif.Props.Accessors

/-!
# C80, C81: what decoding writes to the standard output
-/

namespace Dash7
open Sample

/-- The numbers of some bytes, with commas between them. -/
def Spec.listed (bytes : List U8) : String := ", ".intercalate (bytes.map fun b => toString b.toNat)

/-- The line printed for a value of this text, of which `bits` bits have been read from the bit `off` of `data`. -/
def Spec.trace (value : String) (bits : Nat) (data : List U8) (off : Nat) : String :=
  "value " ++ value ++ ", reader.bits_read " ++ toString bits ++ "  ([" ++ Spec.listed data ++ "], " ++ toString off ++ ")\n"

/-- What is printed of the result of reading: the line if there is a value, nothing if there is an error. -/
def Spec.traceOf {α : Type} (text : α → String) (data : List U8) (off : Nat) : Except Err (Nat × α) → String
  | .ok (n, a) => Spec.trace (text a) n data off
  | .error _ => ""

/-! ## The line -/

theorem Dbg.num_text (plain : Char → Bool) (n : Nat) : (Dbg.num n).text plain = toString n := by
  apply String.toList_inj.1
  rw [Dbg.text, String.toList_ofList, Dbg.chars, if_neg (by omega)]
  exact (Debug.nat_toList n).symm

theorem intercalate_cons (s a : List Char) (l : List (List Char)) :
    s.intercalate (a :: l) = a ++ l.flatMap fun b => s ++ b := by
  induction l generalizing a with
  | nil => simp [List.intercalate]
  | cons b l ih =>
    have := ih b
    unfold List.intercalate at this ⊢
    rw [List.intersperse_cons_cons, List.flatten_cons, List.flatten_cons, this]
    simp

theorem Dbg.more_listed (plain : Char → Bool) (bytes : List U8) :
    Dbg.more plain (bytes.map Dbg.uint) =
      ((bytes.map fun b => toString b.toNat).map String.toList).flatMap fun a => ", ".toList ++ a := by
  induction bytes with
  | nil => rfl
  | cons b bs ih =>
    have := Dbg.num_text plain b.toNat
    rw [Dbg.text] at this
    have hb : Dbg.chars plain (Dbg.uint b) = (toString b.toNat).toList := by
      rw [← this, String.toList_ofList]; rfl
    rw [List.map_cons, Dbg.more, ih, hb]
    simp

theorem Dbg.bytes_listed (plain : Char → Bool) (bytes : List U8) :
    Dbg.chars plain (Dbg.bytes bytes) = '[' :: ((Spec.listed bytes).toList ++ [']']) := by
  cases bytes with
  | nil => rfl
  | cons b bs =>
    have := Dbg.num_text plain b.toNat
    rw [Dbg.text] at this
    have hb : Dbg.chars plain (Dbg.uint b) = (toString b.toNat).toList := by
      rw [← this, String.toList_ofList]; rfl
    unfold Dbg.bytes Spec.listed
    rw [List.map_cons, Dbg.chars, List.map_cons, String.toList_intercalate, List.map_cons, intercalate_cons,
      Dbg.more_listed, hb]
    simp

theorem traceLine_eq (plain : Char → Bool) (d : Dbg) (n : Nat) (data : List U8) (off : Nat) :
    traceLine plain d n (data, off) = Spec.trace (d.text plain) n data off := by
  apply String.toList_inj.1
  unfold traceLine Spec.trace
  rw [Dbg.num_text]
  simp only [String.toList_append, Dbg.text, String.toList_ofList, Dbg.chars, Dbg.bytes_listed]
  simp

theorem traceLine_inj {plain : Char → Bool} {d d' : Dbg} {n n' : Nat} {i i' : Rest} {x y : List Char}
    (hd : Dbg.ok d = true) (hd' : Dbg.ok d' = true)
    (h : (traceLine plain d n i).toList ++ x = (traceLine plain d' n' i').toList ++ y) :
    d = d' ∧ n = n' ∧ i = i' ∧ x = y := by
  unfold traceLine at h
  simp only [String.toList_append, Dbg.text, String.toList_ofList, List.append_assoc] at h
  replace h := List.append_cancel_left h
  obtain ⟨h1, h⟩ := Dbg.chars_inj d d' _ _ hd hd' rfl rfl h
  replace h := List.append_cancel_left h
  obtain ⟨h2, h⟩ := Dbg.chars_inj (.num n) (.num n') _ _ rfl rfl rfl rfl h
  replace h := List.append_cancel_left h
  have hp : ∀ i : Rest, Dbg.ok (Dbg.pair (Dbg.bytes i.1) (.num i.2)) = true := fun i => by
    simp only [Dbg.ok, Dbg.ok_bytes, Bool.and_self]
  obtain ⟨h3, h⟩ := Dbg.chars_inj _ _ _ _ (hp i) (hp i') rfl rfl h
  replace h := List.append_cancel_left h
  have h4 : i.1 = i'.1 := Dbg.bytes_inj.1 (by injection h3)
  have h5 : i.2 = i'.2 := by injection h3 with _ h3; injection h3 with h3; exact Int.ofNat.inj h3
  exact ⟨h1, by injection h2 with h2; exact Int.ofNat.inj h2, Prod.ext h4 h5, h⟩

theorem traceLine_one_line {plain : Char → Bool} {d : Dbg} (hd : Dbg.ok d = true) (n : Nat) (i : Rest) :
    ∃ line, traceLine plain d n i = line ++ "\n" ∧ '\n' ∉ line.toList := by
  refine ⟨_, rfl, ?_⟩
  have hp : Dbg.ok (Dbg.pair (Dbg.bytes i.1) (.num i.2)) = true := by simp only [Dbg.ok, Dbg.ok_bytes, Bool.and_self]
  have h1 := Dbg.chars_line (plain := plain) d hd
  have h2 := Dbg.chars_line (plain := plain) (.num n) rfl
  have h3 := Dbg.chars_line (plain := plain) _ hp
  simp only [String.toList_append, Dbg.text, String.toList_ofList, List.mem_append, not_or]
  exact ⟨⟨⟨⟨⟨by decide, h1⟩, by decide⟩, h2⟩, by decide⟩, h3⟩

theorem fromBytesOut_result {α : Type} (plain : Char → Bool) (dbg : α → Dbg) (m : R α) (input : Rest) :
    (fromBytesOut plain dbg m input).result = fromBytes m input := by
  unfold fromBytesOut fromBytes
  cases startAt input.2 m (Rd.new input.1) <;> rfl

theorem fromBytesOut_text {α : Type} (plain : Char → Bool) (dbg : α → Dbg) (m : R α) (data : List U8) (off : Nat) :
    (fromBytesOut plain dbg m (data, off)).text =
      Spec.traceOf (fun a => (dbg a).text plain) data off (fromReader m data off) := by
  unfold fromBytesOut fromReader
  dsimp only
  cases startAt off m (Rd.new data) with
  | error e => rfl
  | ok p => exact traceLine_eq plain _ _ _ _

theorem fromReader_of_fromBytes {α : Type} {m : R α} {data : List U8} {off : Nat} {rest : Rest} {a : α}
    (h : fromBytes m (data, off) = .ok (rest, a)) : ∃ n, fromReader m data off = .ok (n, a) := by
  unfold fromBytes at h
  unfold fromReader
  dsimp only at h
  cases hs : startAt off m (Rd.new data) with
  | error e => rw [hs] at h; cases h
  | ok p =>
    obtain ⟨b, r⟩ := p
    rw [hs] at h
    dsimp only at h
    split at h
    · cases h; exact ⟨_, rfl⟩
    · cases h

theorem Spec.trace_ne (value : String) (n : Nat) (data : List U8) (off : Nat) : Spec.trace value n data off ≠ "" := by
  intro h
  have := congrArg String.toList h
  simp [Spec.trace] at this

/-! ## C80 -/

/-- **C80** (partial: it prints) `Action::from_bytes` returns what the model without printing says. It prints one line if
the action can be read, with the value, the number of bits read and the input, and nothing otherwise. -/
theorem C80_action_partial (plain : Char → Bool) (cfg : Cfg) (data : List U8) (off : Nat) :
    (Action.fromBytesOut plain cfg (data, off)).result = Action.fromBytes cfg (data, off) ∧
    (Action.fromBytesOut plain cfg (data, off)).text =
      Spec.traceOf (fun a => (Dbg.action cfg a).text plain) data off (Action.fromReader cfg data off) :=
  ⟨fromBytesOut_result .., fromBytesOut_text ..⟩

/-- **C80** (partial: it prints) The same for `Command::from_bytes`. -/
theorem C80_command_partial (plain : Char → Bool) (cfg : Cfg) (data : List U8) (off : Nat) :
    (Command.fromBytesOut plain cfg (data, off)).result = Command.fromBytes cfg (data, off) ∧
    (Command.fromBytesOut plain cfg (data, off)).text =
      Spec.traceOf (fun c => (Dbg.command cfg c).text plain) data off (Command.fromReader cfg data off) :=
  ⟨fromBytesOut_result .., fromBytesOut_text ..⟩

/-- **C80** (partial: it prints) The same for `File::from_bytes`. -/
theorem C80_file_partial (plain : Char → Bool) (cfg : Cfg) (data : List U8) (off : Nat) (fid : FileId) (length : U32) :
    (File.fromBytesOut plain cfg (data, off) fid length).result = Cli.fileFromBytes cfg (data, off) fid length ∧
    (File.fromBytesOut plain cfg (data, off) fid length).text =
      Spec.traceOf (fun f => (Dbg.file f).text plain) data off (fromReader (File.read cfg fid length).run data off) :=
  ⟨fromBytesOut_result .., fromBytesOut_text ..⟩

theorem Out.andThen_quiet {α β : Type} (m : Out α) (k : α → Except Err β) :
    (m.andThen fun a => .quiet (k a)).text = m.text := by
  unfold Out.andThen
  split
  · simp [Out.quiet]
  · rfl

/-- **C80** (partial: it prints) `try_from` of actions and commands returns what the model without printing says, and
prints what `from_bytes` does. -/
theorem C80_try_from_partial (plain : Char → Bool) (cfg : Cfg) (data : List U8) :
    (Action.tryFromOut plain cfg data).result = Action.tryFrom cfg data ∧
    (Action.tryFromOut plain cfg data).text = (Action.fromBytesOut plain cfg (data, 0)).text ∧
    (Command.tryFromOut plain cfg data).result = Command.tryFrom cfg data ∧
    (Command.tryFromOut plain cfg data).text = (Command.fromBytesOut plain cfg (data, 0)).text := by
  refine ⟨?_, Out.andThen_quiet _ _, ?_, Out.andThen_quiet _ _⟩
  · have h := (C80_action_partial plain cfg data 0).1
    unfold Action.tryFromOut Action.tryFrom Out.andThen
    rw [h]
    cases Action.fromBytes cfg (data, 0) <;> rfl
  · have h := (C80_command_partial plain cfg data 0).1
    unfold Command.tryFromOut Command.tryFrom Out.andThen
    rw [h]
    cases Command.fromBytes cfg (data, 0) <;> rfl

/-- **C80** fails: whenever they succeed, `from_bytes` of actions, commands and files write to the standard output of the
program they are used in. -/
theorem C80_violates (plain : Char → Bool) (cfg : Cfg) (data : List U8) (off : Nat) :
    (∀ rest a, Action.fromBytes cfg (data, off) = .ok (rest, a) →
      (Action.fromBytesOut plain cfg (data, off)).text ≠ "") ∧
    (∀ rest c, Command.fromBytes cfg (data, off) = .ok (rest, c) →
      (Command.fromBytesOut plain cfg (data, off)).text ≠ "") ∧
    (∀ fid length rest f, Cli.fileFromBytes cfg (data, off) fid length = .ok (rest, f) →
      (File.fromBytesOut plain cfg (data, off) fid length).text ≠ "") := by
  refine ⟨fun rest a h => ?_, fun rest a h => ?_, fun fid length rest f h => ?_⟩
  · obtain ⟨n, hn⟩ := fromReader_of_fromBytes h
    rw [(C80_action_partial plain cfg data off).2, show Action.fromReader cfg data off = _ from hn]
    exact Spec.trace_ne _ _ _ _
  · obtain ⟨n, hn⟩ := fromReader_of_fromBytes h
    rw [(C80_command_partial plain cfg data off).2, show Command.fromReader cfg data off = _ from hn]
    exact Spec.trace_ne _ _ _ _
  · obtain ⟨n, hn⟩ := fromReader_of_fromBytes h
    rw [(C80_file_partial plain cfg data off fid length).2, hn]
    exact Spec.trace_ne _ _ _ _

/-- **C80** fails also for input that is refused: an indirect forward (to a host, without overload) ends the command, the
bytes behind it are too much, and the command is printed although `try_from` returns an error. -/
theorem C80_refused_violates (plain : Char → Bool) (cfg : Cfg) :
    ∃ data e, Command.tryFrom cfg data = .error e ∧ (Command.tryFromOut plain cfg data).text ≠ "" := by
  have key : ∀ cfg : Cfg, (Command.fromBytes cfg ([0x33, 0, 0, 0, 0, 0], 0)).isOk = true ∧
      Command.tryFrom cfg [0x33, 0, 0, 0, 0, 0] = .error (.fault .parse) := by
    rintro ⟨v, a, b, c, d⟩
    cases v <;> revert a b c d <;> decide +kernel
  obtain ⟨h1, h2⟩ := key cfg
  refine ⟨[0x33, 0, 0, 0, 0, 0], _, h2, ?_⟩
  rw [(C80_try_from_partial plain cfg _).2.2.2]
  cases hb : Command.fromBytes cfg ([0x33, 0, 0, 0, 0, 0], 0) with
  | error e => rw [hb] at h1; cases h1
  | ok p => exact (C80_violates plain cfg _ _).2.1 p.1 p.2 hb

/-- **C80** What is printed is one line. -/
theorem C80_one_line (plain : Char → Bool) (cfg : Cfg) (n : Nat) (data : List U8) (off : Nat) :
    (∀ a, ∃ line, Spec.trace ((Dbg.action cfg a).text plain) n data off = line ++ "\n" ∧ '\n' ∉ line.toList) ∧
    (∀ c, ∃ line, Spec.trace ((Dbg.command cfg c).text plain) n data off = line ++ "\n" ∧ '\n' ∉ line.toList) ∧
    (∀ f, ∃ line, Spec.trace ((Dbg.file f).text plain) n data off = line ++ "\n" ∧ '\n' ∉ line.toList) := by
  simp only [← traceLine_eq]
  exact ⟨fun a => traceLine_one_line (Dbg.ok_action cfg a) _ _, fun c => traceLine_one_line (Dbg.ok_command cfg c) _ _,
    fun f => traceLine_one_line (Dbg.ok_file f) _ _⟩

/-- **C80** The line tells all: the value, the number of bits and the input. -/
theorem C80_tells (plain : Char → Bool) (cfg : Cfg) (n n' : Nat) (data data' : List U8) (off off' : Nat) :
    (∀ a b, Spec.InBuild cfg a → Spec.InBuild cfg b →
      Spec.trace ((Dbg.action cfg a).text plain) n data off = Spec.trace ((Dbg.action cfg b).text plain) n' data' off' →
      a = b ∧ n = n' ∧ data = data' ∧ off = off') ∧
    (∀ c d : Command, (∀ a ∈ c.actions, Spec.InBuild cfg a) → (∀ a ∈ d.actions, Spec.InBuild cfg a) →
      Spec.trace ((Dbg.command cfg c).text plain) n data off = Spec.trace ((Dbg.command cfg d).text plain) n' data' off' →
      c = d ∧ n = n' ∧ data = data' ∧ off = off') ∧
    (∀ f g, Spec.trace ((Dbg.file f).text plain) n data off = Spec.trace ((Dbg.file g).text plain) n' data' off' →
      f = g ∧ n = n' ∧ data = data' ∧ off = off') := by
  simp only [← traceLine_eq]
  have key : ∀ {d d' : Dbg}, Dbg.ok d = true → Dbg.ok d' = true →
      traceLine plain d n (data, off) = traceLine plain d' n' (data', off') →
      d = d' ∧ n = n' ∧ data = data' ∧ off = off' := by
    intro d d' hd hd' h
    obtain ⟨h1, h2, h3, -⟩ := traceLine_inj (x := []) (y := []) hd hd' (by rw [h])
    cases h3
    exact ⟨h1, h2, rfl, rfl⟩
  refine ⟨fun a b ha hb h => ?_, fun c d hc hd h => ?_, fun f g h => ?_⟩
  · obtain ⟨h1, h2⟩ := key (Dbg.ok_action cfg a) (Dbg.ok_action cfg b) h
    exact ⟨Dbg.action_inj ha hb h1, h2⟩
  · obtain ⟨h1, h2⟩ := key (Dbg.ok_command cfg c) (Dbg.ok_command cfg d) h
    exact ⟨Dbg.command_inj hc hd h1, h2⟩
  · obtain ⟨h1, h2⟩ := key (Dbg.ok_file f) (Dbg.ok_file g) h
    exact ⟨Dbg.file_inj.1 h1, h2⟩

/-- The line for an action in the middle of a byte string, and for an action that is not there. -/
example : Spec.trace "x" 5 [1, 2] 3 = "value x, reader.bits_read 5  ([1, 2], 3)\n" ∧
    (Action.fromBytesOut (fun _ => true) spec ([0xB4, 7, 9], 0)).text =
      "value RequestTag(RequestTag { header: RequestTagHeader { end_of_packet: true }, opcode: OpCode(52), id: 7 }), reader.bits_read 24  ([180, 7, 9], 0)\n" ∧
    (Action.fromBytesOut (fun _ => true) spec ([0xB4], 0)).text = "" := by decide +kernel
example : Command.fromBytes spec ([0xB4, 7], 0) = .ok (([], 0), ⟨[Sample.tag]⟩) := by decide +kernel

#print axioms C80_action_partial
#print axioms C80_command_partial
#print axioms C80_file_partial
#print axioms C80_try_from_partial
#print axioms C80_violates
#print axioms C80_refused_violates
#print axioms C80_one_line
#print axioms C80_tells

end Dash7
