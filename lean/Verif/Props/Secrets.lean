import Verif.Props.Output

/-!
# C90: keys and tokens that are received are written to the standard output
-/

namespace Dash7
open Sample

/-! ## What is secret, and what it means to give it away -/

/-- The text `s` can be read in the text `t`. -/
def Spec.ReadIn (s t : String) : Prop := ∃ before after, t = before ++ s ++ after

/-- The secret of a file: the network key, a number of 128 bits. -/
def Spec.fileSecrets : File → List String
  | .nwlSecurityKey k => ["key: " ++ toString k.key.toNat]
  | _ => []

/-- The secrets of an interface configuration: the keys of LoRaWAN. -/
def Spec.interfaceSecrets : InterfaceConfiguration → List String
  | .loRaWanABP c =>
    ["network_session_key: [" ++ Spec.listed c.networkSessionKey ++ "]",
      "app_session_key: [" ++ Spec.listed c.appSessionKey ++ "]"]
  | .loRaWanOTAA c => ["app_key: [" ++ Spec.listed c.appKey ++ "]"]
  | _ => []

/-- The secrets of an action, in the clear: keys written to files or returned from them, the token of a permission request,
the keys of the interface it forwards to. -/
def Spec.secrets : Action → List String
  | .writeFileData o | .writeFileDataFlush o | .returnFileData o => Spec.fileSecrets o.data
  | .permissionRequest ⟨_, _, _, .dash7 token⟩ => ["permission: Dash7([" ++ Spec.listed token.toList ++ "])"]
  | .forward o => Spec.interfaceSecrets o.configuration
  | _ => []

/-! ## Texts inside texts -/

theorem Spec.ReadIn.of_toList {s t : String} (h : s.toList <:+: t.toList) : Spec.ReadIn s t := by
  obtain ⟨b, a, h⟩ := h
  exact ⟨String.ofList b, String.ofList a, String.toList_inj.1 (by simp [← h])⟩

theorem Spec.ReadIn.toList {s t : String} (h : Spec.ReadIn s t) : s.toList <:+: t.toList := by
  obtain ⟨b, a, h⟩ := h
  exact ⟨b.toList, a.toList, by simp [h]⟩

theorem Spec.ReadIn.trans {r s t : String} (h : Spec.ReadIn r s) (h' : Spec.ReadIn s t) : Spec.ReadIn r t :=
  .of_toList (h.toList.trans h'.toList)

namespace Dbg

theorem infix_eq {l l' : List Char} (h : l = l') : l <:+: l' := ⟨[], [], by simp [h]⟩

theorem readIn {plain : Char → Bool} {d : Dbg} {s : String} (h : s.toList <:+: chars plain d) :
    Spec.ReadIn s (d.text plain) := .of_toList (by rw [text, String.toList_ofList]; exact h)

theorem infix_tuple (plain : Char → Bool) (n : String) (d : Dbg) : chars plain d <:+: chars plain (.tuple n d) :=
  ⟨n.toList ++ ['('], [')'], by simp [chars]⟩

theorem infix_more {plain : Char → Bool} {ds : List Dbg} {d : Dbg} (h : d ∈ ds) :
    chars plain d <:+: more plain ds := by
  induction ds with
  | nil => cases h
  | cons e ds ih =>
    rcases List.mem_cons.1 h with rfl | h
    · exact ⟨[',', ' '], more plain ds, by simp [more]⟩
    · obtain ⟨b, a, hb⟩ := ih h
      exact ⟨[',', ' '] ++ (chars plain e ++ b), a, by rw [more, ← hb]; simp⟩

theorem infix_list {plain : Char → Bool} {ds : List Dbg} {d : Dbg} (h : d ∈ ds) :
    chars plain d <:+: chars plain (.list ds) := by
  cases ds with
  | nil => cases h
  | cons e ds =>
    rcases List.mem_cons.1 h with rfl | h
    · exact ⟨['['], more plain ds ++ [']'], by simp [chars]⟩
    · obtain ⟨b, a, hb⟩ := infix_more (plain := plain) h
      exact ⟨'[' :: (chars plain e ++ b), a ++ [']'], by rw [chars, ← hb]; simp⟩

theorem infix_moreFields {plain : Char → Bool} {fs : List (String × Dbg)} {f : String} {d : Dbg} (h : (f, d) ∈ fs) :
    f.toList ++ ([':', ' '] ++ chars plain d) <:+: moreFields plain fs := by
  induction fs with
  | nil => cases h
  | cons e fs ih =>
    obtain ⟨g, e⟩ := e
    rcases List.mem_cons.1 h with h | h
    · cases h; exact ⟨[',', ' '], moreFields plain fs, by simp [moreFields]⟩
    · obtain ⟨b, a, hb⟩ := ih h
      exact ⟨[',', ' '] ++ (g.toList ++ ([':', ' '] ++ (chars plain e ++ b))), a, by rw [moreFields, ← hb]; simp⟩

/-- A field of a struct is written with its name. -/
theorem infix_field {plain : Char → Bool} {n : String} {fs : List (String × Dbg)} {f : String} {d : Dbg}
    (h : (f, d) ∈ fs) : f.toList ++ ([':', ' '] ++ chars plain d) <:+: chars plain (.struct n fs) := by
  cases fs with
  | nil => cases h
  | cons e fs =>
    obtain ⟨g, e⟩ := e
    rcases List.mem_cons.1 h with h | h
    · cases h
      exact ⟨n.toList ++ [' ', '{', ' '], moreFields plain fs ++ [' ', '}'], by simp [chars]⟩
    · obtain ⟨b, a, hb⟩ := infix_moreFields (plain := plain) h
      exact ⟨n.toList ++ ([' ', '{', ' '] ++ (g.toList ++ ([':', ' '] ++ (chars plain e ++ b)))), a ++ [' ', '}'],
        by rw [chars, ← hb]; simp⟩

theorem infix_struct {plain : Char → Bool} {n : String} {fs : List (String × Dbg)} {f : String} {d : Dbg}
    (h : (f, d) ∈ fs) : chars plain d <:+: chars plain (.struct n fs) :=
  List.IsInfix.trans ⟨f.toList ++ [':', ' '], [], by simp⟩ (infix_field h)

theorem chars_uint (plain : Char → Bool) {n : Nat} (b : BitVec n) :
    chars plain (uint b) = (toString b.toNat).toList := by
  have := Dbg.num_text plain b.toNat
  rw [Dbg.text] at this
  rw [← this, String.toList_ofList]; rfl

theorem file_secrets (plain : Char → Bool) {f : File} {s : String} (h : s ∈ Spec.fileSecrets f) :
    s.toList <:+: chars plain (file f) := by
  cases f <;> simp only [Spec.fileSecrets, List.mem_singleton, List.not_mem_nil] at h
  subst h
  refine List.IsInfix.trans ?_ (infix_tuple plain _ _)
  refine List.IsInfix.trans (infix_eq ?_) (infix_field (f := "key") (List.mem_cons_self ..))
  rw [chars_uint]
  simp

theorem interface_secrets (plain : Char → Bool) (cfg : Cfg) {i : InterfaceConfiguration} {s : String}
    (h : s ∈ Spec.interfaceSecrets i) : s.toList <:+: chars plain (interfaceConfiguration cfg i) := by
  cases i <;> simp only [Spec.interfaceSecrets, List.not_mem_nil, List.mem_cons, or_false] at h
  case loRaWanABP c =>
    refine List.IsInfix.trans ?_ (infix_tuple plain _ _)
    rcases h with rfl | rfl
    · refine List.IsInfix.trans (infix_eq ?_)
        (infix_field (f := "network_session_key") (d := bytes c.networkSessionKey) (by simp))
      rw [bytes_listed]; simp
    · refine List.IsInfix.trans (infix_eq ?_)
        (infix_field (f := "app_session_key") (d := bytes c.appSessionKey) (by simp))
      rw [bytes_listed]; simp
  case loRaWanOTAA c =>
    refine List.IsInfix.trans ?_ (infix_tuple plain _ _)
    subst h
    refine List.IsInfix.trans (infix_eq ?_) (infix_field (f := "app_key") (d := bytes c.appKey) (by simp))
    rw [bytes_listed]; simp

theorem fileData_secrets (plain : Char → Bool) {o : Op.FileData} {s : String} (h : s ∈ Spec.fileSecrets o.data) :
    s.toList <:+: chars plain (fileData o) :=
  (file_secrets plain h).trans (infix_struct (f := "data") (by simp))

theorem action_secrets (plain : Char → Bool) (cfg : Cfg) {a : Action} {s : String} (h : s ∈ Spec.secrets a) :
    s.toList <:+: chars plain (action cfg a) := by
  cases a
  case writeFileData o => exact (fileData_secrets plain h).trans (infix_tuple plain _ _)
  case writeFileDataFlush o => exact (fileData_secrets plain h).trans (infix_tuple plain _ _)
  case returnFileData o => exact (fileData_secrets plain h).trans (infix_tuple plain _ _)
  case forward o =>
    exact ((interface_secrets plain cfg h).trans (infix_struct (f := "configuration") (by simp))).trans
      (infix_tuple plain _ _)
  case permissionRequest o =>
    obtain ⟨_, _, l, ⟨token⟩⟩ := o
    simp only [Spec.secrets, List.mem_singleton] at h
    subst h
    refine List.IsInfix.trans ?_ (infix_tuple plain _ _)
    refine List.IsInfix.trans (infix_eq ?_)
      (infix_field (f := "permission") (d := permission (.dash7 token)) (by simp))
    rw [permission, chars, bytes_listed]; simp
  all_goals cases h

end Dbg

theorem Spec.ReadIn.trace {value : String} {n : Nat} {data : List U8} {off : Nat} :
    Spec.ReadIn value (Spec.trace value n data off) :=
  ⟨"value ", ", reader.bits_read " ++ toString n ++ "  ([" ++ Spec.listed data ++ "], " ++ toString off ++ ")\n",
    by simp [Spec.trace, String.append_assoc]⟩

/-! ## C90 -/

/-- **C90** fails for `Action::from_bytes` and `try_from`: whenever an action is read, each secret in it can be read on the
standard output, in the clear; with `try_from` also if the input is refused for the bytes behind the action. -/
theorem C90_action_violates (plain : Char → Bool) (cfg : Cfg) (data : List U8) (off : Nat) (rest : Rest) (a : Action)
    (h : Action.fromBytes cfg (data, off) = .ok (rest, a)) (s : String) (hs : s ∈ Spec.secrets a) :
    Spec.ReadIn s (Action.fromBytesOut plain cfg (data, off)).text ∧
    (off = 0 → Spec.ReadIn s (Action.tryFromOut plain cfg data).text) := by
  have key : Spec.ReadIn s (Action.fromBytesOut plain cfg (data, off)).text := by
    obtain ⟨n, hn⟩ := fromReader_of_fromBytes h
    rw [(C80_action_partial plain cfg data off).2, show Action.fromReader cfg data off = _ from hn]
    refine Spec.ReadIn.trans (Dbg.readIn ?_) Spec.ReadIn.trace
    exact Dbg.action_secrets plain cfg hs
  refine ⟨key, ?_⟩
  rintro rfl
  rw [(C80_try_from_partial plain cfg data).2.1]
  exact key

/-- **C90** fails for `Command::from_bytes` and `try_from` in the same way, for each action of the command. -/
theorem C90_command_violates (plain : Char → Bool) (cfg : Cfg) (data : List U8) (off : Nat) (rest : Rest) (c : Command)
    (h : Command.fromBytes cfg (data, off) = .ok (rest, c)) (a : Action) (ha : a ∈ c.actions) (s : String)
    (hs : s ∈ Spec.secrets a) :
    Spec.ReadIn s (Command.fromBytesOut plain cfg (data, off)).text ∧
    (off = 0 → Spec.ReadIn s (Command.tryFromOut plain cfg data).text) := by
  have key : Spec.ReadIn s (Command.fromBytesOut plain cfg (data, off)).text := by
    obtain ⟨n, hn⟩ := fromReader_of_fromBytes h
    rw [(C80_command_partial plain cfg data off).2, show Command.fromReader cfg data off = _ from hn]
    refine Spec.ReadIn.trans (Dbg.readIn ?_) Spec.ReadIn.trace
    exact ((Dbg.action_secrets plain cfg hs).trans (Dbg.infix_list (List.mem_map_of_mem ha))).trans
      (Dbg.infix_struct (f := "actions") (by simp))
  refine ⟨key, ?_⟩
  rintro rfl
  rw [(C80_try_from_partial plain cfg data).2.2.2]
  exact key

/-- **C90** fails for `File::from_bytes`: the network key is printed when the file that holds it is read. -/
theorem C90_file_violates (plain : Char → Bool) (cfg : Cfg) (data : List U8) (off : Nat) (fid : FileId) (length : U32)
    (rest : Rest) (k : SecurityKey) (h : Cli.fileFromBytes cfg (data, off) fid length = .ok (rest, .nwlSecurityKey k)) :
    Spec.ReadIn ("key: " ++ toString k.key.toNat) (File.fromBytesOut plain cfg (data, off) fid length).text := by
  obtain ⟨n, hn⟩ := fromReader_of_fromBytes h
  rw [(C80_file_partial plain cfg data off fid length).2, hn]
  refine Spec.ReadIn.trans (Dbg.readIn ?_) Spec.ReadIn.trace
  exact Dbg.file_secrets plain (by simp [Spec.fileSecrets])

/-- **C90** (partial: what is left of it) Where nothing can be read, nothing is given away, not even the bytes of the
input: `from_bytes` and `try_from` print nothing at all if the action, command or file cannot be read. -/
theorem C90_unread_partial (plain : Char → Bool) (cfg : Cfg) (data : List U8) (off : Nat) :
    (∀ e, Action.fromReader cfg data off = .error e → (Action.fromBytesOut plain cfg (data, off)).text = "") ∧
    (∀ e, Command.fromReader cfg data off = .error e → (Command.fromBytesOut plain cfg (data, off)).text = "") ∧
    (∀ e, Action.fromReader cfg data 0 = .error e → (Action.tryFromOut plain cfg data).text = "") ∧
    (∀ e, Command.fromReader cfg data 0 = .error e → (Command.tryFromOut plain cfg data).text = "") := by
  refine ⟨fun e h => ?_, fun e h => ?_, fun e h => ?_, fun e h => ?_⟩
  · rw [(C80_action_partial plain cfg data off).2, h]; rfl
  · rw [(C80_command_partial plain cfg data off).2, h]; rfl
  · rw [(C80_try_from_partial plain cfg data).2.1, (C80_action_partial plain cfg data 0).2, h]; rfl
  · rw [(C80_try_from_partial plain cfg data).2.2.2, (C80_command_partial plain cfg data 0).2, h]; rfl

/-- A key that is written to its file, a permission token and the key of an interface, as they are received and printed. -/
example : ((Action.fromBytes spec ([0x04, 0x0E, 0, 16, 1, 2, 0, 0, 0, 0, 0, 0, 0, 0, 0, 0, 0, 0, 0, 0], 0)).toOption.map
      fun p => Spec.secrets p.2) = some ["key: 513"] ∧
    ((Action.fromBytes spec ([0x0A, 1, 0x42, 1, 2, 3, 4, 5, 6, 7, 8], 0)).toOption.map fun p => Spec.secrets p.2) =
      some ["permission: Dash7([1, 2, 3, 4, 5, 6, 7, 8])"] ∧
    ((Action.fromBytes spec ([0x32, 3, 0, 0, 0] ++ List.replicate 16 0 ++ [7, 8, 9, 0, 0, 0, 0, 0, 0, 0, 0, 0, 0, 0, 0, 0], 0)).toOption.map
      fun p => Spec.secrets p.2) = some ["app_key: [7, 8, 9, 0, 0, 0, 0, 0, 0, 0, 0, 0, 0, 0, 0, 0]"] := by decide +kernel
example : ((Command.fromBytes spec ([0xB4, 7, 0x04, 0x0E, 0, 16, 1, 2, 0, 0, 0, 0, 0, 0, 0, 0, 0, 0, 0, 0, 0, 0], 0)).toOption.map
      fun p => p.2.actions.map Spec.secrets) = some [[], ["key: 513"]] := by decide +kernel
example : Cli.fileFromBytes spec ([1, 2, 0, 0, 0, 0, 0, 0, 0, 0, 0, 0, 0, 0, 0, 0], 0) (FileId.ofId 0x0E) 16 =
    .ok (([], 0), .nwlSecurityKey ⟨513⟩) := by decide +kernel
example : Action.fromReader spec [0x04, 0x0E, 0, 16, 1, 2] 0 = .error .incomplete := by decide +kernel

#print axioms C90_action_violates
#print axioms C90_command_violates
#print axioms C90_file_violates
#print axioms C90_unread_partial

end Dash7
