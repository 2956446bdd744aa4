import Verif.Props.Cli
import Verif.Props.Same
import Verif.Props.SystemFile
import Verif.Props.Offset
import Verif.Props.Frames
import Verif.Props.Foreground

/-!
# C89: `dash7-cli` shows what was encoded
-/

namespace Dash7
open Sample Spec

/-! ## The type is given -/

/-- **C89** With the type given, a run shows what the decoder of that type makes of the bytes the text stands for, and
fails if the text stands for none or they are refused. Serial data always fail. -/
theorem C89_typed (cfg : Cfg) (fid : Option U8) (text : String) :
    (∀ p, Cli.main cfg (some .foreground) fid text = .printed p ↔
      ∃ bytes f, Hex text.toList bytes ∧ ForegroundFrame.tryFrom cfg bytes = .ok f ∧ p = .foreground f) ∧
    (∀ p, Cli.main cfg (some .background) fid text = .printed p ↔
      ∃ bytes f, Hex text.toList bytes ∧ BackgroundFrame.tryFrom cfg bytes = .ok f ∧ p = .background f) ∧
    (∀ p, Cli.main cfg (some .alp) fid text = .printed p ↔
      ∃ bytes c, Hex text.toList bytes ∧ Command.tryFrom cfg bytes = .ok c ∧ p = .command c) ∧
    (∀ p, Cli.main cfg (some .serial) fid text ≠ .printed p) ∧
    (∀ id p, Cli.main cfg (some .systemfile) (some id) text = .printed p ↔
      ∃ bytes rest f, Hex text.toList bytes ∧
        (∃ form more, Form.ofBytes bytes = form ++ more ∧ Form.file cfg.bigEndianHost id.toNat 0 f form ∧
          rest = (bytes.drop (form.length / 8), form.length % 8)) ∧ p = .file rest f) := by
  have ex : ∀ (e : Except Err Cli.Printed) p, Cli.expect e = .printed p ↔ e = .ok p := by
    intro e p
    cases e <;> simp [Cli.expect]
  have key : ∀ (t : Option Cli.ParseType) (fid : Option U8) p, Cli.main cfg t fid text = .printed p ↔
      ∃ bytes, Hex text.toList bytes ∧ Cli.run cfg t fid bytes = .printed p := by
    intro t fid p
    constructor
    · intro h
      rcases Classical.em (∃ bytes, Hex text.toList bytes) with ⟨bytes, hb⟩ | hn
      · exact ⟨bytes, hb, by rw [← C38_accepts cfg t fid text bytes hb]; exact h⟩
      · rw [C38_refuses cfg t fid text hn] at h
        cases h
    · rintro ⟨bytes, hb, h⟩
      rw [C38_accepts cfg t fid text bytes hb]
      exact h
  refine ⟨fun p => ?_, fun p => ?_, fun p => ?_, fun p h => ?_, fun id p => ?_⟩
  · rw [key]
    simp only [Cli.run, ex, Cli.parseForegroundFrame]
    constructor
    · rintro ⟨bytes, hb, h⟩
      cases hf : ForegroundFrame.tryFrom cfg bytes with
      | ok f => rw [hf] at h; cases h; exact ⟨bytes, f, hb, hf, rfl⟩
      | error e => rw [hf] at h; cases h
    · rintro ⟨bytes, f, hb, hf, rfl⟩
      exact ⟨bytes, hb, by rw [hf]⟩
  · rw [key]
    simp only [Cli.run, ex, Cli.parseBackgroundFrame]
    constructor
    · rintro ⟨bytes, hb, h⟩
      cases hf : BackgroundFrame.tryFrom cfg bytes with
      | ok f => rw [hf] at h; cases h; exact ⟨bytes, f, hb, hf, rfl⟩
      | error e => rw [hf] at h; cases h
    · rintro ⟨bytes, f, hb, hf, rfl⟩
      exact ⟨bytes, hb, by rw [hf]⟩
  · rw [key]
    simp only [Cli.run, ex, Cli.parseAlpCommand]
    constructor
    · rintro ⟨bytes, hb, h⟩
      cases hf : Command.tryFrom cfg bytes with
      | ok f => rw [hf] at h; cases h; exact ⟨bytes, f, hb, hf, rfl⟩
      | error e => rw [hf] at h; cases h
    · rintro ⟨bytes, f, hb, hf, rfl⟩
      exact ⟨bytes, hb, by rw [hf]⟩
  · obtain ⟨bytes, -, h⟩ := (key _ _ _).1 h
    cases h
  · rw [key]
    simp only [Cli.run, ex, Cli.parseFile]
    have form : ∀ bytes rest f, Cli.fileFromBytes cfg (bytes, 0) (FileId.ofId id) 0 = .ok (rest, f) ↔
        ∃ form more, Form.ofBytes bytes = form ++ more ∧ Form.file cfg.bigEndianHost id.toNat 0 f form ∧
          rest = (bytes.drop (form.length / 8), form.length % 8) := by
      intro bytes rest f
      rw [C65_from_bytes]
      simp
    constructor
    · rintro ⟨bytes, hb, h⟩
      cases hf : Cli.fileFromBytes cfg (bytes, 0) (FileId.ofId id) 0 with
      | ok x =>
        obtain ⟨rest, f⟩ := x
        rw [hf] at h; cases h
        exact ⟨bytes, rest, f, hb, (form _ _ _).1 hf, rfl⟩
      | error e => rw [hf] at h; cases h
    · rintro ⟨bytes, rest, f, hb, hf, rfl⟩
      exact ⟨bytes, hb, by rw [(form _ _ _).2 hf]⟩

/-- **C89** A command that can be sent is shown as it was, in whatever way its bytes are written down. -/
theorem C89_command (cfg : Cfg) (c : Command) (h : c.WF cfg) :
    ∃ bytes, c.toBytes cfg = .ok bytes ∧ ∀ text : String, Hex text.toList bytes → ∀ fid,
      Cli.main cfg (some .alp) fid text = .printed (.command c) := by
  obtain ⟨bytes, h1, h2⟩ := C01_command_roundtrip cfg c h
  exact ⟨bytes, h1, fun text ht fid => ((C89_typed cfg fid text).2.2.1 _).2 ⟨bytes, c, ht, h2, rfl⟩⟩

/-- **C89** So is a background frame. -/
theorem C89_background (cfg : Cfg) (f : BackgroundFrame) (h : f.WF) :
    ∃ bytes, f.toBytes cfg = .ok bytes ∧ ∀ text : String, Hex text.toList bytes → ∀ fid,
      Cli.main cfg (some .background) fid text = .printed (.background f) := by
  obtain ⟨bytes, h1, h2⟩ := C31_roundtrip cfg f h
  exact ⟨bytes, h1, fun text ht fid => ((C89_typed cfg fid text).2.1 _).2 ⟨bytes, f, ht, h2, rfl⟩⟩

/-- **C89** So is a system file, if its id is given; what follows it is shown as well. -/
theorem C89_system_file (cfg : Cfg) (id : U8) (f : File) (h : f.WF (FileId.ofId id))
    (hs : structuredFile (FileId.ofId id) = true) :
    ∃ bytes, (f.write cfg).toBytes = .ok bytes ∧ ∀ (more : List U8) (text : String), Hex text.toList (bytes ++ more) →
      Cli.main cfg (some .systemfile) (some id) text = .printed (.file (more, 0) f) := by
  obtain ⟨bytes, h1, h2⟩ := C65_roundtrip cfg _ f h 0 (.inl hs)
  refine ⟨bytes, h1, fun more text ht => ?_⟩
  rw [C38_accepts cfg _ _ _ _ ht]
  simp only [Cli.run, Cli.parseFile, h2 more, Cli.expect]

/-- **C89** fails for every other file: it is shown as an empty one. -/
theorem C89_other_file_violates (cfg : Cfg) (id : U8) (hs : structuredFile (FileId.ofId id) = false) (text : String)
    (bytes : List U8) (ht : Hex text.toList bytes) :
    Cli.main cfg (some .systemfile) (some id) text = .printed (.file (bytes, 0) (.other [])) := by
  obtain ⟨b, h1, h2⟩ := C65_roundtrip cfg (FileId.ofId id) (.other []) ⟨hs, by simp⟩ 0 (.inr rfl)
  have : b = [] := by cases h1; rfl
  subst this
  rw [C38_accepts cfg _ _ _ _ ht]
  have := h2 bytes
  rw [List.nil_append] at this
  simp only [Cli.run, Cli.parseFile, this, Cli.expect]

/-- **C89** fails for foreground frames outside wizzilab builds: the frame that was encoded, its length being right, is
shown exactly if it holds no action. -/
theorem C89_foreground_violates (cfg : Cfg) (hv : cfg.variant ≠ .wizzilab) (f : ForegroundFrame) (hw : f.WF cfg) :
    ∃ bytes, f.toBytes cfg = .ok bytes ∧ (f.header.length.val.toNat + 2 = bytes.length →
      ∀ text : String, Hex text.toList bytes → ∀ fid, Cli.main cfg (some .foreground) fid text =
        if f.frame.frame.command.actions = [] then .printed (.foreground f) else .crash) := by
  obtain ⟨bytes, h1, h2⟩ := C34_partial cfg hv f hw
  refine ⟨bytes, h1, fun hL text ht fid => ?_⟩
  have h3 := (h2 hL [] _ rfl).2
  rw [List.append_nil] at h3
  rw [C38_accepts cfg _ _ _ _ ht]
  simp only [Cli.run, Cli.parseForegroundFrame]
  by_cases he : f.frame.frame.command.actions = []
  · rw [if_pos (by simp [he])] at h3
    rw [h3, if_pos he]; rfl
  · have := List.length_pos_iff.2 he
    have hx : (0 : Nat) < if cfg.endCounts then 2 else 1 := by split <;> omega
    rw [if_neg (by
      intro h
      exact absurd h.symm (Nat.ne_of_gt (Nat.mul_pos this hx)))] at h3
    rw [h3, if_neg he]; rfl

/-! ## The type is not given -/

theorem Spec.reading_left {cfg : Cfg} {limit size : Nat} {as : List Action} {stop : Bool} {s left : List Bool} {n : Nat}
    (h : reading cfg limit size stop as s left n) : left.length ≤ s.length := by
  have ha : ∀ s, (asked cfg limit s).length ≤ s.length := by
    intro s; unfold asked wholeBytes; split <;> simp
  induction as generalizing stop s n with
  | nil => rw [h.1]; exact ha s
  | cons a as ih =>
    obtain ⟨-, -, h8, -, wire, more, m, hs, hF, hread, -⟩ := h
    have h1 := ih hread
    have h2 := congrArg List.length hs
    have h3 := steppedBack_length cfg h8
    have h4 := ha s
    rw [List.length_append] at h2
    omega

/-- No input of fewer than ten bytes is a foreground frame. -/
theorem ForegroundFrame.tryFrom_length {cfg : Cfg} {data : List U8} {f : ForegroundFrame}
    (h : ForegroundFrame.tryFrom cfg data = .ok f) : 10 ≤ data.length := by
  obtain ⟨left, n, ⟨head, body, crc, m, hd, hh, ⟨head2, body2, m2, hb2, hh2, ⟨head3, body3, m3, hb3, hh3, hr, -⟩, -⟩, hc, -⟩, -⟩ :=
    (C58_foreground cfg data f).1 h
  have hl := reading_left hr
  have e1 := congrArg List.length hd
  have e2 := congrArg List.length hb2
  have e3 := congrArg List.length hb3
  rw [Form.ofBytes_length] at e1
  obtain ⟨bs, rfl, hn⟩ := hc
  have hn := hn.1
  have h1 : 24 ≤ head.length := by
    obtain ⟨a, r, rfl, ⟨k, hk, x, y, rfl, hx, y', z, rfl, hy, rfl⟩, b, r', rfl, hb, c, r'', rfl, ⟨p, q, rfl, hp, q', z', rfl, hq, rfl⟩, -⟩ := hh
    have := hx.1; have := hy.1; have := hb.1; have := hp.1; have := hq.1
    simp only [List.length_append, List.length_nil] at *
    omega
  have h2 : 15 ≤ head2.length := by
    obtain ⟨a, r, rfl, ⟨p1, q1, rfl, g1, p2, q2, rfl, g2, p3, q3, rfl, g3, p4, q4, rfl, g4, p5, q5, rfl, g5, rfl⟩, b, r', rfl, -, c, r'', rfl,
      ⟨y, z, rfl, hy, y', z', rfl, hy', rfl⟩, -⟩ := hh2
    have := congrArg List.length g1; have := congrArg List.length g2; have := g3.1; have := hy.1; have := hy'.1
    have g4 : p4.length = 1 := g4
    have g5 : 3 ≤ p5.length := by have := g5.1; split at this <;> omega
    simp only [List.length_append, List.length_cons, List.length_nil] at *
    omega
  have h3 : 23 ≤ head3.length := by
    obtain ⟨a, r, rfl, ⟨p1, q1, rfl, g1, p2, q2, rfl, g2, p3, q3, rfl, g3, p4, q4, rfl, g4, p5, q5, rfl, g5, p6, q6, rfl, g6, p7, q7, rfl, g7, rfl⟩,
      b, r', rfl, hb, c, r'', rfl, hc, -⟩ := hh3
    have := congrArg List.length g1; have := congrArg List.length g2; have := congrArg List.length g3
    have := congrArg List.length g4; have := congrArg List.length g5; have := congrArg List.length g6
    have := congrArg List.length g7; have := hb.1; have := hc.1
    simp only [List.length_append, List.length_cons, List.length_nil] at *
    omega
  have h4 : (Form.ofBytes bs).length = 16 := by
    rw [Form.ofBytes_length] at hn ⊢
    split at hn
    · omega
    · rw [List.length_reverse] at hn; omega
  simp only [List.length_append] at *
  omega

/-- **C89** Without a type, a command of fewer than ten bytes, other than six, is shown as it was. -/
theorem C89_untyped_partial (cfg : Cfg) (c : Command) (h : c.WF cfg) (bytes : List U8) (hb : c.toBytes cfg = .ok bytes)
    (h10 : bytes.length < 10) (h6 : bytes.length ≠ 6) (text : String) (ht : Hex text.toList bytes) (fid : Option U8) :
    Cli.main cfg none fid text = .printed (.command c) := by
  obtain ⟨bytes', h1, h2⟩ := C01_command_roundtrip cfg c h
  rw [hb] at h1
  cases h1
  rw [C38_accepts cfg _ _ _ _ ht]
  refine C39_command cfg fid bytes c (fun f hf => ?_) (fun f hf => ?_) h2
  · have := ForegroundFrame.tryFrom_length hf
    omega
  · exact h6 ((C31_accepts cfg bytes).1 ⟨f, hf⟩)

/-- **C89** Without a type, a background frame is shown as it was: six bytes are never anything else. -/
theorem C89_untyped_background (cfg : Cfg) (f : BackgroundFrame) (h : f.WF) :
    ∃ bytes, f.toBytes cfg = .ok bytes ∧ ∀ text : String, Hex text.toList bytes → ∀ fid,
      Cli.main cfg none fid text = .printed (.background f) := by
  obtain ⟨bytes, h1, h2⟩ := C31_roundtrip cfg f h
  refine ⟨bytes, h1, fun text ht fid => ?_⟩
  rw [C38_accepts cfg _ _ _ _ ht]
  refine C39_background cfg fid bytes f (fun g hg => ?_) h2
  have := ForegroundFrame.tryFrom_length hg
  have := (C31_accepts cfg bytes).1 ⟨f, h2⟩
  omega

/-- **C89** fails: without a type, every command of six bytes is shown as a background frame. -/
theorem C89_six_violates (cfg : Cfg) (c : Command) (bytes : List U8) (_hb : c.toBytes cfg = .ok bytes)
    (h6 : bytes.length = 6) (text : String) (ht : Hex text.toList bytes) (fid : Option U8) :
    ∃ f, Cli.main cfg none fid text = .printed (.background f) := by
  obtain ⟨f, hf⟩ := (C31_accepts cfg bytes).2 h6
  refine ⟨f, ?_⟩
  rw [C38_accepts cfg _ _ _ _ ht]
  refine C39_background cfg fid bytes f (fun g hg => ?_) hf
  have := ForegroundFrame.tryFrom_length hg
  omega

/-- A command that begins like a foreground frame. -/
def Sample.ambiguous (cfg : Cfg) : List U8 :=
  if cfg.variant = .wizzilab then [9, 0, 0x40, 0x90, 0, 0, 0, 0, 0, 0, 0] ++
    if cfg.endCounts && cfg.seekClears then [0] else []
  else [1, 0, 0x40, 0x90, 0, 0, 0, 0, 0, 0]

/-- **C89** fails: in every build there is a command of ten or more bytes that is shown as a foreground frame if the type
is not given. -/
theorem C89_foreground_like_violates (cfg : Cfg) :
    ∃ c bytes f, c.toBytes cfg = .ok bytes ∧ Command.tryFrom cfg bytes = .ok c ∧
      ∀ text : String, Hex text.toList bytes → ∀ fid, Cli.main cfg none fid text = .printed (.foreground f) := by
  have key : ∀ cfg ∈ configurations, (match Command.tryFrom cfg (ambiguous cfg) with
      | .ok c => decide (c.toBytes cfg = .ok (ambiguous cfg))
      | _ => false) = true ∧ (ForegroundFrame.tryFrom cfg (ambiguous cfg)).isOk = true := by decide +kernel
  obtain ⟨h1, h2⟩ := key cfg (mem_configurations cfg)
  split at h1
  · rename_i c hc
    cases hf : ForegroundFrame.tryFrom cfg (ambiguous cfg) with
    | error e => rw [hf] at h2; cases h2
    | ok f =>
      refine ⟨c, _, f, of_decide_eq_true h1, hc, fun text ht fid => ?_⟩
      rw [C38_accepts cfg _ _ _ _ ht]
      exact C39_foreground cfg fid _ f hf
  · cases h1

/-! ## Cases -/

/-- Texts for every byte string, with white space and either case. -/
example : Hex "b4 0A\n".toList [0xB4, 0x0A] := by
  refine .byte (ws := []) (x := 11) (y := 4) (.inl rfl) (by simp) (.inl rfl) (.space (by decide) ?_)
  exact .byte (ws := []) (x := 0) (y := 10) (.inl rfl) (by simp) (.inr rfl) (.space (by decide) .nil)

/-- A command, a frame and a file that are shown as they were. -/
example : Command.WF spec ⟨[tag, readData]⟩ ∧ Sample.background.WF ∧
    File.WF (FileId.ofId 0x0A) (.dllConfig ⟨1, 2, 3, 4, 5⟩) ∧ structuredFile (FileId.ofId 0x0A) = true ∧
    structuredFile (FileId.ofId 0x40) = false := by
  refine ⟨by decide, by unfold BackgroundFrame.WF; decide, by decide, by decide, by decide⟩

/-- A command of two bytes, one of six and one of ten. -/
example : (Command.mk [tag]).toBytes spec = .ok [0xB4, 7] ∧
    (Command.mk (List.replicate 6 (.nop ⟨⟨false, false⟩, ⟨0⟩⟩))).toBytes spec = .ok [0, 0, 0, 0, 0, 0] ∧
    (Command.tryFrom spec (ambiguous spec)).isOk = true := by decide +kernel

#print axioms C89_typed
#print axioms C89_command
#print axioms C89_background
#print axioms C89_system_file
#print axioms C89_other_file_violates
#print axioms C89_foreground_violates
#print axioms C89_untyped_partial
#print axioms C89_untyped_background
#print axioms C89_six_violates
#print axioms C89_foreground_like_violates

end Dash7
