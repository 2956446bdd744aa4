import Verif.Lemmas.Debug2
import Verif.Props.Display
import Verif.Props.Cli
import Verif.Props.FrameAccept

/-!
# C75: what is printed tells what was decoded
-/

namespace Dash7

/-! ## Decoded actions hold no stray fields -/

theorem Spec.InBuild.of_decoded {cfg : Cfg} {a : Action} {n : Nat} (h : Action.Decoded cfg a n) :
    Spec.InBuild cfg a := by
  have haddr : ∀ a : Addressee, a.WF cfg → Spec.addresseeInBuild cfg a := fun a h => h.2.2.2.2
  cases ht : a.isTx with
  | true =>
    have hv := h.variant ht
    cases a <;> simp only [Action.isTx, Bool.false_eq_true] at ht
    show Spec.txStatusInBuild cfg _
    unfold Spec.txStatusInBuild
    split
    · exact fun hn => absurd hv hn
    · trivial
  | false =>
  cases ho : a.isOther with
  | true =>
    cases a <;> simp only [Action.isOther, Bool.false_eq_true] at ho
    rename_i o
    obtain ⟨t, c, s⟩ := o
    cases s with
    | interface i =>
      obtain ⟨ty, st⟩ := i
      cases st with
      | dash7 s => cases ho
      | _ => trivial
    | _ => trivial
  | false =>
  have hw := h.wf ht ho
  cases a with
  | status o =>
    obtain ⟨t, c, s⟩ := o
    cases s with
    | interface i =>
      obtain ⟨ty, st⟩ := i
      cases st with
      | dash7 s => exact haddr _ hw.2.2.2
      | _ => trivial
    | _ => trivial
  | forward o =>
    obtain ⟨r, c, s⟩ := o
    cases s with
    | dash7 c => exact ⟨haddr _ hw.2.2.1, hw.2.2.2⟩
    | _ => trivial
  | indirectForward o =>
    intro c hc
    have := hw.2 c hc
    cases c with
    | dash7 a => exact haddr _ this
    | _ => trivial
  | txStatus o => exact absurd ht (by simp [Action.isTx])
  | _ => trivial

theorem Command.read_inBuild {cfg : Cfg} {L : U32} {r r' : Rd} {c : Command} (h : r.OK)
    (hr : Command.read cfg L r = .ok (c, r')) : ∀ a ∈ c.actions, Spec.InBuild cfg a := by
  intro a ha
  obtain ⟨ps, hps, -, -, hd, -⟩ := Command.loop_ok h (Command.read_ok hr)
  rw [hps, List.nil_append] at ha
  obtain ⟨p, hp, rfl⟩ := List.mem_map.1 ha
  exact .of_decoded (hd p hp)

theorem ForegroundFrame.read_inBuild {cfg : Cfg} {r r' : Rd} {f : ForegroundFrame} (h : r.OK)
    (hr : ForegroundFrame.read cfg r = .ok (f, r')) :
    ∀ a ∈ f.frame.frame.command.actions, Spec.InBuild cfg a := by
  unfold ForegroundFrame.read at hr
  simp only [R.bind_eq, R.bind_ok, R.pure] at hr
  obtain ⟨h1, r1, e1, n, r2, e2, c, r3, e3, e4⟩ := hr
  cases e4
  obtain ⟨r4, e5, e6⟩ := Net.read_iff.1 e2
  obtain ⟨r5, e7, e8⟩ := Trans.read_iff.1 e6
  obtain ⟨-, n1, s1, -⟩ := P.run_ok' _ h e1
  obtain ⟨-, n2, s2, -⟩ := P.run_ok' _ s1.ok e5
  obtain ⟨-, n3, s3, -⟩ := P.run_ok' _ s2.ok e7
  exact Command.read_inBuild s3.ok e8

theorem ForegroundFrame.tryFrom_inBuild {cfg : Cfg} {data : List U8} {f : ForegroundFrame}
    (h : ForegroundFrame.tryFrom cfg data = .ok f) : ∀ a ∈ f.frame.frame.command.actions, Spec.InBuild cfg a := by
  unfold ForegroundFrame.tryFrom derivedTryFrom at h
  split at h
  · cases h
  · rename_i g r hr
    have : g = f := by
      split at h
      · cases h
      · exact Except.ok.inj h
    subst this
    exact ForegroundFrame.read_inBuild (Rd.new_con data).toOK hr

theorem Command.tryFrom_inBuild {cfg : Cfg} {data : List U8} {c : Command}
    (h : Command.tryFrom cfg data = .ok c) : ∀ a ∈ c.actions, Spec.InBuild cfg a := by
  unfold Command.tryFrom Command.fromBytes Dash7.fromBytes at h
  rcases startAt_cases 0 (Command.read cfg 0) data with ⟨r, hok, -, hs, -⟩ | hs
  · simp only [hs] at h
    cases hr : Command.read cfg 0 r with
    | error e => rw [hr] at h; cases h
    | ok p =>
      obtain ⟨d, r'⟩ := p
      have : d = c := by
        rw [hr] at h
        simp only at h
        cases hp : padRest (data, 0) r'.bitsRead with
        | error e => rw [hp] at h; cases h
        | ok rest =>
          rw [hp] at h
          simp only at h
          split at h
          · cases h
          · exact Except.ok.inj h
      subst this
      exact Command.read_inBuild hok hr
  · simp only [hs] at h
    cases h

/-! ## C75 -/

/-- **C75** `{:?}` of two actions is the same text only if they are the same action. -/
theorem C75_action (plain : Char → Bool) (cfg : Cfg) (a b : Action) (ha : Spec.InBuild cfg a)
    (hb : Spec.InBuild cfg b) (h : (Dbg.action cfg a).text plain = (Dbg.action cfg b).text plain) : a = b :=
  Dbg.action_inj ha hb (Dbg.text_inj (Dbg.ok_action cfg a) (Dbg.ok_action cfg b) h)

/-- **C75** `{:?}` of two commands is the same text only if they are the same command. -/
theorem C75_command_debug (plain : Char → Bool) (cfg : Cfg) (c d : Command)
    (hc : ∀ a ∈ c.actions, Spec.InBuild cfg a) (hd : ∀ a ∈ d.actions, Spec.InBuild cfg a)
    (h : (Dbg.command cfg c).text plain = (Dbg.command cfg d).text plain) : c = d :=
  Dbg.command_inj hc hd (Dbg.text_inj (Dbg.ok_command cfg c) (Dbg.ok_command cfg d) h)

/-- **C75** `{:?}` of two foreground frames is the same text only if they are the same frame. -/
theorem C75_foreground (plain : Char → Bool) (cfg : Cfg) (f g : ForegroundFrame)
    (hf : ∀ a ∈ f.frame.frame.command.actions, Spec.InBuild cfg a)
    (hg : ∀ a ∈ g.frame.frame.command.actions, Spec.InBuild cfg a)
    (h : (Dbg.foregroundFrame cfg f).text plain = (Dbg.foregroundFrame cfg g).text plain) : f = g :=
  Dbg.foregroundFrame_inj hf hg (Dbg.text_inj (Dbg.ok_foregroundFrame cfg f) (Dbg.ok_foregroundFrame cfg g) h)

/-- **C75** `{:?}` of two background frames is the same text only if they are the same frame. -/
theorem C75_background (plain : Char → Bool) (f g : BackgroundFrame)
    (h : (Dbg.backgroundFrame f).text plain = (Dbg.backgroundFrame g).text plain) : f = g :=
  Dbg.backgroundFrame_inj.1 (Dbg.text_inj (Dbg.ok_backgroundFrame f) (Dbg.ok_backgroundFrame g) h)

/-- **C75** `{:?}` of two files is the same text only if they are the same file. -/
theorem C75_file (plain : Char → Bool) (f g : File)
    (h : (Dbg.file f).text plain = (Dbg.file g).text plain) : f = g :=
  Dbg.file_inj.1 (Dbg.text_inj (Dbg.ok_file f) (Dbg.ok_file g) h)

/-- **C75** The text of an action, frame or file never breaks a line, whatever bytes and strings are in
it. -/
theorem C75_one_line (plain : Char → Bool) (cfg : Cfg) :
    (∀ a, '\n' ∉ ((Dbg.action cfg a).text plain).toList) ∧
    (∀ f, '\n' ∉ ((Dbg.foregroundFrame cfg f).text plain).toList) ∧
    (∀ f, '\n' ∉ ((Dbg.backgroundFrame f).text plain).toList) ∧
    (∀ f, '\n' ∉ ((Dbg.file f).text plain).toList) := by
  have key : ∀ d : Dbg, d.ok = true → '\n' ∉ (d.text plain).toList := fun d h => by
    rw [Dbg.text, String.toList_ofList]
    exact Dbg.chars_line d h
  exact ⟨fun a => key _ (Dbg.ok_action cfg a), fun f => key _ (Dbg.ok_foregroundFrame cfg f),
    fun f => key _ (Dbg.ok_backgroundFrame f), fun f => key _ (Dbg.ok_file f)⟩

/-- **C75** What decoders return has no fields the build does not know. -/
theorem C75_decoded (cfg : Cfg) (data : List U8) :
    (∀ c, Command.tryFrom cfg data = .ok c → ∀ a ∈ c.actions, Spec.InBuild cfg a) ∧
    (∀ f, ForegroundFrame.tryFrom cfg data = .ok f →
      ∀ a ∈ f.frame.frame.command.actions, Spec.InBuild cfg a) :=
  ⟨fun _ h => Command.tryFrom_inBuild h, fun _ h => ForegroundFrame.tryFrom_inBuild h⟩

/-- Two commands agree in all that `Display` shows: the progress, the tag, the actions other than interface
statuses in their order, and the first interface status. -/
def Spec.SameShown (cfg : Cfg) (c c' : Command) : Prop :=
  (∀ p p', Spec.HasProgress c p → Spec.HasProgress c' p' → p = p') ∧
  (∀ g g', Spec.HasTag c g → Spec.HasTag c' g' → g = g') ∧
  c.actions.filter (fun a => (Spec.interfaceStatus? a).isNone) =
    c'.actions.filter (fun a => (Spec.interfaceStatus? a).isNone) ∧
  (∀ st st', Spec.IsFirst Spec.interfaceStatus? c.actions st →
    Spec.IsFirst Spec.interfaceStatus? c'.actions st' → Spec.SameStatus? cfg st st')

/-- **C75** The `Display` of a command, with the real texts of its actions, tells all of it but repeated
interface statuses. -/
theorem C75_command (plain : Char → Bool) (cfg : Cfg) (c c' : Command)
    (hc : ∀ a ∈ c.actions, Spec.InBuild cfg a) (hc' : ∀ a ∈ c'.actions, Spec.InBuild cfg a)
    (h : c.display (fun a => (Dbg.action cfg a).text plain) (InterfaceStatus.display cfg) =
      c'.display (fun a => (Dbg.action cfg a).text plain) (InterfaceStatus.display cfg)) :
    Spec.SameShown cfg c c' :=
  C64_command cfg _ c c' (fun a _ => (C75_one_line plain cfg).1 a) (fun a _ => (C75_one_line plain cfg).1 a)
    (fun a ha b hb => C75_action plain cfg a b (hc a ha) (hc' b hb)) h

/-- The same thing was decoded, as far as the tool shows it. -/
def Spec.SamePrinted (cfg : Cfg) : Cli.Printed → Cli.Printed → Prop
  | .foreground f, .foreground g => f = g
  | .background f, .background g => f = g
  | .command c, .command c' => Spec.SameShown cfg c c'
  | .file r f, .file r' f' => r = r' ∧ f = f'
  | .nothing, .nothing => True
  | _, _ => False

namespace Cli

/-- No stray fields in what is printed. -/
def Printed.InBuild (cfg : Cfg) : Printed → Prop
  | .foreground f => ∀ a ∈ f.frame.frame.command.actions, Spec.InBuild cfg a
  | .command c => ∀ a ∈ c.actions, Spec.InBuild cfg a
  | _ => True

theorem parseFile_inBuild {cfg : Cfg} {input : List U8} {i : FileId} {p : Printed}
    (h : parseFile cfg input i = .ok p) : p.InBuild cfg := by
  unfold parseFile at h
  split at h
  · cases h; trivial
  · cases h

theorem parseAnyFileLoop_inBuild {cfg : Cfg} {input : List U8} {is : List Nat} {p : Printed}
    (h : parseAnyFileLoop cfg input is = .ok p) : p.InBuild cfg := by
  induction is with
  | nil => cases h; trivial
  | cons i is ih =>
    unfold parseAnyFileLoop at h
    split at h
    · rename_i q hq
      cases h
      exact parseFile_inBuild hq
    · split at h
      · cases h
      · exact ih h

theorem parseForegroundFrame_inBuild {cfg : Cfg} {input : List U8} {p : Printed}
    (h : parseForegroundFrame cfg input = .ok p) : p.InBuild cfg := by
  unfold parseForegroundFrame at h
  split at h
  · rename_i f hf
    cases h
    exact ForegroundFrame.tryFrom_inBuild hf
  · cases h

theorem parseBackgroundFrame_inBuild {cfg : Cfg} {input : List U8} {p : Printed}
    (h : parseBackgroundFrame cfg input = .ok p) : p.InBuild cfg := by
  unfold parseBackgroundFrame at h
  split at h
  · cases h; trivial
  · cases h

theorem parseAlpCommand_inBuild {cfg : Cfg} {input : List U8} {p : Printed}
    (h : parseAlpCommand cfg input = .ok p) : p.InBuild cfg := by
  unfold parseAlpCommand at h
  split at h
  · rename_i f hf
    cases h
    exact Command.tryFrom_inBuild hf
  · cases h

theorem orElse_ok {a b : Except Err Printed} {p : Printed} (h : orElse a b = .ok p) : a = .ok p ∨ b = .ok p := by
  unfold orElse at h
  split at h
  · exact .inl h
  · split at h
    · cases h
    · exact .inr h

theorem run_inBuild {cfg : Cfg} {t : Option ParseType} {fid : Option U8} {input : List U8} {p : Printed}
    (h : run cfg t fid input = .printed p) : p.InBuild cfg := by
  have hx : ∀ {e : Except Err Printed}, expect e = .printed p → e = .ok p := by
    intro e he
    cases e with
    | ok q => cases he; rfl
    | error e => cases he
  unfold run at h
  split at h
  · exact parseForegroundFrame_inBuild (hx h)
  · exact parseBackgroundFrame_inBuild (hx h)
  · exact parseAlpCommand_inBuild (hx h)
  · cases hx h
  · split at h
    · exact parseFile_inBuild (hx h)
    · exact parseAnyFileLoop_inBuild (hx h)
  · rcases orElse_ok (hx h) with h | h
    · exact parseForegroundFrame_inBuild h
    rcases orElse_ok h with h | h
    · exact parseBackgroundFrame_inBuild h
    rcases orElse_ok h with h | h
    · exact parseAlpCommand_inBuild h
    rcases orElse_ok h with h | h
    · cases h
    rcases orElse_ok h with h | h
    · exact parseAnyFileLoop_inBuild h
    · cases h

/-- What the text begins with. -/
def Printed.initial : Printed → Option Char
  | .foreground _ => some 'F'
  | .background _ => some 'B'
  | .command _ => some 'C'
  | .file _ _ => some '('
  | .nothing => none

theorem Printed.text_head (plain : Char → Bool) (cfg : Cfg) (p : Printed) :
    (p.text plain cfg).toList.head? = p.initial := by
  cases p with
  | foreground f =>
    simp only [Printed.text, String.toList_append, Dbg.text, String.toList_ofList, Dbg.foregroundFrame, Dbg.chars]
    rfl
  | background f =>
    simp only [Printed.text, String.toList_append, Dbg.text, String.toList_ofList, Dbg.backgroundFrame, Dbg.chars]
    rfl
  | command c =>
    simp only [Printed.text, Command.display, String.toList_append, List.append_assoc]
    rfl
  | file r f =>
    simp only [Printed.text, String.toList_append, Dbg.text, String.toList_ofList, Dbg.restAndFile, Dbg.chars]
    rfl
  | nothing => rfl

end Cli

/-- **C75** Two runs of `dash7-cli` (with any options, on any inputs) write the same text only if they
decoded the same thing: the same frame, the same file with the same bytes left over, or commands that agree
in all that is shown of a command. -/
theorem C75_cli (plain : Char → Bool) (cfg : Cfg) (t t' : Option Cli.ParseType) (fid fid' : Option U8)
    (hex hex' : String) (p p' : Cli.Printed) (h : Cli.main cfg t fid hex = .printed p)
    (h' : Cli.main cfg t' fid' hex' = .printed p') (he : p.text plain cfg = p'.text plain cfg) :
    Spec.SamePrinted cfg p p' := by
  have hb : ∀ {t fid hex p}, Cli.main cfg t fid hex = .printed p → p.InBuild cfg := by
    intro t fid hex p h
    unfold Cli.main at h
    split at h
    · cases h
    · exact Cli.run_inBuild h
  have hi : p.initial = p'.initial := by
    rw [← Cli.Printed.text_head plain cfg, he, Cli.Printed.text_head]
  replace h := hb h
  replace h' := hb h'
  have cut : ∀ {a b : String}, a ++ "\n" = b ++ "\n" → a = b := fun e => String.append_left_inj _ |>.1 e
  cases p <;> cases p' <;> (try (exfalso; revert hi; simp [Cli.Printed.initial]; done)) <;> clear hi
  · exact C75_foreground plain cfg _ _ h h' (cut he)
  · exact C75_background plain _ _ (cut he)
  · exact C75_command plain cfg _ _ h h' (cut he)
  · exact Dbg.restAndFile_inj (Dbg.text_inj (Dbg.ok_restAndFile _ _) (Dbg.ok_restAndFile _ _) (cut he))
  · trivial

/-! ## What the texts look like -/

section parts
variable (plain : Char → Bool)

theorem Debug.nat_chars {n : Nat} (b : BitVec n) : (Debug.nat b.toNat).toList = Dbg.chars plain (Dbg.uint b) := by
  rw [Debug.nat_toList, Dbg.uint, Dbg.chars, if_neg (by omega)]; rfl
theorem Debug.bool_chars (b : Bool) : (Debug.bool b).toList = Dbg.chars plain (Dbg.bool b) := by
  cases b <;> simp [Debug.bool, Dbg.bool, Dbg.chars]
theorem Debug.band_chars (b : ChannelBand) : (Debug.band b).toList = Dbg.chars plain (Dbg.channelBand b) := by
  cases b <;> simp [Debug.band, Dbg.channelBand, Dbg.chars]
theorem Debug.cls_chars (b : ChannelClass) : (Debug.cls b).toList = Dbg.chars plain (Dbg.channelClass b) := by
  cases b <;> simp [Debug.cls, Dbg.channelClass, Dbg.chars]
theorem Debug.coding_chars (b : ChannelCoding) : (Debug.coding b).toList = Dbg.chars plain (Dbg.channelCoding b) := by
  cases b <;> simp [Debug.coding, Dbg.channelCoding, Dbg.chars]
theorem Debug.groupCondition_chars (b : GroupCondition) : (Debug.groupCondition b).toList = Dbg.chars plain (Dbg.groupCondition b) := by
  cases b <;> simp [Debug.groupCondition, Dbg.groupCondition, Dbg.chars]
theorem Debug.addressType_chars (b : AddressType) : (Debug.addressType b).toList = Dbg.chars plain (Dbg.addressType b) := by
  cases b <;> simp [Debug.addressType, Dbg.addressType, Dbg.chars]
theorem Debug.nlsMethod_chars (b : NlsMethod) : (Debug.nlsMethod b).toList = Dbg.chars plain (Dbg.nlsMethod b) := by
  cases b <;> simp [Debug.nlsMethod, Dbg.nlsMethod, Dbg.chars]
theorem Debug.channelHeader_chars (b : ChannelHeader) : (Debug.channelHeader b).toList = Dbg.chars plain (Dbg.channelHeader b) := by
  simp [Debug.channelHeader, Dbg.channelHeader, Dbg.chars, Dbg.moreFields, Debug.struct, Debug.moreFields, Debug.band_chars plain, Debug.cls_chars plain, Debug.coding_chars plain]
theorem Debug.channel_chars (b : Channel) : (Debug.channel b).toList = Dbg.chars plain (Dbg.channel b) := by
  simp [Debug.channel, Dbg.channel, Dbg.chars, Dbg.moreFields, Debug.struct, Debug.moreFields, Debug.channelHeader_chars plain, Debug.nat_chars plain]
theorem Debug.varInt_chars (b : VarInt) : (Debug.varInt b).toList = Dbg.chars plain (Dbg.varInt b) := by
  simp [Debug.varInt, Dbg.varInt, Dbg.chars, Dbg.moreFields, Debug.struct, Debug.moreFields, Debug.bool_chars plain, Debug.nat_chars plain]
theorem Debug.accessClass_chars (b : AccessClass) : (Debug.accessClass b).toList = Dbg.chars plain (Dbg.accessClass b) := by
  simp [Debug.accessClass, Dbg.accessClass, Dbg.chars, Dbg.moreFields, Debug.struct, Debug.moreFields, Debug.nat_chars plain]
theorem Debug.more_chars (b : List U8) : (Debug.more b).toList = Dbg.more plain (b.map Dbg.uint) := by
  induction b with
  | nil => simp [Debug.more, Dbg.more]
  | cons b bs ih => simp [Debug.more, Dbg.more, Debug.nat_chars plain, ih]
theorem Debug.bytes_chars (b : List U8) : (Debug.bytes b).toList = Dbg.chars plain (Dbg.bytes b) := by
  cases b <;> simp [Debug.bytes, Dbg.bytes, Dbg.chars, Debug.nat_chars plain, Debug.more_chars plain]
theorem Debug.address_chars (b : Address) : (Debug.address b).toList = Dbg.chars plain (Dbg.address b) := by
  cases b <;> simp [Debug.address, Dbg.address, Dbg.chars, Debug.nat_chars plain, Debug.varInt_chars plain]
theorem Debug.nlsState_chars (b : NlsState) : (Debug.nlsState b).toList = Dbg.chars plain (Dbg.nlsState b) := by
  cases b <;> simp [Debug.nlsState, Dbg.nlsState, Dbg.chars, Debug.bytes_chars plain]
theorem Debug.addressee_chars (cfg : Cfg) (b : Addressee) : (Debug.addressee cfg b).toList = Dbg.chars plain (Dbg.addressee cfg b) := by
  unfold Debug.addressee Dbg.addressee
  cases cfg.variant <;> simp [Dbg.chars, Dbg.moreFields, Debug.struct, Debug.moreFields, Debug.groupCondition_chars plain, Debug.addressType_chars plain, Debug.bool_chars plain, Debug.nlsMethod_chars plain, Debug.accessClass_chars plain, Debug.address_chars plain, Debug.nlsState_chars plain]

end parts

/-- The texts used in the `Display` of an interface status are derived ones. -/
theorem C75_parts (plain : Char → Bool) (cfg : Cfg) :
    (∀ c, Debug.channel c = (Dbg.channel c).text plain) ∧
    (∀ a, Debug.addressee cfg a = (Dbg.addressee cfg a).text plain) ∧
    (∀ b, Debug.bytes b = (Dbg.bytes b).text plain) := by
  refine ⟨fun c => ?_, fun a => ?_, fun b => ?_⟩ <;> apply String.toList_inj.1 <;> rw [Dbg.text, String.toList_ofList]
  · exact Debug.channel_chars plain c
  · exact Debug.addressee_chars plain cfg a
  · exact Debug.bytes_chars plain b

open Sample

/-- Only ASCII stands for itself. -/
def Sample.ascii (c : Char) : Bool := decide (32 ≤ c.toNat ∧ c.toNat < 127)

example : (Dbg.action spec tag).text Sample.ascii =
    "RequestTag(RequestTag { header: RequestTagHeader { end_of_packet: true }, opcode: OpCode(52), id: 7 })" := by
  decide +kernel
example : (Dbg.action spec writeData).text Sample.ascii =
    "WriteFileData(FileData { header: ActionHeader { group: false, response: true }, opcode: OpCode(4), offset: FileOffset { file_id: 66, offset: Length(0) }, data: Other([170, 187, 204]) })" := by
  decide +kernel
example : (Dbg.action subiot indirect).text Sample.ascii =
    "IndirectForward(IndirectForward { header: IndirectForwardHeader { overloaded: true, response: false }, opcode: OpCode(51), configuration: Some(Dash7(Addressee { address_type: UId, nls_method: AesCcm32, access_class: AccessClass { specifier: 2, mask: 1 }, address: UId(4822678189205111), nls_state: AesCcm32([1, 2, 3, 4, 5]) })) })" := by
  decide +kernel
example : (Dbg.action wizzilab txStatus).text Sample.ascii =
    "TxStatus(TxStatusOperation { status_type: Interface, opcode: OpCode(38), status: Interface(InterfaceTxStatusOperation { interface_id: 16, status: Other([]) }) })" := by
  decide +kernel
example : (Dbg.file (.firmwareVersion ⟨1, 2, "a\"b\né", "\x00\\"⟩)).text Sample.ascii =
    "FirmwareVersion(FirmwareVersion { major: 1, minor: 2, application_name: \"a\\\"b\\n\\u{e9}\", git_sha1: \"\\0\\\\\" })" := by
  decide +kernel
example : (Dbg.engineeringMode ⟨.perTx, 0, 255, ⟨⟨.band868, .loRate, .pn9⟩, 5⟩, 0xF6⟩).text Sample.ascii =
    "EngineeringMode { mode: PerTx, flags: 0, timeout: 255, channel: Channel { header: ChannelHeader { channel_band: Band868, channel_class: LoRate, channel_coding: Pn9 }, index: 5 }, eirp: -10 }" := by
  decide +kernel
example : (Cli.Printed.file ([1, 2], 0) (.other [])).text Sample.ascii spec = "(([1, 2], 0), Other([]))\n" := by
  decide +kernel
/-- How the text of a frame starts. -/
example : ((Dbg.foregroundFrame spec (Sample.foreground 25 ⟨[tag]⟩)).chars Sample.ascii).take 166 =
    "ForegroundFrame { length: Length(25), subnet: 85, control: ForegroundFrameControl { address_type: NoId, eirp_index: 33 }, target_address: NoId, frame: Frame { control".toList := by
  decide +kernel

/-- The hypotheses hold of actions with every kind of field. -/
example : Spec.InBuild subiot indirect ∧ Spec.InBuild wizzilab txStatus ∧ Spec.InBuild spec forward ∧
    Spec.InBuild spec dash7Status := by
  refine ⟨?_, ?_, ?_, ?_⟩
  · rintro c ⟨⟩
    exact fun _ => ⟨rfl, rfl⟩
  · trivial
  · exact ⟨fun _ => ⟨rfl, rfl⟩, fun h => by cases h⟩
  · exact fun _ => ⟨rfl, rfl⟩

end Dash7

#print axioms Dash7.C75_action
#print axioms Dash7.C75_command_debug
#print axioms Dash7.C75_foreground
#print axioms Dash7.C75_background
#print axioms Dash7.C75_file
#print axioms Dash7.C75_one_line
#print axioms Dash7.C75_decoded
#print axioms Dash7.C75_command
#print axioms Dash7.C75_cli
#print axioms Dash7.C75_parts
