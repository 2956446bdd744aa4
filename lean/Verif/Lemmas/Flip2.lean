import Verif.Lemmas.Flip

/-!
# Flipping one bit: type by type
-/

namespace Dash7

open Ignored (heed skip)

theorem heed_append (a b : Nat) : heed a ++ heed b = heed (a + b) := by simp [heed, List.replicate_append_replicate]
theorem heed_append_left (a b : Nat) (m : List Bool) : heed a ++ (heed b ++ m) = heed (a + b) ++ m := by
  rw [← List.append_assoc, heed_append]

/-- Brings rows of marks into the same shape. -/
macro "marks" : tactic => `(tactic| (simp only [List.append_assoc, List.nil_append, List.append_nil, heed_append,
  heed_append_left, Nat.reduceAdd, Nat.reduceMul] <;> try rfl))

/-- Puts together what has one form only. -/
macro "rigid" : tactic => `(tactic| repeat' (first
  | exact Rigid.nil | exact Rigid.field _ _ | exact Rigid.number _ _ | exact Rigid.flag _ | exact Rigid.bytes _
  | exact Rigid.given _ | exact Rigid.string _ _ | exact Rigid.hostNumber _ _ _ | exact Rigid.opcode _ _
  | exact Rigid.sized _ _ | assumption | apply Rigid.cons))

namespace Rigid

theorem all_map {α : Type} (f : α → Form) (n : Nat) (h : ∀ a, Rigid (f a) n) (l : List α) :
    Rigid (Form.all (l.map f)) (n * l.length) := by
  induction l with
  | nil => exact nil
  | cons a l ih => exact (cons (h a) ih).cast (by rw [List.length_cons, Nat.mul_add]; omega)

theorem channelStatus (c : ChannelStatus) : Rigid (Form.channelStatus c) 24 := by
  apply Rigid.cast
  case h => unfold Form.channelStatus; rigid
  rfl

theorem subBand (c : SubBand) : Rigid (Form.subBand c) 56 := by
  apply Rigid.cast
  case h => unfold Form.subBand; rigid
  rfl

theorem accessClass (c : AccessClass) : Rigid (Form.accessClass c) 8 := by
  apply Rigid.cast
  case h => unfold Form.accessClass; rigid
  rfl

theorem userPermissions (u : Data.UserPermissions) : Rigid (Form.userPermissions u) 3 := by
  apply Rigid.cast
  case h => unfold Form.userPermissions; rigid
  rfl

theorem filePermissions (u : Data.FilePermissions) : Rigid (Form.filePermissions u) 8 := by
  have h1 := userPermissions u.user
  have h2 := userPermissions u.guest
  apply Rigid.cast
  case h => unfold Form.filePermissions; rigid
  rfl

theorem factorySettings (f : FactorySettings) : Rigid (Form.factorySettings f) (8 * 56) := by
  apply Rigid.cast
  case h => unfold Form.factorySettings; rigid
  rfl

theorem firmwareVersion (f : FirmwareVersion) : Rigid (Form.firmwareVersion f) (8 * 15) := by
  apply Rigid.cast
  case h => unfold Form.firmwareVersion; rigid
  rfl

theorem phyStatus (p : PhyStatus) : Rigid (Form.phyStatus p) (8 * 15 + 24 * p.channelStatus.length) := by
  have h := all_map Form.channelStatus 24 channelStatus p.channelStatus
  apply Rigid.cast
  case h => unfold Form.phyStatus; rigid
  omega

theorem qos (q : QoS) : Rigid (Form.qos q) 8 := by
  apply Rigid.cast
  case h => unfold Form.qos; rigid
  rfl

theorem arithmetic (q : ArithmeticQueryParams) : Rigid (Form.arithmetic q) 4 := by
  apply Rigid.cast
  case h => unfold Form.arithmetic; rigid
  rfl

theorem range (q : RangeQueryParams) : Rigid (Form.range q) 4 := by
  apply Rigid.cast
  case h => unfold Form.range; rigid
  rfl

theorem header (h : ActionHeader) : Rigid (Form.header h) 2 := by
  apply Rigid.cast
  case h => unfold Form.header; rigid
  rfl

theorem permission (p : Permission) : Rigid (Form.permission p) 72 := by
  cases p with
  | dash7 b =>
    apply Rigid.cast
    case h => unfold Form.permission; rigid
    simp

theorem finalStatusCode (c : InterfaceFinalStatusCode) : Rigid (Form.finalStatusCode c) 8 := by
  apply Rigid.cast
  case h => unfold Form.finalStatusCode; rigid
  rfl

end Rigid

namespace Tight

/-- One form only, in front of others. -/
theorem after {F : Form} {Fs : List Form} {n : Nat} {m : List Bool} (hf : Rigid F n) (hg : Tight (Form.all Fs) m) :
    Tight (Form.all (F :: Fs)) (heed n ++ m) := cons hf.tight hg

theorem given_false (m : List Bool) : Tight (Form.given False) m := never m fun _ h => h.2

theorem all_map {α : Type} (f : α → Form) (g : α → List Bool) (h : ∀ a, Tight (f a) (g a)) (l : List α) :
    Tight (Form.all (l.map f)) (l.flatMap g) := by
  induction l with
  | nil => exact nil
  | cons a l ih => exact cons (h a) ih

theorem channelHeader (h : ChannelHeader) : Tight (Form.channelHeader h) Ignored.channelHeader :=
  (cons (reserved 1) (after (Rigid.field 3 _) (after (Rigid.field 2 _) (after (Rigid.field 2 _) nil)))).cast rfl

theorem channel (c : Channel) : Tight (Form.channel c) Ignored.channel :=
  (cons (channelHeader _) (after (Rigid.number 2 _) nil)).cast rfl

theorem subProfile (s : SubProfile) : Tight (Form.subProfile s) (Ignored.subProfile s) :=
  (after (Rigid.field 8 _) (last (varInt _))).cast rfl

theorem accessProfile (a : AccessProfile) : Tight (Form.accessProfile a) (Ignored.accessProfile a) :=
  (cons (channelHeader _) (cons (all_map _ _ subProfile _)
    (last ((Rigid.all_map _ 56 Rigid.subBand a.subBands.toList).cast (k := 8 * 56) (by simp)).tight))).cast (by
      simp [Ignored.accessProfile])

theorem address (t : AddressType) (a : Address) : Tight (Form.address t a) (Ignored.address a) := by
  cases t <;> cases a <;>
    first
    | exact given_false _
    | exact varInt _
    | exact nil
    | exact (Rigid.number 8 _).tight
    | exact (Rigid.number 2 _).tight

theorem nlsState (t : NlsMethod) (a : NlsState) : Tight (Form.nlsState t a) (Ignored.nlsState a) := by
  cases t <;> cases a <;>
    first
    | exact given_false _
    | exact nil
    | exact ((Rigid.bytes _).cast (by simp)).tight

theorem addressee (v : Variant) (a : Addressee) : Tight (Form.addressee v a) (Ignored.addressee v a) := by
  refine (cons (m := if v = .wizzilab then heed 8 else skip 2 ++ heed 6) ?_ (after (Rigid.accessClass _) (cons (address _ _) (last (nlsState _ _))))).cast ?_
  · split
    · apply Rigid.tight
      apply Rigid.cast
      case h => unfold Form.addresseeControlWizzilab; rigid
      rfl
    · exact (cons (reserved 2) (after (Rigid.field 2 _) (after (Rigid.field 4 _) (after (Rigid.given _) nil)))).cast rfl
  · simp [Ignored.addressee]

theorem fileOffset (f : FileOffset) : Tight (Form.fileOffset f) (Ignored.fileOffset f) :=
  (after (Rigid.field 8 _) (last (length _))).cast rfl

theorem fileProperties (p : Data.FileProperties) : Tight (Form.fileProperties p) (heed 4 ++ skip 2 ++ heed 2) :=
  (after (Rigid.flag _) (after (Rigid.field 3 _) (cons (reserved 2) (after (Rigid.field 2 _) nil)))).cast rfl

theorem fileHeader (h : Data.FileHeader) : Tight (Form.fileHeader h) Ignored.fileHeader :=
  (after (Rigid.filePermissions _) (cons (fileProperties _) (after (Rigid.field 8 _) (after (Rigid.field 8 _)
    (after (Rigid.number 4 _) (after (Rigid.number 4 _) nil)))))).cast rfl

theorem dllConfig (d : DllConfig) : Tight (Form.dllConfig d) (heed 8 ++ skip 16 ++ heed 32) :=
  (after (Rigid.field 8 _) (cons (reserved 16) (after (Rigid.field 8 _) (after (Rigid.field 8 _)
    (after (Rigid.field 8 _) (after (Rigid.field 8 _) nil)))))).cast rfl

theorem dllStatus (d : DllStatus) : Tight (Form.dllStatus d) (heed 24 ++ Ignored.channelHeader ++ heed 96) :=
  (after (Rigid.field 8 _) (after (Rigid.field 8 _) (after (Rigid.field 8 _) (cons (channelHeader _)
    (after (Rigid.number 2 _) (after (Rigid.number 2 _) (after (Rigid.number 4 _)
    (after (Rigid.number 4 _) nil)))))))).cast rfl

theorem engineeringMode (d : EngineeringMode) :
    Tight (Form.engineeringMode d) (heed 24 ++ Ignored.channel ++ heed 8) :=
  (after (Rigid.field 8 _) (after (Rigid.field 8 _) (after (Rigid.field 8 _) (cons (channel _)
    (after (Rigid.field 8 _) nil))))).cast rfl

/-- A form behind a condition. -/
theorem when {p : Prop} {F : Form} {m : List Bool} (h : Tight F m) : Tight (Form.all [Form.given p, F]) m :=
  (after (Rigid.given p) (last h)).cast rfl

theorem file (big : Bool) (b n : Nat) (f : File) : Tight (Form.file big b n f) (Ignored.content f) := by
  cases f with
  | accessProfile i p => exact when (accessProfile p)
  | uId a => exact when (address _ _)
  | factorySettings f => exact when (Rigid.factorySettings f).tight
  | firmwareVersion f => exact when (Rigid.firmwareVersion f).tight
  | engineeringMode f => exact when (engineeringMode f)
  | vId a => exact when (address _ _)
  | phyStatus p => exact when (Rigid.phyStatus p).tight
  | dllConfig f => exact when (dllConfig f)
  | dllStatus f => exact when (dllStatus f)
  | nwlSecurityKey f => exact when (Rigid.hostNumber _ 16 _).tight
  | other d => exact when (Rigid.sized _ d).tight

/-- A length nobody looks at, in front of less than 64 bytes. -/
theorem sized {F : Form} {m : List Bool} (h : Tight F m) (hm : m.length / 8 < 64) :
    Tight (Form.all [Form.anyLength, F]) (Ignored.sized m) := by
  refine (cons anyLength (last h)).cast ?_
  have e6 : (2 : Nat) ^ 6 = 64 := rfl
  unfold Ignored.sized Ignored.size Spec.lengthExtra
  rw [if_pos (by omega)]

theorem fileSized (big : Bool) (b : Nat) (f : File) (hl : (∀ d, f ≠ .other d) → (Ignored.content f).length / 8 < 64) :
    Tight (fun c => ∃ n, Form.all [Form.length n, Form.file big b n f] c) (Ignored.file f) := by
  have hs : (∀ n n' c, Form.file big b n f c → Form.file big b n' f c) → (∀ d, f ≠ .other d) →
      Tight (fun c => ∃ n, Form.all [Form.length n, Form.file big b n f] c) (Ignored.sized (Ignored.content f)) := by
    intro hn hf
    refine (sized (file big b 0 f) (hl hf)).congr ?_
    intro c
    constructor
    · rintro ⟨x, y, rfl, ⟨n, hx⟩, y1, y2, rfl, hy, rfl⟩
      exact ⟨n, x, _, rfl, hx, y1, [], rfl, hn 0 n _ hy, rfl⟩
    · rintro ⟨n, x, y, rfl, hx, y1, y2, rfl, hy, rfl⟩
      exact ⟨x, _, rfl, ⟨n, hx⟩, y1, [], rfl, hn n 0 _ hy, rfl⟩
  cases f with
  | other d =>
    refine (cons (length d.length) (last (file big b d.length (.other d)))).congr ?_
    intro c
    constructor
    · intro h; exact ⟨_, h⟩
    · rintro ⟨n, x, y, rfl, hx, y1, y2, rfl, hy, rfl⟩
      have : d.length = n := by
        obtain ⟨_, _, -, -, _, _, -, ⟨_, _, -, hn, -⟩, -⟩ := hy
        exact hn.2
      subst this
      exact ⟨x, _, rfl, hx, y1, [], rfl, hy, rfl⟩
  | _ => exact hs (fun _ _ _ h => h) (by intro d h; cases h)

theorem dash7InterfaceStatus (v : Variant) (s : Dash7InterfaceStatus) :
    Tight (Form.dash7InterfaceStatus v s) (Ignored.dash7InterfaceStatus v s) :=
  (cons (channel _) (after (Rigid.field 8 _) (after (Rigid.field 8 _) (after (Rigid.field 8 _)
    (after (Rigid.flag _) (after (Rigid.flag _) (after (Rigid.flag _) (after (Rigid.flag _)
    (cons (reserved 4) (after (Rigid.field 8 _) (after (Rigid.field 8 _) (cons (varInt _)
    (last (addressee v _)))))))))))))).cast (by unfold Ignored.dash7InterfaceStatus; marks)

theorem addressee_length (v : Variant) (a : Addressee) : (Ignored.addressee v a).length ≤ 120 := by
  have h1 : (Ignored.address a.address).length ≤ 64 := by
    cases a.address <;> simp [Ignored.address, Ignored.varInt, heed, skip]
    split <;> simp
  have h2 : (Ignored.nlsState a.nlsState).length ≤ 40 := by
    cases a.nlsState <;> simp [Ignored.nlsState, heed]
  have h3 : (if v = .wizzilab then heed 8 else skip 2 ++ heed 6).length = 8 := by split <;> rfl
  unfold Ignored.addressee
  simp only [List.length_append, h3]
  have h4 : (heed 8).length = 8 := rfl
  omega

theorem varInt_length (v : VarInt) : (Ignored.varInt v).length = 8 := by
  unfold Ignored.varInt; split <;> rfl

theorem dash7InterfaceStatus_length (v : Variant) (s : Dash7InterfaceStatus) :
    (Ignored.dash7InterfaceStatus v s).length / 8 < 64 := by
  have := addressee_length v s.addressee
  unfold Ignored.dash7InterfaceStatus
  simp only [List.length_append, varInt_length]
  have h1 : Ignored.channel.length = 24 := rfl
  simp only [h1, heed, skip, List.length_replicate]
  omega

/-- Fewer forms, none of which is changed by a flipped bit. -/
theorem sub {F G : Form} {n : Nat} (h : Tight F (heed n)) (hs : ∀ c, G c → F c) : Tight G (heed n) := by
  refine ⟨fun c hc => h.min c (hs c hc), fun p x q hc hl => ⟨fun hd => (h.one p x q (hs _ hc) hl).1 (hs _ hd), ?_⟩⟩
  intro hm
  simp [heed, List.getElem?_replicate] at hm

theorem interfaceStatus (v : Variant) (b : Bool) (o : Op.InterfaceStatusOperation)
    (h : ∀ d, o.status = .other d → b = false) :
    Tight (Form.interfaceStatus v b o) (Ignored.interfaceStatus v o.status) := by
  obtain ⟨t, s⟩ := o
  cases s with
  | other d =>
    have hb := h d rfl
    subst hb
    cases t <;> first
      | exact given_false _
      | exact cons (sub (length d.length) fun c hc => hc.1) (last (Rigid.bytes d).tight)
  | host =>
    cases t <;> first
      | exact given_false _
      | exact (after (Rigid.field 8 _) (cons anyLength nil)).cast rfl
  | serial =>
    cases t <;> first
      | exact given_false _
      | exact (after (Rigid.field 8 _) (cons anyLength nil)).cast rfl
  | dash7 s =>
    cases t <;> first
      | exact given_false _
      | exact (after (Rigid.field 8 _) (sized (dash7InterfaceStatus v s) (dash7InterfaceStatus_length v s))).cast rfl

theorem interfaceFinalStatus (o : Op.InterfaceFinalStatusOperation) :
    Tight (Form.interfaceFinalStatus o) (heed 8 ++ Ignored.interfaceFinalStatus o.status) := by
  unfold Form.interfaceFinalStatus
  cases o.status with
  | dash7 c =>
    exact (after (Rigid.field 8 _) (after (Rigid.given _) (sized (Rigid.finalStatusCode c).tight (by decide)))).cast rfl
  | other b =>
    exact (after (Rigid.field 8 _) (after (Rigid.given _) (cons (length _) (last (Rigid.bytes b).tight)))).cast rfl

theorem dash7InterfaceConfiguration (v : Variant) (c : Dash7InterfaceConfiguration) :
    Tight (Form.dash7InterfaceConfiguration v c) (heed 8 ++ Ignored.varInt c.dormantSessionTimeout ++
      (if v = .subiot then [] else Ignored.varInt c.executionDelayTimeout) ++ Ignored.addressee v c.addressee) := by
  refine (after (Rigid.qos _) (cons (varInt _) (cons
    (m := if v = .subiot then [] else Ignored.varInt c.executionDelayTimeout) ?_ (last (addressee v _))))).cast ?_
  · split
    · exact (Rigid.given _).tight
    · exact varInt _
  · marks

theorem loRaWAN (c : LoRaWANInterfaceConfiguration) : Tight (Form.loRaWAN c) Ignored.loRaWAN :=
  (cons (reserved 5) (after (Rigid.flag _) (after (Rigid.flag _) (cons (reserved 1) (after (Rigid.field 8 _)
    (after (Rigid.field 8 _) nil)))))).cast rfl

theorem interfaceConfiguration (v : Variant) (big : Bool) (c : InterfaceConfiguration) :
    Tight (Form.interfaceConfiguration v big c) (Ignored.interfaceConfiguration v c) := by
  cases c with
  | host => exact last (Rigid.field 8 _).tight
  | serial => exact last (Rigid.field 8 _).tight
  | loRaWanABP c =>
    exact (after (Rigid.field 8 _) (last (cons (loRaWAN _) (after (Rigid.sized' 16 _) (after (Rigid.sized' 16 _)
      (after (Rigid.hostNumber _ 4 _) (after (Rigid.hostNumber _ 4 _) nil))))))).cast (by
      unfold Ignored.interfaceConfiguration; marks)
  | loRaWanOTAA c =>
    exact (after (Rigid.field 8 _) (last (cons (loRaWAN _) (after (Rigid.sized' 8 _) (after (Rigid.sized' 8 _)
      (after (Rigid.sized' 16 _) nil)))))).cast (by unfold Ignored.interfaceConfiguration; marks)
  | dash7 c =>
    exact (after (Rigid.field 8 _) (last (dash7InterfaceConfiguration v c))).cast (by
      unfold Ignored.interfaceConfiguration; marks)
  | unknown i => exact (after (Rigid.field 8 _) (last (Rigid.given _).tight)).cast rfl

theorem indirectInterface (v : Variant) (c : IndirectInterface) :
    Tight (Form.indirectInterface v c) (Ignored.indirectInterface v c) := by
  cases c with
  | host => exact last (Rigid.field 8 _).tight
  | serial => exact last (Rigid.field 8 _).tight
  | dash7 a => exact after (Rigid.field 8 _) (last (addressee v a))
  | unknown i => exact (after (Rigid.field 8 _) (last (Rigid.given _).tight)).cast rfl

theorem query (q : Query) : Tight (Form.query q) (Ignored.query q) := by
  cases q with
  | nonVoid q =>
    exact (after (Rigid.field 3 _) (cons (reserved 5) (cons (length _) (last (fileOffset _))))).cast (by
      unfold Ignored.query; marks)
  | comparisonWithZero q =>
    exact (after (Rigid.field 3 _) (after (Rigid.flag _) (after (Rigid.arithmetic _) (cons (length _)
      (after (Rigid.sized _ _) (last (fileOffset _))))))).cast (by unfold Ignored.query; marks)
  | comparisonWithValue q =>
    exact (after (Rigid.field 3 _) (after (Rigid.flag _) (after (Rigid.arithmetic _) (cons (length _)
      (after (Rigid.sized _ _) (after (Rigid.sized _ _) (last (fileOffset _)))))))).cast (by unfold Ignored.query; marks)
  | comparisonWithOtherFile q =>
    exact (after (Rigid.field 3 _) (after (Rigid.flag _) (after (Rigid.arithmetic _) (cons (length _)
      (after (Rigid.sized _ _) (cons (fileOffset _) (last (fileOffset _)))))))).cast (by unfold Ignored.query; marks)
  | bitmapRangeComparison q =>
    exact (after (Rigid.field 3 _) (after (Rigid.flag _) (after (Rigid.range _) (cons (length _)
      (cons (length _) (cons (length _) (after (Rigid.sized _ _) (last (fileOffset _))))))))).cast (by
        unfold Ignored.query; marks)
  | stringTokenSearch q =>
    exact (after (Rigid.field 3 _) (after (Rigid.flag _) (cons (reserved 1) (after (Rigid.field 3 _) (cons (length _)
      (after (Rigid.sized _ _) (after (Rigid.sized _ _) (last (fileOffset _))))))))).cast (by
        unfold Ignored.query; marks)

theorem status (v : Variant) (b : Bool) (t : Op.StatusType) (s : Op.Status)
    (h : ∀ o d, s = .interface o → o.status = .other d → b = false) : Tight (Form.status v b t s) (Ignored.status v s) := by
  cases s with
  | action s =>
    cases t <;> first
      | exact given_false _
      | exact (after (Rigid.field 8 _) (last (Rigid.field 8 _).tight)).cast rfl
  | interface o =>
    cases t <;> first
      | exact given_false _
      | exact interfaceStatus v b o (fun d => h o d rfl)
  | interfaceFinal o =>
    cases t <;> first
      | exact given_false _
      | (show Tight (if v = .wizzilab then _ else _) _
         split
         · exact interfaceFinalStatus o
         · exact given_false _)

end Tight

end Dash7
