import Verif.Lemmas.Alike
import Verif.Lemmas.Flip2

/-!
# Changing any bits: type by type
-/

namespace Dash7

open Alike (heed skip)

theorem Alike.heed_append (a b : Nat) : heed a ++ heed b = heed (a + b) := by simp [heed, List.replicate_append_replicate]
theorem Alike.heed_append_left (a b : Nat) (m : List Mark) : heed a ++ (heed b ++ m) = heed (a + b) ++ m := by
  rw [← List.append_assoc, heed_append]

/-- Brings rows of marks into the same shape. -/
macro "alike" : tactic => `(tactic| (simp only [List.append_assoc, List.nil_append, List.append_nil, Alike.heed_append,
  Alike.heed_append_left, Nat.reduceAdd, Nat.reduceMul] <;> try rfl))

namespace Whole

/-- One form only, in front of others. -/
theorem after {F : Form} {Fs : List Form} {n : Nat} {m : List Mark} (hf : Rigid F n) (hg : Whole (Form.all Fs) m) :
    Whole (Form.all (F :: Fs)) (heed n ++ m) := cons hf.whole hg

theorem given_false (m : List Mark) : Whole (Form.given False) m := never m fun _ h => h.2

theorem all_map {α : Type} (f : α → Form) (g : α → List Mark) (h : ∀ a, Whole (f a) (g a)) (l : List α) :
    Whole (Form.all (l.map f)) (l.flatMap g) := by
  induction l with
  | nil => exact nil
  | cons a l ih => exact cons (h a) ih

theorem channelHeader (h : ChannelHeader) : Whole (Form.channelHeader h) Alike.channelHeader :=
  (cons (reserved 1) (after (Rigid.field 3 _) (after (Rigid.field 2 _) (after (Rigid.field 2 _) nil)))).cast rfl

theorem channel (c : Channel) : Whole (Form.channel c) Alike.channel :=
  (cons (channelHeader _) (after (Rigid.number 2 _) nil)).cast rfl

theorem subProfile (s : SubProfile) : Whole (Form.subProfile s) (Alike.subProfile s) :=
  (after (Rigid.field 8 _) (last (varInt _))).cast rfl

theorem accessProfile (a : AccessProfile) : Whole (Form.accessProfile a) (Alike.accessProfile a) :=
  (cons (channelHeader _) (cons (all_map _ _ subProfile _)
    (last ((Rigid.all_map _ 56 Rigid.subBand a.subBands.toList).cast (k := 8 * 56) (by simp)).whole))).cast (by
      simp [Alike.accessProfile])

theorem address (t : AddressType) (a : Address) : Whole (Form.address t a) (Alike.address a) := by
  cases t <;> cases a <;>
    first
    | exact given_false _
    | exact varInt _
    | exact nil
    | exact (Rigid.number 8 _).whole
    | exact (Rigid.number 2 _).whole

theorem nlsState (t : NlsMethod) (a : NlsState) : Whole (Form.nlsState t a) (Alike.nlsState a) := by
  cases t <;> cases a <;>
    first
    | exact given_false _
    | exact nil
    | exact ((Rigid.bytes _).cast (by simp)).whole

theorem addressee (v : Variant) (a : Addressee) : Whole (Form.addressee v a) (Alike.addressee v a) := by
  refine (cons (m := if v = .wizzilab then heed 8 else skip 2 ++ heed 6) ?_ (after (Rigid.accessClass _) (cons (address _ _) (last (nlsState _ _))))).cast ?_
  · split
    · apply Rigid.whole
      apply Rigid.cast
      case h => unfold Form.addresseeControlWizzilab; rigid
      rfl
    · exact (cons (reserved 2) (after (Rigid.field 2 _) (after (Rigid.field 4 _) (after (Rigid.given _) nil)))).cast rfl
  · simp [Alike.addressee]

theorem fileOffset (f : FileOffset) : Whole (Form.fileOffset f) (Alike.fileOffset f) :=
  (after (Rigid.field 8 _) (last (length _))).cast rfl

theorem fileProperties (p : Data.FileProperties) : Whole (Form.fileProperties p) (heed 4 ++ skip 2 ++ heed 2) :=
  (after (Rigid.flag _) (after (Rigid.field 3 _) (cons (reserved 2) (after (Rigid.field 2 _) nil)))).cast rfl

theorem fileHeader (h : Data.FileHeader) : Whole (Form.fileHeader h) Alike.fileHeader :=
  (after (Rigid.filePermissions _) (cons (fileProperties _) (after (Rigid.field 8 _) (after (Rigid.field 8 _)
    (after (Rigid.number 4 _) (after (Rigid.number 4 _) nil)))))).cast rfl

theorem dllConfig (d : DllConfig) : Whole (Form.dllConfig d) (heed 8 ++ skip 16 ++ heed 32) :=
  (after (Rigid.field 8 _) (cons (reserved 16) (after (Rigid.field 8 _) (after (Rigid.field 8 _)
    (after (Rigid.field 8 _) (after (Rigid.field 8 _) nil)))))).cast rfl

theorem dllStatus (d : DllStatus) : Whole (Form.dllStatus d) (heed 24 ++ Alike.channelHeader ++ heed 96) :=
  (after (Rigid.field 8 _) (after (Rigid.field 8 _) (after (Rigid.field 8 _) (cons (channelHeader _)
    (after (Rigid.number 2 _) (after (Rigid.number 2 _) (after (Rigid.number 4 _)
    (after (Rigid.number 4 _) nil)))))))).cast rfl

theorem engineeringMode (d : EngineeringMode) :
    Whole (Form.engineeringMode d) (heed 24 ++ Alike.channel ++ heed 8) :=
  (after (Rigid.field 8 _) (after (Rigid.field 8 _) (after (Rigid.field 8 _) (cons (channel _)
    (after (Rigid.field 8 _) nil))))).cast rfl

/-- A form behind a condition. -/
theorem when {p : Prop} {F : Form} {m : List Mark} (h : Whole F m) : Whole (Form.all [Form.given p, F]) m :=
  (after (Rigid.given p) (last h)).cast rfl

theorem file (big : Bool) (b n : Nat) (f : File) : Whole (Form.file big b n f) (Alike.content f) := by
  cases f with
  | accessProfile i p => exact when (accessProfile p)
  | uId a => exact when (address _ _)
  | factorySettings f => exact when (Rigid.factorySettings f).whole
  | firmwareVersion f => exact when (Rigid.firmwareVersion f).whole
  | engineeringMode f => exact when (engineeringMode f)
  | vId a => exact when (address _ _)
  | phyStatus p => exact when (Rigid.phyStatus p).whole
  | dllConfig f => exact when (dllConfig f)
  | dllStatus f => exact when (dllStatus f)
  | nwlSecurityKey f => exact when (Rigid.hostNumber _ 16 _).whole
  | other d => exact when (Rigid.sized _ d).whole

/-- A length nobody looks at, in front of less than 64 bytes. -/
theorem sized {F : Form} {m : List Mark} (h : Whole F m) (hm : m.length / 8 < 64) :
    Whole (Form.all [Form.anyLength, F]) (Alike.sized m) := by
  refine (cons anyLength (last h)).cast ?_
  have e6 : (2 : Nat) ^ 6 = 64 := rfl
  unfold Alike.sized Alike.size Spec.lengthExtra
  rw [if_pos (by omega)]

theorem fileSized (big : Bool) (b : Nat) (f : File) (hl : (∀ d, f ≠ .other d) → (Alike.content f).length / 8 < 64) :
    Whole (fun c => ∃ n, Form.all [Form.length n, Form.file big b n f] c) (Alike.file f) := by
  have hs : (∀ n n' c, Form.file big b n f c → Form.file big b n' f c) → (∀ d, f ≠ .other d) →
      Whole (fun c => ∃ n, Form.all [Form.length n, Form.file big b n f] c) (Alike.sized (Alike.content f)) := by
    intro hn hf
    refine (sized (file big b 0 f) (hl hf)).congr ?_
    intro c
    constructor
    · rintro ⟨x, y, rfl, ⟨n, hx⟩, y1, y2, rfl, hy, rfl⟩
      exact ⟨n, x, _, rfl, hx, y1, [], rfl, hn 0 n _ hy, rfl⟩
    · rintro ⟨n, x, y, rfl, hx, y1, y2, rfl, hy, rfl⟩
      exact ⟨x, _, rfl, ⟨n, hx⟩, y1, [], rfl, hn n 0 _ hy, rfl⟩
  cases f with
  | other d =>
    refine (cons (length d.length) (last (file big b d.length (.other d)))).congr ?_
    intro c
    constructor
    · intro h; exact ⟨_, h⟩
    · rintro ⟨n, x, y, rfl, hx, y1, y2, rfl, hy, rfl⟩
      have : d.length = n := by
        obtain ⟨_, _, -, -, _, _, -, ⟨_, _, -, hn, -⟩, -⟩ := hy
        exact hn.2
      subst this
      exact ⟨x, _, rfl, hx, y1, [], rfl, hy, rfl⟩
  | _ => exact hs (fun _ _ _ h => h) (by intro d h; cases h)

theorem dash7InterfaceStatus (v : Variant) (s : Dash7InterfaceStatus) :
    Whole (Form.dash7InterfaceStatus v s) (Alike.dash7InterfaceStatus v s) :=
  (cons (channel _) (after (Rigid.field 8 _) (after (Rigid.field 8 _) (after (Rigid.field 8 _)
    (after (Rigid.flag _) (after (Rigid.flag _) (after (Rigid.flag _) (after (Rigid.flag _)
    (cons (reserved 4) (after (Rigid.field 8 _) (after (Rigid.field 8 _) (cons (varInt _)
    (last (addressee v _)))))))))))))).cast (by unfold Alike.dash7InterfaceStatus; alike)

theorem addressee_length (v : Variant) (a : Addressee) : (Alike.addressee v a).length ≤ 120 := by
  have h1 : (Alike.address a.address).length ≤ 64 := by
    cases a.address <;> simp [Alike.address, Alike.varInt, heed, skip]
  have h2 : (Alike.nlsState a.nlsState).length ≤ 40 := by
    cases a.nlsState <;> simp [Alike.nlsState, heed]
  have h3 : (if v = .wizzilab then heed 8 else skip 2 ++ heed 6).length = 8 := by split <;> rfl
  unfold Alike.addressee
  simp only [List.length_append, h3]
  have h4 : (heed 8).length = 8 := rfl
  omega

theorem varInt_length (v : VarInt) : (Alike.varInt v).length = 8 := by
  simp [Alike.varInt, skip]

theorem dash7InterfaceStatus_length (v : Variant) (s : Dash7InterfaceStatus) :
    (Alike.dash7InterfaceStatus v s).length / 8 < 64 := by
  have := addressee_length v s.addressee
  unfold Alike.dash7InterfaceStatus
  simp only [List.length_append, varInt_length]
  have h1 : Alike.channel.length = 24 := rfl
  simp only [h1, heed, skip, List.length_replicate]
  omega

/-- Fewer forms, none of which is changed by a flipped bit. -/
theorem sub {F G : Form} {n : Nat} (h : Whole F (heed n)) (hs : ∀ c, G c → F c) : Whole G (heed n) := by
  refine ⟨fun c hc => h.min c (hs c hc), fun _ _ => heed_room n, fun c d hc hl hd => ?_⟩
  have := h.all c d (hs c hc) hl hd
  refine ⟨fun hG => this.1 (hs _ hG), fun hS => ?_⟩
  have hlen : (heed n).length = n := by simp [heed]
  rw [Alike.Same.heed (hl.trans hlen) (hd.trans hlen)] at hS
  exact hS ▸ hc

theorem interfaceStatus (v : Variant) (b : Bool) (o : Op.InterfaceStatusOperation)
    (h : ∀ d, o.status = .other d → b = false) :
    Whole (Form.interfaceStatus v b o) (Alike.interfaceStatus v o.status) := by
  obtain ⟨t, s⟩ := o
  cases s with
  | other d =>
    have hb := h d rfl
    subst hb
    cases t <;> first
      | exact given_false _
      | exact cons (sub (length d.length) fun c hc => hc.1) (last (Rigid.bytes d).whole)
  | host =>
    cases t <;> first
      | exact given_false _
      | exact (after (Rigid.field 8 _) (cons anyLength nil)).cast rfl
  | serial =>
    cases t <;> first
      | exact given_false _
      | exact (after (Rigid.field 8 _) (cons anyLength nil)).cast rfl
  | dash7 s =>
    cases t <;> first
      | exact given_false _
      | exact (after (Rigid.field 8 _) (sized (dash7InterfaceStatus v s) (dash7InterfaceStatus_length v s))).cast rfl

theorem interfaceFinalStatus (o : Op.InterfaceFinalStatusOperation) :
    Whole (Form.interfaceFinalStatus o) (heed 8 ++ Alike.interfaceFinalStatus o.status) := by
  unfold Form.interfaceFinalStatus
  cases o.status with
  | dash7 c =>
    exact (after (Rigid.field 8 _) (after (Rigid.given _) (sized (Rigid.finalStatusCode c).whole (by decide)))).cast rfl
  | other b =>
    exact (after (Rigid.field 8 _) (after (Rigid.given _) (cons (length _) (last (Rigid.bytes b).whole)))).cast rfl

theorem dash7InterfaceConfiguration (v : Variant) (c : Dash7InterfaceConfiguration) :
    Whole (Form.dash7InterfaceConfiguration v c) (heed 8 ++ Alike.varInt c.dormantSessionTimeout ++
      (if v = .subiot then [] else Alike.varInt c.executionDelayTimeout) ++ Alike.addressee v c.addressee) := by
  refine (after (Rigid.qos _) (cons (varInt _) (cons
    (m := if v = .subiot then [] else Alike.varInt c.executionDelayTimeout) ?_ (last (addressee v _))))).cast ?_
  · split
    · exact (Rigid.given _).whole
    · exact varInt _
  · alike

theorem loRaWAN (c : LoRaWANInterfaceConfiguration) : Whole (Form.loRaWAN c) Alike.loRaWAN :=
  (cons (reserved 5) (after (Rigid.flag _) (after (Rigid.flag _) (cons (reserved 1) (after (Rigid.field 8 _)
    (after (Rigid.field 8 _) nil)))))).cast rfl

theorem interfaceConfiguration (v : Variant) (big : Bool) (c : InterfaceConfiguration) :
    Whole (Form.interfaceConfiguration v big c) (Alike.interfaceConfiguration v c) := by
  cases c with
  | host => exact last (Rigid.field 8 _).whole
  | serial => exact last (Rigid.field 8 _).whole
  | loRaWanABP c =>
    exact (after (Rigid.field 8 _) (last (cons (loRaWAN _) (after (Rigid.sized' 16 _) (after (Rigid.sized' 16 _)
      (after (Rigid.hostNumber _ 4 _) (after (Rigid.hostNumber _ 4 _) nil))))))).cast (by
      unfold Alike.interfaceConfiguration; alike)
  | loRaWanOTAA c =>
    exact (after (Rigid.field 8 _) (last (cons (loRaWAN _) (after (Rigid.sized' 8 _) (after (Rigid.sized' 8 _)
      (after (Rigid.sized' 16 _) nil)))))).cast (by unfold Alike.interfaceConfiguration; alike)
  | dash7 c =>
    exact (after (Rigid.field 8 _) (last (dash7InterfaceConfiguration v c))).cast (by
      unfold Alike.interfaceConfiguration; alike)
  | unknown i => exact (after (Rigid.field 8 _) (last (Rigid.given _).whole)).cast rfl

theorem indirectInterface (v : Variant) (c : IndirectInterface) :
    Whole (Form.indirectInterface v c) (Alike.indirectInterface v c) := by
  cases c with
  | host => exact last (Rigid.field 8 _).whole
  | serial => exact last (Rigid.field 8 _).whole
  | dash7 a => exact after (Rigid.field 8 _) (last (addressee v a))
  | unknown i => exact (after (Rigid.field 8 _) (last (Rigid.given _).whole)).cast rfl

theorem query (q : Query) : Whole (Form.query q) (Alike.query q) := by
  cases q with
  | nonVoid q =>
    exact (after (Rigid.field 3 _) (cons (reserved 5) (cons (length _) (last (fileOffset _))))).cast (by
      unfold Alike.query; alike)
  | comparisonWithZero q =>
    exact (after (Rigid.field 3 _) (after (Rigid.flag _) (after (Rigid.arithmetic _) (cons (length _)
      (after (Rigid.sized _ _) (last (fileOffset _))))))).cast (by unfold Alike.query; alike)
  | comparisonWithValue q =>
    exact (after (Rigid.field 3 _) (after (Rigid.flag _) (after (Rigid.arithmetic _) (cons (length _)
      (after (Rigid.sized _ _) (after (Rigid.sized _ _) (last (fileOffset _)))))))).cast (by unfold Alike.query; alike)
  | comparisonWithOtherFile q =>
    exact (after (Rigid.field 3 _) (after (Rigid.flag _) (after (Rigid.arithmetic _) (cons (length _)
      (after (Rigid.sized _ _) (cons (fileOffset _) (last (fileOffset _)))))))).cast (by unfold Alike.query; alike)
  | bitmapRangeComparison q =>
    exact (after (Rigid.field 3 _) (after (Rigid.flag _) (after (Rigid.range _) (cons (length _)
      (cons (length _) (cons (length _) (after (Rigid.sized _ _) (last (fileOffset _))))))))).cast (by
        unfold Alike.query; alike)
  | stringTokenSearch q =>
    exact (after (Rigid.field 3 _) (after (Rigid.flag _) (cons (reserved 1) (after (Rigid.field 3 _) (cons (length _)
      (after (Rigid.sized _ _) (after (Rigid.sized _ _) (last (fileOffset _))))))))).cast (by
        unfold Alike.query; alike)

theorem status (v : Variant) (b : Bool) (t : Op.StatusType) (s : Op.Status)
    (h : ∀ o d, s = .interface o → o.status = .other d → b = false) : Whole (Form.status v b t s) (Alike.status v s) := by
  cases s with
  | action s =>
    cases t <;> first
      | exact given_false _
      | exact (after (Rigid.field 8 _) (last (Rigid.field 8 _).whole)).cast rfl
  | interface o =>
    cases t <;> first
      | exact given_false _
      | exact interfaceStatus v b o (fun d => h o d rfl)
  | interfaceFinal o =>
    cases t <;> first
      | exact given_false _
      | (show Whole (if v = .wizzilab then _ else _) _
         split
         · exact interfaceFinalStatus o
         · exact given_false _)

end Whole

end Dash7
