import Verif.Lemmas.Ahead
import Verif.Lemmas.Hope4
import Verif.Props.Offset
import Verif.Props.FrameAccept
import Verif.Props.Survive
import Verif.Props.Default
import Verif.Props.FrameUnique

/-!
# C79: what holds of every decoded frame
-/

namespace Dash7
open Sample Spec

/-- An action that can be encoded, and that by itself comes back from its encoding, with the opcode of its kind in its
opcode field; but for a TX state and the state of an interface of unknown type. -/
def Spec.soundAction (cfg : Cfg) (a : Action) : Prop :=
  ∃ bytes, a.toBytes cfg = .ok bytes ∧
    (a.isTx = false → a.isOther = false → Action.tryFrom cfg bytes = .ok (Spec.rightOpcode a))

/-- A command of such actions, in which nothing follows an indirect forward. -/
def Spec.soundCommand (cfg : Cfg) (c : Command) : Prop :=
  Spec.forwardLast c.actions ∧ ∀ a ∈ c.actions, Spec.soundAction cfg a

/-! ## Headers -/

theorem Form.flagged_some {α : Type} {b : Bool} {F : α → Form} {o : Option α} {c : List Bool}
    (h : Form.flagged b F o c) : o.isSome = b ∧ ∀ a, o = some a → F a c := by
  cases b <;> cases o <;> first | exact absurd h.2 id | skip
  · exact ⟨rfl, by simp⟩
  · exact ⟨rfl, by rintro _ ⟨⟩; exact h⟩

theorem Form.varInt_wf {v : VarInt} {c : List Bool} (h : Form.varInt v c) : v.WF :=
  (VarInt.post c [] v ((VarInt.fits v c []).2 h)).1

theorem Form.address_wf {t : AddressType} {a : Address} {c : List Bool} (h : Form.address t a c) :
    a.type = t ∧ a.WF :=
  (Address.post t c [] a ((Address.fits t a c []).2 h)).1

theorem Form.transHeader_wf {h : Trans.Header} {c : List Bool} (hh : Form.transHeader h c) : h.WF := by
  obtain ⟨-, -, -, -, -, -, -, -, -, -, -, -, c1, -, -, h1, c2, -, -, h2, c3, -, -, h3, c4, -, -, h4, c5, -, -, h5, -⟩ := hh
  obtain ⟨s1, -⟩ := Form.flagged_some h1
  obtain ⟨s2, v2⟩ := Form.flagged_some h2
  obtain ⟨s3, v3⟩ := Form.flagged_some h3
  obtain ⟨s4, v4⟩ := Form.flagged_some h4
  obtain ⟨s5, -⟩ := Form.flagged_some h5
  exact ⟨s1, s2, s3, s4, s5, fun v h => Form.varInt_wf (v2 v h), fun v h => Form.varInt_wf (v3 v h),
    fun v h => Form.varInt_wf (v4 v h)⟩

theorem Form.netHeader_wf {v : Variant} {h : Net.Header} {c : List Bool} (hh : Form.netHeader v h c) : h.WF := by
  obtain ⟨-, -, -, -, c1, -, -, h1, c2, -, -, h2, c3, -, -, h3, -⟩ := hh
  exact ⟨(Form.flagged_some h1).1, (AccessClass.post c2 [] _ ((AccessClass.fits _ c2 []).2 h2)).1,
    (Form.address_wf h3).1, (Form.address_wf h3).2⟩

theorem Form.foregroundHeader_wf {h : ForegroundHeader} {c : List Bool} (hh : Form.foregroundHeader h c) : h.WF := by
  obtain ⟨c1, -, -, h1, -, -, -, -, c2, -, -, h2, c3, -, -, h3, -⟩ := hh
  obtain ⟨-, -, -, -, c4, -, -, ⟨h4, h5⟩, -⟩ := h2
  refine ⟨(Length.post c1 [] _ ((Length.fits _ c1 []).2 h1)).1.1, ?_, (Form.address_wf h3).1, (Form.address_wf h3).2⟩
  rw [← h5, Form.value_eq]
  have := bitsNat_lt c4
  rw [h4] at this
  exact this

/-! ## Commands -/

theorem reading_decoded {cfg : Cfg} {limit size : Nat} {stop : Bool} {as : List Action} {s left : List Bool} {n : Nat}
    (h : reading cfg limit size stop as s left n) : ∀ a ∈ as, ∃ n, Action.Decoded cfg a n := by
  induction as generalizing stop s n with
  | nil => simp
  | cons a as ih =>
    obtain ⟨-, -, -, -, wire, more, m, -, hw, hr, -⟩ := h
    intro b hb
    rcases List.mem_cons.1 hb with rfl | hb
    · exact ⟨_, operand_decoded hw⟩
    · exact ih hr b hb

theorem reading_forwardLast {cfg : Cfg} {limit size : Nat} {stop : Bool} {as : List Action} {s left : List Bool} {n : Nat}
    (h : reading cfg limit size stop as s left n) : Spec.forwardLast as := by
  induction as generalizing stop s n with
  | nil => simp [Spec.forwardLast]
  | cons a as ih =>
    obtain ⟨-, -, -, -, wire, more, m, -, hw, hr, -⟩ := h
    cases as with
    | nil => simp [Spec.forwardLast]
    | cons b as =>
      have hb := ih hr
      obtain ⟨-, hs, -⟩ := hr
      intro c hc
      rw [List.dropLast_cons_of_ne_nil (by simp)] at hc
      rcases List.mem_cons.1 hc with rfl | hc
      · exact hs
      · exact hb c hc

theorem decoded_writes {cfg : Cfg} {as : List Action} (h : ∀ a ∈ as, ∃ n, Action.Decoded cfg a n) :
    ∃ bs, W.list (Action.write cfg) as = .ok bs := by
  induction as with
  | nil => exact ⟨[], rfl⟩
  | cons a as ih =>
    obtain ⟨n, hn⟩ := h a (by simp)
    obtain ⟨x, hx, -⟩ := hn.len
    obtain ⟨y, hy⟩ := ih fun b hb => h b (by simp [hb])
    refine ⟨x ++ y, ?_⟩
    unfold W.list at hy ⊢
    simp only [List.map_cons, W.seq, hx, hy]

theorem decoded_sound {cfg : Cfg} {a : Action} {n : Nat} (h : Action.Decoded cfg a n) :
    Spec.soundAction cfg a := by
  obtain ⟨bs, hbs, -⟩ := h.len
  have hb : a.toBytes cfg = .ok (packBits bs) := by unfold Action.toBytes; rw [hbs]; rfl
  refine ⟨packBits bs, hb, fun ht ho => ?_⟩
  have hw : (Spec.rightOpcode a).WF cfg := by
    have hw := h.wf ht ho
    cases a <;> first | exact ⟨rfl, hw⟩ | cases ht
  obtain ⟨bytes, h1, h2⟩ := (C61_action cfg _).2 hw
  have : (Spec.rightOpcode a).toBytes cfg = a.toBytes cfg := by cases a <;> rfl
  rw [this, hb] at h1
  cases h1
  exact h2

/-- The bits of the headers and of the command together. -/
theorem Trans.Frame.decoded_writes {cfg : Cfg} {f : Trans.Frame} (hh : f.header.WF)
    (h : ∀ a ∈ f.command.actions, ∃ n, Action.Decoded cfg a n) : ∃ bs, f.write cfg = .ok bs := by
  obtain ⟨a, ha, -⟩ := Trans.Header.rt hh
  obtain ⟨b, hb⟩ := Dash7.decoded_writes h
  have hb : f.command.write cfg = .ok b := hb
  exact ⟨a ++ b, by simp only [Trans.Frame.write, W.seq, ha, hb, List.append_nil]⟩

theorem Net.Frame.decoded_writes {cfg : Cfg} {f : Net.Frame} (hn : f.header.WF) (hh : f.frame.header.WF)
    (h : ∀ a ∈ f.frame.command.actions, ∃ n, Action.Decoded cfg a n) : ∃ bs, f.write cfg = .ok bs := by
  obtain ⟨a, ha, -⟩ := Net.Header.rt (cfg := cfg) hn
  obtain ⟨b, hb⟩ := Trans.Frame.decoded_writes hh h
  exact ⟨a ++ b, by simp only [Net.Frame.write, W.seq, ha, hb, List.append_nil]⟩

theorem ForegroundFrame.decoded_writes {cfg : Cfg} {f : ForegroundFrame} (hf : f.header.WF) (hn : f.frame.header.WF)
    (hh : f.frame.frame.header.WF)
    (h : ∀ a ∈ f.frame.frame.command.actions, ∃ n, Action.Decoded cfg a n) : ∃ bs, f.write cfg = .ok bs := by
  obtain ⟨a, ha, -⟩ := ForegroundHeader.rt hf
  obtain ⟨b, hb⟩ := Net.Frame.decoded_writes hn hh h
  obtain ⟨c, hc, -⟩ := uintHost_width cfg 2 f.crc16
  exact ⟨a ++ (b ++ c), by simp only [ForegroundFrame.write, W.seq, ha, hb, hc, List.append_nil]⟩

theorem transReading_sound {cfg : Cfg} {limit size : Nat} {f : Trans.Frame} {s left : List Bool} {n : Nat}
    (h : transReading cfg limit size f s left n) :
    f.header.WF ∧ (∀ a ∈ f.command.actions, ∃ n, Action.Decoded cfg a n) ∧ Spec.forwardLast f.command.actions := by
  obtain ⟨head, body, m, -, hh, hr, -⟩ := h
  exact ⟨Form.transHeader_wf hh, reading_decoded hr, reading_forwardLast hr⟩

theorem netReading_sound {cfg : Cfg} {limit size : Nat} {f : Net.Frame} {s left : List Bool} {n : Nat}
    (h : netReading cfg limit size f s left n) :
    f.header.WF ∧ f.frame.header.WF ∧ (∀ a ∈ f.frame.command.actions, ∃ n, Action.Decoded cfg a n) ∧
      Spec.forwardLast f.frame.command.actions := by
  obtain ⟨head, body, m, -, hh, hr, -⟩ := h
  exact ⟨Form.netHeader_wf hh, transReading_sound hr⟩

theorem foregroundReading_sound {cfg : Cfg} {size : Nat} {f : ForegroundFrame} {s left : List Bool} {n : Nat}
    (h : foregroundReading cfg size f s left n) :
    f.header.WF ∧ f.frame.header.WF ∧ f.frame.frame.header.WF ∧
      (∀ a ∈ f.frame.frame.command.actions, ∃ n, Action.Decoded cfg a n) ∧
      Spec.forwardLast f.frame.frame.command.actions := by
  obtain ⟨head, body, crc, m, -, hh, hr, -⟩ := h
  exact ⟨Form.foregroundHeader_wf hh, netReading_sound hr⟩

theorem decoded_soundCommand {cfg : Cfg} {c : Command} (h : ∀ a ∈ c.actions, ∃ n, Action.Decoded cfg a n)
    (hl : Spec.forwardLast c.actions) : Spec.soundCommand cfg c :=
  ⟨hl, fun a ha => (h a ha).elim fun _ => decoded_sound⟩

/-! ## The property -/

/-- **C79** (partial: the command) Transport frames, by `try_from` or by `from_bytes` at any bit offset. -/
theorem C79_transport_partial (cfg : Cfg) (data : List U8) (f : Trans.Frame)
    (h : Trans.Frame.tryFrom cfg data = .ok f ∨ ∃ off rest, Trans.Frame.fromBytes cfg (data, off) = .ok (rest, f)) :
    f.header.WF ∧ (∃ bytes, f.toBytes cfg = .ok bytes) ∧ Spec.soundCommand cfg f.command := by
  have key : ∃ s left n, transReading cfg 0 data.length f s left n := by
    rcases h with h | ⟨off, rest, h⟩
    · obtain ⟨left, n, hr, -⟩ := (C58_transport cfg data f).1 h
      exact ⟨_, left, n, hr⟩
    · obtain ⟨-, left, n, hr, -⟩ := (C58_transport_from_bytes cfg data off f rest).1 h
      exact ⟨_, left, n, hr⟩
  obtain ⟨s, left, n, hr⟩ := key
  obtain ⟨h1, h2, h3⟩ := transReading_sound hr
  obtain ⟨bs, hb⟩ := Trans.Frame.decoded_writes h1 h2
  exact ⟨h1, ⟨packBits bs, by unfold Trans.Frame.toBytes; rw [hb]; rfl⟩, decoded_soundCommand h2 h3⟩

/-- **C79** (partial: the command) Network frames. -/
theorem C79_network_partial (cfg : Cfg) (data : List U8) (f : Net.Frame)
    (h : Net.Frame.tryFrom cfg data = .ok f ∨ ∃ off rest, Net.Frame.fromBytes cfg (data, off) = .ok (rest, f)) :
    f.header.WF ∧ f.frame.header.WF ∧ (∃ bytes, f.toBytes cfg = .ok bytes) ∧
      Spec.soundCommand cfg f.frame.command := by
  have key : ∃ s left n, netReading cfg 0 data.length f s left n := by
    rcases h with h | ⟨off, rest, h⟩
    · obtain ⟨left, n, hr, -⟩ := (C58_network cfg data f).1 h
      exact ⟨_, left, n, hr⟩
    · obtain ⟨-, left, n, hr, -⟩ := (C58_network_from_bytes cfg data off f rest).1 h
      exact ⟨_, left, n, hr⟩
  obtain ⟨s, left, n, hr⟩ := key
  obtain ⟨h0, h1, h2, h3⟩ := netReading_sound hr
  obtain ⟨bs, hb⟩ := Net.Frame.decoded_writes h0 h1 h2
  exact ⟨h0, h1, ⟨packBits bs, by unfold Net.Frame.toBytes; rw [hb]; rfl⟩, decoded_soundCommand h2 h3⟩

/-- **C79** (partial: the command) Foreground frames. -/
theorem C79_foreground_partial (cfg : Cfg) (data : List U8) (f : ForegroundFrame)
    (h : ForegroundFrame.tryFrom cfg data = .ok f ∨
      ∃ off rest, ForegroundFrame.fromBytes cfg (data, off) = .ok (rest, f)) :
    f.header.WF ∧ f.frame.header.WF ∧ f.frame.frame.header.WF ∧ (∃ bytes, f.toBytes cfg = .ok bytes) ∧
      Spec.soundCommand cfg f.frame.frame.command := by
  have key : ∃ s left n, foregroundReading cfg data.length f s left n := by
    rcases h with h | ⟨off, rest, h⟩
    · obtain ⟨left, n, hr, -⟩ := (C58_foreground cfg data f).1 h
      exact ⟨_, left, n, hr⟩
    · obtain ⟨-, left, n, hr, -⟩ := (C58_foreground_from_bytes cfg data off f rest).1 h
      exact ⟨_, left, n, hr⟩
  obtain ⟨s, left, n, hr⟩ := key
  obtain ⟨h0, h1, h2, h3, h4⟩ := foregroundReading_sound hr
  obtain ⟨bs, hb⟩ := ForegroundFrame.decoded_writes h0 h1 h2 h3
  exact ⟨h0, h1, h2, ⟨packBits bs, by unfold ForegroundFrame.toBytes; rw [hb]; rfl⟩, decoded_soundCommand h3 h4⟩

/-- **C79** Hence a transport frame whose flags do not agree with its fields, or with a time-out that is not
representable, is never decoded, from its own encoding neither. -/
theorem C79_disagreeing (cfg : Cfg) (f : Trans.Frame) (h : ¬ f.header.WF) (data : List U8) :
    Trans.Frame.tryFrom cfg data ≠ .ok f :=
  fun ht => h (C79_transport_partial cfg data f (.inl ht)).1

/-- The actions of a grammar at byte boundaries are well-formed. -/
theorem actions_wf {cfg : Cfg} {as : List Action} {c : List Bool} (h : Form.actions cfg as c)
    (ht : ∀ a ∈ as, a.isTx = false) (ho : ∀ a ∈ as, a.isOther = false) : ∀ a ∈ as, a.WF cfg := by
  induction as generalizing c with
  | nil => simp
  | cons a as ih =>
    obtain ⟨x, y, rfl, hx, hy⟩ := h
    intro b hb
    rcases List.mem_cons.1 hb with rfl | hb
    · exact Action.decode_wf ((Action.decode_iff cfg b x []).2 hx) (ht b (by simp)) (ho b (by simp))
    · exact ih hy (fun a ha => ht a (by simp [ha])) (fun a ha => ho a (by simp [ha])) b hb

theorem actionsBelow_wf {cfg : Cfg} {limit pos : Nat} {as : List Action} {bytes : List U8}
    (h : Spec.actionsBelow cfg limit pos as bytes) (ht : ∀ a ∈ as, a.isTx = false)
    (ho : ∀ a ∈ as, a.isOther = false) : ∀ a ∈ as, a.WF cfg := by
  induction as generalizing pos bytes with
  | nil => simp
  | cons a as ih =>
    obtain ⟨-, wire, more, rfl, hx, hy⟩ := h
    intro b hb
    rcases List.mem_cons.1 hb with rfl | hb
    · exact Action.decode_wf ((Action.decode_iff cfg b _ []).2 hx) (ht b (by simp)) (ho b (by simp))
    · exact ih hy (fun a ha => ht a (by simp [ha])) (fun a ha => ho a (by simp [ha])) b hb

theorem decoded_noTx {cfg : Cfg} (hv : cfg.variant ≠ .wizzilab) {as : List Action}
    (h : ∀ a ∈ as, ∃ n, Action.Decoded cfg a n) : ∀ a ∈ as, a.isTx = false := by
  intro a ha
  obtain ⟨n, hn⟩ := h a ha
  cases hx : a.isTx with
  | false => rfl
  | true => exact absurd (hn.variant hx) hv

/-- **C79** (partial: builds other than wizzilab) The command of an accepted network frame comes back from its own
encoding, if it does not hold the state of an interface of unknown type. -/
theorem C79_network_command_partial (cfg : Cfg) (hv : cfg.variant ≠ .wizzilab) (data : List U8) (f : Net.Frame)
    (h : Net.Frame.tryFrom cfg data = .ok f) (ho : ∀ a ∈ f.frame.command.actions, a.isOther = false) :
    ∃ bytes, f.frame.command.toBytes cfg = .ok bytes ∧ Command.tryFrom cfg bytes = .ok f.frame.command := by
  obtain ⟨left, n, hr, -⟩ := (C58_network cfg data f).1 h
  obtain ⟨-, -, h3, h4⟩ := netReading_sound hr
  obtain ⟨head, wire, junk, -, -, hA, -⟩ := (C57_network_accepts cfg hv data f).1 h
  exact (C61_command cfg _).2 ⟨actions_wf hA (decoded_noTx hv h3) ho, h4⟩

/-- **C79** (partial: builds other than wizzilab) The same for foreground frames. -/
theorem C79_foreground_command_partial (cfg : Cfg) (hv : cfg.variant ≠ .wizzilab) (data : List U8) (f : ForegroundFrame)
    (h : ForegroundFrame.tryFrom cfg data = .ok f)
    (ho : ∀ a ∈ f.frame.frame.command.actions, a.isOther = false) :
    ∃ bytes, f.frame.frame.command.toBytes cfg = .ok bytes ∧
      Command.tryFrom cfg bytes = .ok f.frame.frame.command := by
  obtain ⟨left, n, hr, -⟩ := (C58_foreground cfg data f).1 h
  obtain ⟨-, -, -, h3, h4⟩ := foregroundReading_sound hr
  obtain ⟨head, wire, crc, junk, -, ⟨-, hA, -⟩, -⟩ := (C57_foreground_accepts cfg hv data f).1 h
  exact (C61_command cfg _).2 ⟨actionsBelow_wf hA (decoded_noTx hv h3) ho, h4⟩

/-- **C79** does not hold for transport frames, if seeking drops the bits kept back: their command is read one bit late,
and this no-operation comes with the opcode of a read in it, which is not what comes back from its own encoding. -/
theorem C79_opcode_violates (cfg : Cfg) (hs : cfg.seekClears = true) :
    ∃ data f bytes, Trans.Frame.tryFrom cfg data = .ok f ∧ f.command.actions = [.nop ⟨⟨false, false⟩, ⟨1⟩⟩] ∧
      f.command.toBytes cfg = .ok bytes ∧ Command.tryFrom cfg bytes = .ok ⟨[.nop ⟨⟨false, false⟩, ⟨0⟩⟩]⟩ := by
  refine ⟨[0, 0, 0, 1], ⟨⟨⟨false, false, false, false, false, false, false⟩, 0, 0, none, none, none, none, none⟩,
    ⟨[.nop ⟨⟨false, false⟩, ⟨1⟩⟩]⟩⟩, [0], ?_⟩
  rcases cfg with ⟨v, a, b, c, d⟩
  cases hs
  cases v <;> revert a b d <;> decide +kernel

/-- A frame the theorems speak of, its command and the encoding of this. -/
example : ForegroundFrame.tryFrom spec (Sample.foregroundWire ++ [99]) = .ok (Sample.foreground 25 ⟨[Sample.tag]⟩) ∧
    (Sample.foreground 25 ⟨[Sample.tag]⟩).frame.frame.command.toBytes spec = .ok [0xB4, 7] := by decide +kernel
/-- A transport header whose flag announces a level that is not there. -/
example : ¬ ({ Sample.transHeader with targetRxLevelI := none } : Trans.Header).WF := by
  intro h
  exact absurd h.1 (by decide)
example : Sample.transHeader.WF ∧ Sample.transHeader.control.hasAgc = true :=
  ⟨(C79_network_partial spec [227, 160, 16, 128, 8, 145, 25, 162, 42, 179, 59, 253, 7, 9, 48, 18, 95, 4, 1, 2]
    ⟨Sample.netHeader, ⟨Sample.transHeader, ⟨[]⟩⟩⟩ (.inl (by decide +kernel))).2.1, by decide⟩

#print axioms C79_transport_partial
#print axioms C79_network_partial
#print axioms C79_foreground_partial
#print axioms C79_disagreeing
#print axioms C79_network_command_partial
#print axioms C79_foreground_command_partial
#print axioms C79_opcode_violates

end Dash7
