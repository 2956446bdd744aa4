import Verif.Lemmas.Frame
import Verif.Lemmas.Exact
import Verif.Lemmas.Shift
import Verif.Props.Files
import Verif.Props.Samples

/-!
# Link, network and transport frames
-/

namespace Dash7
open Wire

/-! ## C31: background frames -/

theorem AddressType.exact : Exact read write :=
  Took.enum (by
    intro i e hi h
    unfold AddressType.ofId at h
    split at h <;> first
      | (cases h; rename_i h; exact BitVec.eq_of_toNat_eq h.symm)
      | cases h)

theorem BackgroundFrame.exact (cfg : Cfg) : Exact (read cfg) (write cfg) := by
  have hc : Exact BackgroundFrameControl.read BackgroundFrameControl.write := by
    unfold BackgroundFrameControl.read BackgroundFrameControl.write
    exact Took.bind AddressType.exact fun _ _ h1 => Took.bind Took.uint fun _ _ h2 => Took.pure
      (W.seq_exact h1 (W.seq_exact h2 rfl))
  unfold read write
  exact Took.bind Took.u8 fun _ _ h1 => Took.bind hc fun _ _ h2 => Took.bind Took.uintHost fun _ _ h3 =>
    Took.bind Took.uintHost fun _ _ h4 =>
    Took.pure (W.seq_exact h1 (W.seq_exact h2 (W.seq_exact h3 (W.seq_exact h4 rfl))))

/-- **C31** Encoding a decoded background frame restores the very bytes. -/
theorem C31_restores (cfg : Cfg) (data : List U8) (f : BackgroundFrame)
    (h : BackgroundFrame.tryFrom cfg data = .ok f) : f.toBytes cfg = .ok data :=
  (BackgroundFrame.exact cfg).derived (BackgroundFrame.mod8 cfg) h

/-- The bytes of a background frame. -/
def Spec.backgroundFrame (big : Bool) (f : BackgroundFrame) : Option (List U8) :=
  join [raw [f.subnet], byte [(2, addressType f.control.addressType), (6, f.control.tagId.toNat)],
    hostNumber big 2 f.payload.toNat, hostNumber big 2 f.crc16.toNat]

/-- **C31** The layout: subnet, address type and tag id, payload, CRC. -/
theorem C31_layout (cfg : Cfg) (f : BackgroundFrame) :
    f.toBytes cfg = result (Spec.backgroundFrame cfg.bigEndianHost f) := by
  refine Lay.toBytes (Lay.cons Lay.u8 (Lay.cons ?_ (Lay.cons Lay.uintHost (Lay.last Lay.uintHost))))
  exact Lay.fld (Fld.cons (AddressType.fld _) (Fld.cons (Fld.uint (by omega)) Fld.nil)) rfl

theorem AddressType.avail : Avail read 2 :=
  Avail.enum (by omega) (by
    intro i
    exact U8.forall (p := fun i => i.toNat < 2 ^ 2 → (AddressType.ofId i).isSome = true) (by decide +kernel) i)

/-- **C31** Exactly the strings of six bytes are accepted. -/
theorem C31_accepts (cfg : Cfg) (data : List U8) :
    (∃ f, BackgroundFrame.tryFrom cfg data = .ok f) ↔ data.length = 6 := by
  constructor
  · rintro ⟨f, hf⟩
    obtain ⟨s', he, hs⟩ := derivedTryFrom_inv hf
    obtain ⟨c, hc, -⟩ := P.eval_ok _ he
    have := (BackgroundFrame.post cfg c s' f (hc ▸ he)).2
    have hl := congrArg List.length hc
    rw [bytesBits_length, List.length_append] at hl
    omega
  · intro h
    have ha : Avail (BackgroundFrame.read cfg) 48 :=
      Avail.bind (n := 8) (m := 40) (Avail.uint (Nat.le_refl _)) fun _ =>
      Avail.bind (n := 8) (m := 32) (Avail.bind (n := 2) (m := 6) AddressType.avail fun _ =>
        Avail.bind (n := 6) (m := 0) (Avail.uint (by omega)) fun _ => Avail.pure) fun _ =>
      Avail.bind (n := 16) (m := 16) Avail.uintHost fun _ =>
      Avail.bind (n := 16) (m := 0) Avail.uintHost fun _ => Avail.pure
    obtain ⟨f, hf⟩ := ha (bytesBits data) (by rw [bytesBits_length]; omega)
    have hd : (bytesBits data).drop 48 = [] := List.drop_of_length_le (by rw [bytesBits_length]; omega)
    rw [hd] at hf
    obtain ⟨x, q, -, hq, -, h2⟩ := derived_ok hf (by simp)
    have : q = [] := bytesBits_eq_nil.1 hq.symm
    exact ⟨f, by rw [BackgroundFrame.tryFrom, h2, if_pos this]⟩

/-- **C31** And every background frame whose tag id fits its six bits comes back. -/
theorem C31_roundtrip (cfg : Cfg) (f : BackgroundFrame) (h : f.WF) :
    ∃ bytes, f.toBytes cfg = .ok bytes ∧ BackgroundFrame.tryFrom cfg bytes = .ok f := by
  obtain ⟨bytes, h1, h2, -⟩ := RT.derived (BackgroundFrame.rt h) (BackgroundFrame.mod8 cfg f)
  exact ⟨bytes, h1, h2⟩

/-- A background frame with all fields in use. -/
def Sample.background : BackgroundFrame := ⟨0x12, ⟨.uId, 0x2A⟩, 0x1234, 0xABCD⟩

example : Sample.background.WF := by unfold BackgroundFrame.WF; decide
example : Sample.background.toBytes Sample.spec = .ok [0x12, 0xAA, 0x34, 0x12, 0xCD, 0xAB] := by decide +kernel
example : BackgroundFrame.tryFrom Sample.spec [0x12, 0xAA, 0x34, 0x12, 0xCD, 0xAB]
    = .ok Sample.background := by decide +kernel
example : (match BackgroundFrame.tryFrom Sample.spec [0x12, 0xAA, 0x34, 0x12, 0xCD] with
    | .ok _ => false | .error _ => true) = true := by decide +kernel

#print axioms C31_restores
#print axioms C31_layout
#print axioms C31_accepts
#print axioms C31_roundtrip

/-! ## C33: transport frames

The control field has seven bits, so everything behind it is off by one bit, and the opcode is read by
seeking back a whole byte. -/

/-- **C33** Which transport frames come back from their encoding: hardly any. -/
theorem C33_partial (cfg : Cfg) (f : Trans.Frame) (hw : f.WF cfg) :
    ∃ bytes, f.toBytes cfg = .ok bytes ∧
      (Trans.Frame.tryFrom cfg bytes = .ok f ↔ Spec.survivesShift cfg.seekClears f.command) := by
  obtain ⟨h, c⟩ := f
  obtain ⟨hh, hc⟩ := hw
  obtain ⟨hb, hw1, hdec⟩ := Trans.Header.rt hh
  have h7 := Trans.Header.mod8 h hb hw1
  obtain ⟨bs, hw2, h8, -⟩ := Reads.write hc.1
  have hw3 : (Trans.Frame.mk h c).write cfg = .ok (hb ++ bs) := by
    have : c.write cfg = .ok bs := hw2
    simp only [Trans.Frame.write, W.seq, hw1, this, List.append_nil]
  have hlen : (hb ++ bs).length % 8 = 7 := by simp; omega
  have hbb : bytesBits (packBits (hb ++ bs)) = hb ++ (bs ++ [false]) := by
    rw [bytesBits_pad7 hlen, List.append_assoc]
  refine ⟨packBits (hb ++ bs), by rw [Trans.Frame.toBytes, hw3]; rfl, ?_⟩
  obtain ⟨r, hr, hok, hl, hrem, hbits, hdata⟩ := run_header7 hbb (hdec _) h7
  have hdl := congrArg List.length hbb
  rw [bytesBits_length, List.length_append, List.length_append] at hdl
  rw [← Command.read_shift_iff hok hl hc hw2 hrem (by omega)]
  have hcount : (r.bitsRead + bs.length + 1) / 8 = (packBits (hb ++ bs)).length := by
    simp at hdl; omega
  rw [hcount]
  unfold Trans.Frame.tryFrom derivedTryFrom Trans.Frame.read
  simp only [R.bind_eq, R.bind, hr]
  constructor
  · intro h0
    split at h0
    · cases h0
    · rename_i f' r' hx
      split at hx
      · rename_i c' r'' hx'
        cases hx
        split at h0
        · cases h0
        · cases h0
          exact ⟨_, hx', by omega⟩
      · cases hx
  · rintro ⟨r', h1, h2⟩
    rw [h1]
    simp only [R.pure, h2]
    simp

/-- **C33** fails: a frame whose command does not consist of exactly one action never comes back. -/
theorem C33_length_violates (cfg : Cfg) (f : Trans.Frame) (hw : f.WF cfg)
    (hn : f.command.actions.length ≠ 1) :
    ∃ bytes, f.toBytes cfg = .ok bytes ∧ Trans.Frame.tryFrom cfg bytes ≠ .ok f := by
  obtain ⟨bytes, h1, h2⟩ := C33_partial cfg f hw
  refine ⟨bytes, h1, fun h => hn ?_⟩
  have := h2.1 h
  unfold Spec.survivesShift at this
  split at this
  · obtain ⟨op, ho⟩ := this; rw [ho]; rfl
  · obtain ⟨o, ho, -⟩ := this; rw [ho]; rfl

/-- **C33** What does come back is the header: whatever frame the encoding decodes to has it. -/
theorem C33_header_partial (cfg : Cfg) (f g : Trans.Frame) (hw : f.WF cfg) (bytes : List U8)
    (hb : f.toBytes cfg = .ok bytes) (hg : Trans.Frame.tryFrom cfg bytes = .ok g) :
    g.header = f.header := by
  obtain ⟨h, c⟩ := f
  obtain ⟨hh, hc⟩ := hw
  obtain ⟨hb', hw1, hdec⟩ := Trans.Header.rt hh
  have h7 := Trans.Header.mod8 h hb' hw1
  obtain ⟨bs, hw2, h8, -⟩ := Reads.write hc.1
  have hw3 : (Trans.Frame.mk h c).write cfg = .ok (hb' ++ bs) := by
    have : c.write cfg = .ok bs := hw2
    simp only [Trans.Frame.write, W.seq, hw1, this, List.append_nil]
  rw [Trans.Frame.toBytes, hw3] at hb
  cases hb
  have hbb : bytesBits (packBits (hb' ++ bs)) = hb' ++ (bs ++ [false]) := by
    rw [bytesBits_pad7 (by simp; omega), List.append_assoc]
  obtain ⟨r, hr, -⟩ := run_header7 hbb (hdec _) h7
  unfold Trans.Frame.tryFrom derivedTryFrom Trans.Frame.read at hg
  simp only [R.bind_eq, R.bind, hr] at hg
  split at hg
  · cases hg
  · rename_i f' r' hx
    split at hx
    · cases hx
      split at hg
      · cases hg
      · cases hg; rfl
    · cases hx

/-- A transport header with every optional field in use. -/
def Sample.transHeader : Trans.Header :=
  ⟨⟨true, true, true, true, true, false, true⟩, 7, 9, some 0x30, some ⟨0x12, false⟩, some ⟨496, false⟩,
    some ⟨4, false⟩, some ⟨1, 2⟩⟩
/-- A transport frame asking for a file. -/
def Sample.transFrame : Trans.Frame := ⟨Sample.transHeader, ⟨[Sample.readData]⟩⟩

/-- Used to compute well-formedness. -/
instance Sample.decOption {α : Type} {p : α → Prop} [DecidablePred p] :
    (o : Option α) → Decidable (∀ v, o = some v → p v)
  | none => isTrue (fun _ h => by cases h)
  | some v => decidable_of_iff (p v) ⟨fun h _ hv => by cases hv; exact h, fun h => h v rfl⟩
instance (h : Trans.Header) : Decidable h.WF := by unfold Trans.Header.WF; infer_instance
instance (cfg : Cfg) (f : Trans.Frame) : Decidable (f.WF cfg) := by unfold Trans.Frame.WF; infer_instance

/-- **C33** fails in every build: the request for a file does not come back. -/
theorem C33_violates (cfg : Cfg) :
    Sample.transFrame.WF cfg ∧
    (match Sample.transFrame.toBytes cfg with
      | .ok bytes => decide (Trans.Frame.tryFrom cfg bytes ≠ .ok Sample.transFrame)
      | .error _ => false) = true := by
  rcases cfg with ⟨v, a, b, c, d⟩
  cases v <;> cases a <;> cases b <;> cases c <;> cases d <;> decide +kernel

/-- The frames that do come back exist in either kind of build. -/
def Sample.transIndirect : Trans.Frame := ⟨Sample.transHeader, ⟨[Sample.indirect]⟩⟩
/-- The one command that comes back if seeking drops the bit kept back. -/
def Sample.transNop : Trans.Frame := ⟨Sample.transHeader, ⟨[.nop ⟨⟨false, false⟩, ⟨0⟩⟩]⟩⟩

example : Sample.transIndirect.WF Sample.spec' ∧
    (match Sample.transIndirect.toBytes Sample.spec' with
      | .ok bytes => decide (Trans.Frame.tryFrom Sample.spec' bytes = .ok Sample.transIndirect)
      | .error _ => false) = true := by decide +kernel
example : Sample.transNop.WF Sample.spec ∧
    (match Sample.transNop.toBytes Sample.spec with
      | .ok bytes => decide (Trans.Frame.tryFrom Sample.spec bytes = .ok Sample.transNop)
      | .error _ => false) = true := by decide +kernel
example : Trans.Frame.WF Sample.spec ⟨Sample.transHeader, Sample.command⟩ := by decide +kernel
/-- A frame that decodes to another one with the same header. -/
def Sample.transOther : Trans.Frame :=
  ⟨Sample.transHeader, ⟨[Sample.tag]⟩⟩
example : Sample.transOther.WF Sample.spec ∧
    (match Sample.transOther.toBytes Sample.spec with
      | .ok bytes => match Trans.Frame.tryFrom Sample.spec bytes with
        | .ok g => decide (g ≠ Sample.transOther ∧ g.header = Sample.transHeader)
        | .error _ => false
      | .error _ => false) = true := by decide +kernel

#print axioms C33_partial
#print axioms C33_length_violates
#print axioms C33_header_partial
#print axioms C33_violates

end Dash7
