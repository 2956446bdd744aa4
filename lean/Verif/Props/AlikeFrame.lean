import Verif.Lemmas.AlikeFrame
import Verif.Props.Alike
import Verif.Props.Size

/-!
# C95: damage to a frame that keeps its length
-/

namespace Dash7

open Sample

/-! ## One mark for each bit -/

theorem Size.sum_cons {o : Option Nat} {os : List (Option Nat)} {n : Nat} (h : Size.sum (o :: os) = some n) :
    ∃ a b, o = some a ∧ Size.sum os = some b ∧ n = a + b := by
  cases o with
  | none => cases h
  | some a =>
    cases hs : Size.sum os with
    | none => rw [Size.sum, hs] at h; cases h
    | some b => rw [Size.sum, hs] at h; cases h; exact ⟨a, b, rfl, rfl, rfl⟩

theorem Size.sum_nil {n : Nat} (h : Size.sum [] = some n) : n = 0 := by cases h; rfl

theorem Size.of_eight {o : Option Nat} {n : Nat} (h : Size.eight o = some n) : ∃ k, o = some k ∧ n = 8 * k := by
  cases o with
  | none => cases h
  | some k => cases h; exact ⟨k, rfl, rfl⟩

namespace Alike

theorem varInt_size {v : VarInt} {k : Nat} (h : Size.compressed v = some k) : (varInt v).length = 8 * k := by
  rw [varInt_marks]; exact Marked.varInt v k h

theorem optional_size {o : Option VarInt} {k : Nat} (h : Size.optional o = some k) :
    (optional varInt o).length = 8 * k := by
  cases o with
  | none => cases h; rfl
  | some v => exact varInt_size h

theorem optional_heed {α : Type} (n : Nat) (o : Option α) :
    (optional (fun _ => heed n) o).length = if o.isSome then n else 0 := by
  cases o <;> simp [optional, heed]

theorem address_size {a : Address} {k : Nat} (h : Size.address a = some k) : (address a).length = 8 * k := by
  cases a with
  | nbId n => exact varInt_size h
  | noId => cases h; rfl
  | uId u => cases h; simp [address, heed]
  | vId u => cases h; simp [address, heed]

theorem length_size {n k : Nat} (h : Size.length n = some k) : (length n).length = 8 * k := by
  rw [Marked.lengthExtra h]; simp [length, heed]

theorem command_size {cfg : Cfg} {c : Command} (hw : ∀ a ∈ c.actions, a.WF cfg) {n : Nat}
    (h : Size.commandBits cfg.variant c = some n) : (command cfg.variant c).length = n := by
  unfold Size.commandBits at h
  unfold command
  generalize c.actions = as at hw h
  induction as generalizing n with
  | nil => exact (Size.sum_nil h).symm
  | cons a as ih =>
    obtain ⟨p, q, h1, h2, rfl⟩ := Size.sum_cons h
    rw [List.flatMap_cons, List.length_append, ih (fun b hb => hw b (by simp [hb])) h2, action_marks]
    have ha := hw a (by simp)
    unfold Size.actionBits at h1
    cases hs : Size.action cfg.variant a with
    | none => rw [hs] at h1; cases h1
    | some k =>
      rw [hs, ha.isTx] at h1
      cases h1
      rw [Marked.action cfg a ha k hs]
      simp

theorem transport_size {cfg : Cfg} {f : Trans.Frame} (hw : ∀ a ∈ f.command.actions, a.WF cfg) {n : Nat}
    (h : Size.transport cfg.variant f = some n) :
    (transHeader f.header).length + (command cfg.variant f.command).length = n := by
  obtain ⟨_, _, e1, s1, q1⟩ := Size.sum_cons h
  obtain ⟨_, _, e2, s2, q2⟩ := Size.sum_cons s1
  obtain ⟨_, _, e3, s3, q3⟩ := Size.sum_cons s2
  obtain ⟨_, _, e4, s4, q4⟩ := Size.sum_cons s3
  obtain ⟨_, _, e5, s5, q5⟩ := Size.sum_cons s4
  obtain ⟨_, _, e6, s6, q6⟩ := Size.sum_cons s5
  obtain ⟨_, _, e7, s7, q7⟩ := Size.sum_cons s6
  have q0 := Size.sum_nil s7
  obtain ⟨_, h3, p3⟩ := Size.of_eight e3
  obtain ⟨_, h4, p4⟩ := Size.of_eight e4
  obtain ⟨_, h5, p5⟩ := Size.of_eight e5
  rw [command_size hw e7]
  unfold transHeader
  simp only [List.length_append, optional_size h3, optional_size h4, optional_size h5, optional_heed]
  cases e1; cases e2; cases e6
  simp only [heed, List.length_replicate]
  omega

theorem network_size {cfg : Cfg} {f : Net.Frame} (hw : ∀ a ∈ f.frame.command.actions, a.WF cfg) {n : Nat}
    (h : Size.network cfg.variant f = some n) : (network cfg.variant f).length = n := by
  obtain ⟨_, _, e1, s1, q1⟩ := Size.sum_cons h
  obtain ⟨_, _, e2, s2, q2⟩ := Size.sum_cons s1
  obtain ⟨_, _, e3, s3, q3⟩ := Size.sum_cons s2
  obtain ⟨_, _, e4, s4, q4⟩ := Size.sum_cons s3
  have q0 := Size.sum_nil s4
  obtain ⟨_, h3, p3⟩ := Size.of_eight e3
  have h4 := transport_size hw e4
  have hh : (optional (fun _ => hopping) f.header.hoppingControl).length
      = if f.header.hoppingControl.isSome then 8 else 0 := by
    cases f.header.hoppingControl <;> rfl
  have hn : (netControl cfg.variant).length = if cfg.variant = .wizzilab then 8 else 9 := by
    unfold netControl; split <;> rfl
  unfold network netHeader
  simp only [List.length_append, hh, hn, address_size h3]
  cases e1; cases e2
  simp only [heed, List.length_replicate]
  have hd : (if cfg.variant = .wizzilab then 16 else 17) = (if cfg.variant = .wizzilab then 8 else 9) + 8 := by
    split <;> rfl
  omega

theorem foreground_size {cfg : Cfg} {f : ForegroundFrame} (hw : ∀ a ∈ f.frame.frame.command.actions, a.WF cfg) {n : Nat}
    (h : Size.foreground cfg.variant f = some n) : (foreground cfg.variant f).length = n := by
  obtain ⟨_, _, e1, s1, q1⟩ := Size.sum_cons h
  obtain ⟨_, _, e2, s2, q2⟩ := Size.sum_cons s1
  obtain ⟨_, _, e3, s3, q3⟩ := Size.sum_cons s2
  obtain ⟨_, _, e4, s4, q4⟩ := Size.sum_cons s3
  have q0 := Size.sum_nil s4
  obtain ⟨_, h1, p1⟩ := Size.of_eight e1
  obtain ⟨_, h3, p3⟩ := Size.of_eight e3
  have h4 := network_size hw e4
  unfold foreground foregroundHeader
  simp only [List.length_append, length_size h1, address_size h3, h4]
  cases e2
  simp only [heed, List.length_replicate]
  omega

/-- Outside wizzilab builds, a network frame is made of whole bytes. -/
theorem network_dvd {cfg : Cfg} (hv : cfg.variant ≠ .wizzilab) {f : Net.Frame}
    (hw : ∀ a ∈ f.frame.command.actions, a.WF cfg) {n : Nat} (h : Size.network cfg.variant f = some n) : 8 ∣ n := by
  have hc : ∀ (as : List Action) (n : Nat), (∀ a ∈ as, a.WF cfg) →
      Size.sum (as.map (Size.actionBits cfg.variant)) = some n → 8 ∣ n := by
    intro as
    induction as with
    | nil => intro n _ h; exact ⟨0, Size.sum_nil h⟩
    | cons a as ih =>
      intro n hw h
      obtain ⟨p, q, h1, h2, rfl⟩ := Size.sum_cons h
      have h2 := ih q (fun b hb => hw b (by simp [hb])) h2
      unfold Size.actionBits at h1
      cases hs : Size.action cfg.variant a with
      | none => rw [hs] at h1; cases h1
      | some k =>
        rw [hs, (hw a (by simp)).isTx] at h1
        cases h1
        simp only [Bool.false_eq_true, if_false]
        omega
  obtain ⟨_, _, e1, s1, q1⟩ := Size.sum_cons h
  obtain ⟨_, _, e2, s2, q2⟩ := Size.sum_cons s1
  obtain ⟨_, _, e3, s3, q3⟩ := Size.sum_cons s2
  obtain ⟨_, _, e4, s4, q4⟩ := Size.sum_cons s3
  have q0 := Size.sum_nil s4
  obtain ⟨_, h3, p3⟩ := Size.of_eight e3
  obtain ⟨_, _, e5, s5, q5⟩ := Size.sum_cons e4
  obtain ⟨_, _, e6, s6, q6⟩ := Size.sum_cons s5
  obtain ⟨_, _, e7, s7, q7⟩ := Size.sum_cons s6
  obtain ⟨_, _, e8, s8, q8⟩ := Size.sum_cons s7
  obtain ⟨_, _, e9, s9, q9⟩ := Size.sum_cons s8
  obtain ⟨_, _, e10, s10, q10⟩ := Size.sum_cons s9
  obtain ⟨_, _, e11, s11, q11⟩ := Size.sum_cons s10
  have q12 := Size.sum_nil s11
  obtain ⟨_, h7, p7⟩ := Size.of_eight e7
  obtain ⟨_, h8, p8⟩ := Size.of_eight e8
  obtain ⟨_, h9, p9⟩ := Size.of_eight e9
  have := hc _ _ hw e11
  rw [if_neg hv] at e1
  have e1 := Option.some.inj e1
  have e2 := Option.some.inj e2
  have e5 := Option.some.inj e5
  have e6 := Option.some.inj e6
  have e10 := Option.some.inj e10
  clear h s1 s2 s3 s4 s5 s6 s7 s8 s9 s10 s11 hc h3 h7 h8 h9
  split at e2 <;> split at e6 <;> split at e10 <;> omega

theorem foreground_dvd {cfg : Cfg} (hv : cfg.variant ≠ .wizzilab) {f : ForegroundFrame}
    (hw : ∀ a ∈ f.frame.frame.command.actions, a.WF cfg) {n : Nat} (h : Size.foreground cfg.variant f = some n) : 8 ∣ n := by
  obtain ⟨_, _, e1, s1, q1⟩ := Size.sum_cons h
  obtain ⟨_, _, e2, s2, q2⟩ := Size.sum_cons s1
  obtain ⟨_, _, e3, s3, q3⟩ := Size.sum_cons s2
  obtain ⟨_, _, e4, s4, q4⟩ := Size.sum_cons s3
  have q0 := Size.sum_nil s4
  obtain ⟨_, h1, p1⟩ := Size.of_eight e1
  obtain ⟨_, h3, p3⟩ := Size.of_eight e3
  have h4 := network_dvd hv hw e4
  have e2 := Option.some.inj e2
  omega

end Alike

/-! ## Foreground frames -/

theorem WholeBytes.foreground (cfg : Cfg) (f : ForegroundFrame)
    (h : ∀ a ∈ f.frame.frame.command.actions,
      a.isTx = false ∧ (a.isOther = true → cfg.unitPatConsumes = false) ∧ Ignored.large a = false) :
    WholeBytes (fun z => ∃ head wire crc, z = head ++ (wire ++ crc) ∧ Spec.foregroundForm cfg f head wire crc)
      (Alike.foreground cfg.variant f) := by
  have h1 := WholeBytes.of (Whole.cons (Whole.foregroundHeader f.header) (Whole.cons
    (Whole.netHeader cfg.variant f.frame.header) (Whole.last (Whole.transHeader f.frame.frame.header))))
  have h3 : ∀ p, WholeBytes _ (Alike.heed 16) := fun p =>
    WholeBytes.given (Spec.forwardLast f.frame.frame.command.actions ∧
      (Spec.limitReached f.header.length.val.toNat p ∨ Spec.endsWithForward f.frame.frame.command.actions))
      (WholeBytes.of (Rigid.hostNumber cfg.bigEndianHost 2 f.crc16.toNat).whole)
  have h2 := fun pos => WholeBytes.seq (WholeBytes.actionsBelow cfg f.header.length.val.toNat _ h pos)
    fun k => h3 (pos + k)
  refine ((h1.seq h2).congr fun z => ?_).cast ?_
  · constructor
    · rintro ⟨head, _, rfl, hh, wire, crc, rfl, hw, ⟨hl, he⟩, hc⟩
      exact ⟨head, wire, crc, rfl, hh, hw, hl, by rwa [List.length_append], hc⟩
    · rintro ⟨head, wire, crc, rfl, hh, hw, hl, he, hc⟩
      exact ⟨head, _, rfl, hh, wire, crc, rfl, hw, ⟨hl, by rwa [← List.length_append]⟩, hc⟩
  · simp only [Alike.foreground, Alike.network, Alike.command, List.append_assoc]

/-- What is decoded from as many bytes as the frame has, and those believed to be part of it. -/
theorem ForegroundFrame.exactly {cfg : Cfg} (hv : cfg.variant ≠ .wizzilab) {f : ForegroundFrame} {n : Nat}
    (h : ∀ a ∈ f.frame.frame.command.actions,
      a.isTx = false ∧ (a.isOther = true → cfg.unitPatConsumes = false) ∧ Ignored.large a = false)
    (hm : (Alike.foreground cfg.variant f).length = 8 * n) (hL : f.header.length.val.toNat + 2 = n)
    (h0 : f.header.length.val.toNat ≠ 0) (y lost more : List U8) (hy : y.length = n)
    (hlost : lost.length = f.frame.frame.command.actions.length * (if cfg.endCounts then 2 else 1)) :
    ForegroundFrame.fromBytes cfg (y ++ lost ++ more, 0) = .ok ((more, 0), f) ↔
      ∃ head wire crc, y = head ++ (wire ++ crc) ∧ Spec.foregroundForm cfg f head wire crc := by
  have hcrc : ∀ crc : List U8, Form.hostNumber cfg.bigEndianHost 2 f.crc16.toNat (Form.ofBytes crc) → crc.length = 2 := by
    intro crc hc
    have := (Rigid.hostNumber cfg.bigEndianHost 2 f.crc16.toNat).len _ hc
    rw [Form.ofBytes_length] at this; omega
  have hmin := (WholeBytes.foreground cfg f h).min
  rw [C57_foreground_from_bytes cfg hv]
  constructor
  · rintro ⟨head, wire, crc, lost', more', e, hf, e', hl⟩
    have := hmin _ ⟨head, wire, crc, rfl, hf⟩
    have hc := hcrc crc hf.2.2.2.2
    simp only [List.length_append] at this
    have hr : Spec.limitReached f.header.length.val.toNat (head ++ wire).length :=
      ⟨h0, by rw [List.length_append]; omega⟩
    unfold Spec.frameLost at hl
    rw [if_pos hr, ← hlost] at hl
    cases e'
    have hn := congrArg List.length e
    simp only [List.length_append] at hn
    have e2 : y ++ (lost ++ more) = (head ++ (wire ++ crc)) ++ (lost' ++ more) := by
      simpa [List.append_assoc] using e
    have := (List.append_inj e2 (by simp only [List.length_append]; omega)).1
    exact ⟨head, wire, crc, this, hf⟩
  · rintro ⟨head, wire, crc, rfl, hf⟩
    refine ⟨head, wire, crc, lost, more, by simp [List.append_assoc], hf, rfl, ?_⟩
    have hc := hcrc crc hf.2.2.2.2
    have hr : Spec.limitReached f.header.length.val.toNat (head ++ wire).length := by
      simp only [List.length_append] at hy
      exact ⟨h0, by rw [List.length_append]; omega⟩
    unfold Spec.frameLost
    rw [if_pos hr, hlost]

/-- **C95** for foreground frames outside wizzilab builds, with a length field telling where the command ends: whatever
arrives in place of the encoding, with as many bytes, decodes to the frame sent just if it has the same bits wherever
the decoder looks at them, compressed numbers counting as the numbers they stand for. (The bytes `lost` are those
`C34_partial` tells of.) -/
theorem C95_foreground_partial (cfg : Cfg) (hv : cfg.variant ≠ .wizzilab) (f : ForegroundFrame) (hw : f.WF cfg)
    (hl : ∀ a ∈ f.frame.frame.command.actions, Ignored.large a = false)
    (x : List U8) (hx : f.toBytes cfg = .ok x) (hL : f.header.length.val.toNat + 2 = x.length)
    (y lost more : List U8) (hy : y.length = x.length)
    (hlost : lost.length = f.frame.frame.command.actions.length * (if cfg.endCounts then 2 else 1)) :
    (ForegroundFrame.fromBytes cfg (y ++ lost ++ more, 0) = .ok ((more, 0), f) ↔
      Alike.Same (Alike.foreground cfg.variant f) (Form.ofBytes x) (Form.ofBytes y)) ∧
    (ForegroundFrame.tryFrom cfg (y ++ lost) = .ok f ↔
      Alike.Same (Alike.foreground cfg.variant f) (Form.ofBytes x) (Form.ofBytes y)) := by
  have hact : ∀ a ∈ f.frame.frame.command.actions, a.WF cfg := hw.2.2.2.1
  have h : ∀ a ∈ f.frame.frame.command.actions,
      a.isTx = false ∧ (a.isOther = true → cfg.unitPatConsumes = false) ∧ Ignored.large a = false :=
    fun a ha => ⟨(hact a ha).isTx, (hact a ha).plain, hl a ha⟩
  have hm : (Alike.foreground cfg.variant f).length = 8 * x.length := by
    have hs := C85_foreground cfg f
    rw [hx] at hs
    cases e : Size.foreground cfg.variant f with
    | none => rw [e] at hs; cases hs
    | some n =>
      rw [e] at hs
      have hs : x.length = (n + 7) / 8 := by simpa [Size.result, Size.bytes, Except.map] using hs
      have h8 := Alike.foreground_dvd hv hact e
      rw [Alike.foreground_size hact e]
      omega
  have h0 : f.header.length.val.toNat ≠ 0 := by
    have hp : 24 ≤ (Alike.foreground cfg.variant f).length := by
      have e1 : (Alike.heed 8).length = 8 := rfl
      have e2 : (Alike.heed 16).length = 16 := rfl
      unfold Alike.foreground Alike.network Alike.netHeader
      simp only [List.length_append, e1, e2]
      omega
    omega
  obtain ⟨x', hx', hr⟩ := C34_partial cfg hv f hw
  rw [hx] at hx'; cases hx'
  have key := ForegroundFrame.exactly hv h hm hL h0
  have whole := WholeBytes.foreground cfg f h
  have hxf := (key x lost more rfl hlost).1 (by
    have := (hr hL (lost ++ more) _ rfl).1
    rw [← hlost, if_pos (by rw [List.length_append]; omega), List.drop_left] at this
    rw [List.append_assoc]; exact this)
  have hs := whole.all x y hxf hm.symm hy
  refine ⟨(key y lost more hy hlost).trans hs, ?_⟩
  rw [← hs, ← key y lost [] hy hlost, List.append_nil]
  constructor
  · intro ht
    rw [C57_foreground_accepts cfg hv] at ht
    obtain ⟨head, wire, crc, junk, e, hf, hj⟩ := ht
    rw [C57_foreground_from_bytes cfg hv]
    exact ⟨head, wire, crc, junk, [], by simpa using e, hf, rfl, hj⟩
  · intro ht
    rw [C57_foreground_from_bytes cfg hv] at ht
    obtain ⟨head, wire, crc, junk, more, e, hf, e', hj⟩ := ht
    cases e'
    rw [C57_foreground_accepts cfg hv]
    exact ⟨head, wire, crc, junk, by simpa using e, hf, hj⟩

/-- A frame meeting these hypotheses, and two other forms of it: with a reserved bit set, and with a time-out of 4
written as 1 times 4. -/
example : ∃ x lost, (Sample.foreground 25 ⟨[tag]⟩).WF spec ∧
    (∀ a ∈ (Sample.foreground 25 ⟨[tag]⟩).frame.frame.command.actions, Ignored.large a = false) ∧
    (Sample.foreground 25 ⟨[tag]⟩).toBytes spec = .ok x ∧
    (Sample.foreground 25 ⟨[tag]⟩).header.length.val.toNat + 2 = x.length ∧ lost = [(0xFF : U8)] ∧
    ForegroundFrame.tryFrom spec (x ++ lost) = .ok (Sample.foreground 25 ⟨[tag]⟩) ∧
    ForegroundFrame.tryFrom spec (x.set 3 0xEB ++ lost) = .ok (Sample.foreground 25 ⟨[tag]⟩) ∧
    (Alike.foreground .spec (Sample.foreground 25 ⟨[tag]⟩))[28]? = some .skip ∧
    ForegroundFrame.tryFrom spec (x.set 20 0x21 ++ lost) = .ok (Sample.foreground 25 ⟨[tag]⟩) ∧
    (Alike.foreground .spec (Sample.foreground 25 ⟨[tag]⟩))[160]? = some .number ∧
    ForegroundFrame.tryFrom spec (x.set 20 0x24 ++ lost) ≠ .ok (Sample.foreground 25 ⟨[tag]⟩) :=
  ⟨_, _, by decide +kernel, by decide +kernel, rfl, by decide +kernel, rfl, by decide +kernel, by decide +kernel,
    by decide +kernel, by decide +kernel, by decide +kernel, by decide +kernel⟩

/-- **C95** does not hold of foreground frames: the fifth bit of the network control may be changed, and any of five bits
of the hopping control. The CRC stays as it was. -/
theorem C95_reserved_violates (cfg : Cfg) (hv : cfg.variant ≠ .wizzilab) :
    (Sample.foreground 25 ⟨[tag]⟩).WF cfg ∧
    (match (Sample.foreground 25 ⟨[tag]⟩).toBytes cfg with
      | .error _ => false
      | .ok x => [(3, 0x08), (4, 0x40), (4, 0x04), (4, 0x02), (4, 0x01), (5, 0x80)].all fun p =>
        decide (x.set p.1 (x.getD p.1 0 ^^^ p.2) ≠ x ∧
          ForegroundFrame.tryFrom cfg
              (x.set p.1 (x.getD p.1 0 ^^^ p.2) ++ List.replicate (if cfg.endCounts then 2 else 1) 0) =
            .ok (Sample.foreground 25 ⟨[tag]⟩))) = true := by
  rcases cfg with ⟨v, a, b, c, d⟩
  cases v
  · cases a <;> cases b <;> cases c <;> cases d <;> decide +kernel
  · cases a <;> cases b <;> cases c <;> cases d <;> decide +kernel
  · exact absurd rfl hv

/-! ## Network and background frames -/

/-- **C95** for network frames around an empty command (others are not decoded from their encoding, `C52_partial`),
outside wizzilab builds. -/
theorem C95_network_partial (cfg : Cfg) (hv : cfg.variant ≠ .wizzilab) (f : Net.Frame) (hw : f.WF cfg)
    (he : f.frame.command.actions = []) (x : List U8) (hx : f.toBytes cfg = .ok x)
    (y : List U8) (hy : y.length = x.length) :
    Net.Frame.tryFrom cfg y = .ok f ↔
      Alike.Same (Alike.network cfg.variant f) (Form.ofBytes x) (Form.ofBytes y) := by
  have hact : ∀ a ∈ f.frame.command.actions, a.WF cfg := hw.2.2.1
  have hm : (Alike.network cfg.variant f).length = 8 * x.length := by
    have hs := C85_network cfg f
    rw [hx] at hs
    cases e : Size.network cfg.variant f with
    | none => rw [e] at hs; cases hs
    | some n =>
      rw [e] at hs
      have hs : x.length = (n + 7) / 8 := by simpa [Size.result, Size.bytes, Except.map] using hs
      have h8 := Alike.network_dvd hv hact e
      rw [Alike.network_size hact e]
      omega
  have whole : Whole (Form.all [Form.netHeader cfg.variant f.header, Form.transHeader f.frame.header])
      (Alike.network cfg.variant f) :=
    (Whole.cons (Whole.netHeader cfg.variant f.header) (Whole.last (Whole.transHeader f.frame.header))).cast (by
      simp only [Alike.network, Alike.command, he, List.flatMap_nil, List.append_nil])
  have key : ∀ z : List U8, Net.Frame.tryFrom cfg z = .ok f ↔
      Form.all [Form.netHeader cfg.variant f.header, Form.transHeader f.frame.header] (Form.ofBytes z) := by
    intro z
    rw [C57_network_accepts cfg hv, he]
    constructor
    · rintro ⟨head, wire, junk, rfl, hh, hf, -, ⟨-, rfl⟩ | ⟨⟨a, ha, -⟩, -⟩⟩
      · have : Form.ofBytes wire = [] := hf
        have hl := congrArg List.length this
        rw [Form.ofBytes_length] at hl
        have : wire = [] := List.eq_nil_of_length_eq_zero (by rw [List.length_nil] at hl; omega)
        subst this
        simpa using hh
      · cases ha
    · intro h
      exact ⟨z, [], [], by simp, h, rfl, by simp [Spec.forwardLast], .inl ⟨rfl, rfl⟩⟩
  obtain ⟨x', hx', hr⟩ := C52_partial cfg f hw
  rw [hx] at hx'; cases hx'
  rw [if_neg hv] at hr
  rw [key]
  exact whole.bytes ((key x).1 (hr.2 he)) hm hy

/-- A network frame meeting these hypotheses, and another form of it. -/
example : (Net.Frame.mk Sample.netHeader ⟨Sample.transHeader, ⟨[]⟩⟩).WF spec ∧
    ∃ x, (Net.Frame.mk Sample.netHeader ⟨Sample.transHeader, ⟨[]⟩⟩).toBytes spec = .ok x ∧
      x.set 0 0xEB ≠ x ∧ Net.Frame.tryFrom spec (x.set 0 0xEB) = .ok ⟨Sample.netHeader, ⟨Sample.transHeader, ⟨[]⟩⟩⟩ :=
  ⟨by decide +kernel, _, rfl, by decide +kernel, by decide +kernel⟩

/-- **C95** for network frames whose command ends with an indirect forward: these come back from the encoding with as many
bytes behind it as get lost (`C57_network_accepts`), and just from what agrees with it in the bits looked at. -/
theorem C95_network_forward_partial (cfg : Cfg) (hv : cfg.variant ≠ .wizzilab) (f : Net.Frame) (hw : f.WF cfg)
    (hl : ∀ a ∈ f.frame.command.actions, Ignored.large a = false)
    (he : Spec.endsWithForward f.frame.command.actions) (x : List U8) (hx : f.toBytes cfg = .ok x)
    (y lost : List U8) (hy : y.length = x.length)
    (hlost : lost.length = Spec.dropped cfg f.frame.command.actions.length) :
    Net.Frame.tryFrom cfg (y ++ lost) = .ok f ↔
      Alike.Same (Alike.network cfg.variant f) (Form.ofBytes x) (Form.ofBytes y) := by
  have hact : ∀ a ∈ f.frame.command.actions, a.WF cfg := hw.2.2.1
  have hm : (Alike.network cfg.variant f).length = 8 * x.length := by
    have hs := C85_network cfg f
    rw [hx] at hs
    cases e : Size.network cfg.variant f with
    | none => rw [e] at hs; cases hs
    | some n =>
      rw [e] at hs
      have hs : x.length = (n + 7) / 8 := by simpa [Size.result, Size.bytes, Except.map] using hs
      have h8 := Alike.network_dvd hv hact e
      rw [Alike.network_size hact e]
      omega
  have hne : f.frame.command.actions ≠ [] := by
    obtain ⟨a, ha, -⟩ := he
    intro e; rw [e] at ha; cases ha
  have whole : WholeBytes (fun z => ∃ head wire, z = head ++ wire ∧
      Form.all [Form.netHeader cfg.variant f.header, Form.transHeader f.frame.header] (Form.ofBytes head) ∧
      Form.actions cfg f.frame.command.actions (Form.ofBytes wire)) (Alike.network cfg.variant f) :=
    (WholeBytes.seq
      (WholeBytes.of (Whole.cons (Whole.netHeader cfg.variant f.header) (Whole.last (Whole.transHeader f.frame.header))))
      fun _ => WholeBytes.of (Whole.actions cfg f.frame.command.actions fun a ha =>
        ⟨(hact a ha).isTx, (hact a ha).plain, hl a ha⟩)).cast (by
      simp only [Alike.network, Alike.command, List.append_assoc])
  have key : ∀ z : List U8, Net.Frame.tryFrom cfg (z ++ lost) = .ok f ↔ ∃ head wire, z = head ++ wire ∧
      Form.all [Form.netHeader cfg.variant f.header, Form.transHeader f.frame.header] (Form.ofBytes head) ∧
      Form.actions cfg f.frame.command.actions (Form.ofBytes wire) := by
    intro z
    rw [C57_network_accepts cfg hv]
    constructor
    · rintro ⟨head, wire, junk, e, hh, hf, -, ⟨h, -⟩ | ⟨-, hj⟩⟩
      · exact absurd h hne
      · rw [← List.append_assoc] at e
        exact ⟨head, wire, (List.append_inj' e (by omega)).1, hh, hf⟩
    · rintro ⟨head, wire, rfl, hh, hf⟩
      exact ⟨head, wire, lost, by simp [List.append_assoc], hh, hf, hw.2.2.2, .inr ⟨he, hlost⟩⟩
  have hxf : ∃ head wire, x = head ++ wire ∧
      Form.all [Form.netHeader cfg.variant f.header, Form.transHeader f.frame.header] (Form.ofBytes head) ∧
      Form.actions cfg f.frame.command.actions (Form.ofBytes wire) := by
    obtain ⟨nb, hnb, hnd⟩ := Net.Header.rt (cfg := cfg) hw.1
    obtain ⟨tb, htb, htd⟩ := Trans.Header.rt hw.2.1
    obtain ⟨nb', tb', hnb', htb', h8, -⟩ := Net.heads hv hw.1 hw.2.1
    rw [hnb] at hnb'; cases hnb'
    rw [htb] at htb'; cases htb'
    obtain ⟨cb, hcb, hc8, hR⟩ := Reads.write hact
    have hcb' : f.frame.command.write cfg = .ok cb := hcb
    have hwr : f.write cfg = .ok ((nb ++ tb) ++ cb) := by
      simp only [Net.Frame.write, Trans.Frame.write, W.seq, hnb, htb, hcb', List.append_nil, List.append_assoc]
    have h8' : 8 ∣ (nb ++ tb).length := by rw [List.length_append]; exact h8
    unfold Net.Frame.toBytes at hx
    rw [hwr] at hx
    have hx : packBits ((nb ++ tb) ++ cb) = x := Except.ok.inj hx
    rw [packBits_append _ _ h8'] at hx
    refine ⟨packBits (nb ++ tb), packBits cb, hx.symm, ?_, ?_⟩
    · rw [Form.ofBytes_eq, bytesBits_packBits _ h8']
      exact ⟨nb, tb, rfl, (Net.Header.fits cfg _ _ []).1 (hnd []), tb, [], (List.append_nil _).symm,
        (Trans.Header.fits _ _ []).1 (htd []), rfl⟩
    · rw [Form.ofBytes_eq, bytesBits_packBits _ hc8]
      exact (reads_iff cfg _ cb [] fun a ha => (hact a ha).isTx).1 (hR [])
  rw [key]
  exact whole.all x y hxf hm.symm hy

/-- A network frame meeting these hypotheses, and another form of it. -/
example : (Net.Frame.mk Sample.netHeader ⟨Sample.transHeader, ⟨[tag, indirect]⟩⟩).WF spec ∧
    (∀ a ∈ [tag, indirect], Ignored.large a = false) ∧ Spec.endsWithForward [tag, indirect] ∧
    Spec.dropped spec 2 = 2 ∧
    ∃ x, (Net.Frame.mk Sample.netHeader ⟨Sample.transHeader, ⟨[tag, indirect]⟩⟩).toBytes spec = .ok x ∧
      x.set 0 0xEB ≠ x ∧
      Net.Frame.tryFrom spec (x.set 0 0xEB ++ [1, 2]) = .ok ⟨Sample.netHeader, ⟨Sample.transHeader, ⟨[tag, indirect]⟩⟩⟩ :=
  ⟨by decide +kernel, by decide +kernel, ⟨_, rfl, rfl⟩, by decide, _, rfl, by decide +kernel, by decide +kernel⟩

/-- **C95** holds of background frames, in every build: nothing but the encoding decodes to the frame. -/
theorem C95_background (cfg : Cfg) (f : BackgroundFrame) (hw : f.WF) (x : List U8) (hx : f.toBytes cfg = .ok x)
    (y : List U8) : BackgroundFrame.tryFrom cfg y = .ok f ↔ y = x := by
  constructor
  · intro h
    have := C31_restores cfg y f h
    rw [hx] at this
    exact (Except.ok.inj this).symm
  · rintro rfl
    obtain ⟨x', hx', hr⟩ := C31_roundtrip cfg f hw
    rw [hx] at hx'; cases hx'
    exact hr

example : Sample.background.WF ∧ ∃ x, Sample.background.toBytes spec = .ok x ∧ x.length = 6 :=
  ⟨by unfold BackgroundFrame.WF; decide, _, rfl, by decide +kernel⟩

#print axioms C95_foreground_partial
#print axioms C95_reserved_violates
#print axioms C95_network_partial
#print axioms C95_network_forward_partial
#print axioms C95_background

end Dash7
