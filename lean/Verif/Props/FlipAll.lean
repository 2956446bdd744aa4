import Verif.Lemmas.FlipEcho

/-!
# C86: which flipped bits go unnoticed, for all commands and actions
-/

namespace Dash7

open Sample

/-- The access profile all of whose bytes but two are `0x10`. -/
def Ignored.echoProfile : AccessProfile :=
  ⟨⟨.band915, .loRate, .rfu⟩,
    #v[⟨0x41, ⟨16, false⟩⟩, ⟨0x10, ⟨16, false⟩⟩, ⟨0x10, ⟨16, false⟩⟩, ⟨0x10, ⟨16, false⟩⟩],
    Vector.replicate 8 ⟨0x1010, 0x1010, 0x10, 0x10, 0x10⟩⟩

/-- The action writes or returns this access profile. -/
def Ignored.echoes : Action → Bool
  | .writeFileData o | .writeFileDataFlush o | .returnFileData o =>
    match o.data with
    | .accessProfile _ p => p == echoProfile
    | _ => false
  | _ => false

/-! ## Where the bit is -/

theorem modify_left {l r : List Bool} {k : Nat} (h : k < l.length) : (l ++ r).modify k not = l.modify k not ++ r := by
  induction l generalizing k with
  | nil => simp at h
  | cons y l ih =>
    cases k with
    | zero => rfl
    | succ k => simp [ih (k := k) (by simpa using h)]

theorem modify_right {l r : List Bool} {k : Nat} : (l ++ r).modify (l.length + k) not = l ++ r.modify k not := by
  induction l with
  | nil => simp
  | cons y l ih =>
    rw [List.length_cons, show l.length + 1 + k = (l.length + k) + 1 by omega, List.cons_append, List.modify_succ_cons, ih,
      List.cons_append]

/-- The action a bit of a command belongs to. -/
theorem Ignored.locate {cfg : Cfg} {as : List Action} (hw : ∀ a ∈ as, a.WF cfg) : ∀ {x : List U8},
    W.list (Action.write cfg) as = .ok (bytesBits x) → ∀ {i : Nat}, i < 8 * x.length →
    ∃ bs a cs xb xa xc j, as = bs ++ a :: cs ∧ x = xb ++ (xa ++ xc) ∧ W.list (Action.write cfg) bs = .ok (bytesBits xb) ∧
      a.toBytes cfg = .ok xa ∧ W.list (Action.write cfg) cs = .ok (bytesBits xc) ∧ i = 8 * xb.length + j ∧ j < 8 * xa.length := by
  induction as with
  | nil =>
    intro x hx i hi
    have : bytesBits x = [] := (Except.ok.inj hx).symm
    rw [bytesBits_eq_nil] at this
    subst this
    simp at hi
  | cons a as ih =>
    intro x hx i hi
    obtain ⟨xa', hxa', ha8, -, hda⟩ := Action.decode_write (hw a (by simp))
    obtain ⟨xa, hxa, rfl⟩ := W.toBytes_ok hxa' ha8
    obtain ⟨y, xc, hy, hxc, e1⟩ := W.seq_cons_ok.1 hx
    rw [hxa'] at hy; cases hy
    obtain ⟨xc', rfl⟩ : ∃ xc', xc = bytesBits xc' := by
      obtain ⟨xc', -, h2, -⟩ := Form.encoded (cfg := cfg) (as := as) fun b hb => hw b (by simp [hb])
      exact ⟨xc', by have := hxc.symm.trans h2; cases this; rfl⟩
    have e2 : x = xa ++ xc' := bytesBits_inj (by rw [bytesBits_append]; exact e1)
    subst e2
    by_cases h : i < 8 * xa.length
    · exact ⟨[], a, as, [], xa, xc', i, rfl, rfl, rfl, hxa, hxc, by simp, h⟩
    · rw [List.length_append] at hi
      obtain ⟨bs, b, cs, xb, xd, xe, j, rfl, rfl, h1, h2, h3, h4, h5⟩ :=
        ih (fun b hb => hw b (by simp [hb])) hxc (i := i - 8 * xa.length) (by omega)
      refine ⟨a :: bs, b, cs, xa ++ xb, xd, xe, j, rfl, by simp, ?_, h2, h3, ?_, h5⟩
      · rw [bytesBits_append]
        exact W.seq_cons_ok.2 ⟨_, _, hxa', h1, rfl⟩
      · rw [List.length_append]; omega

/-- One flipped bit of an action, other than the one telling that a length of two bytes is not one of one: what is read from
it has its marks. -/
theorem Ignored.inside {cfg : Cfg} {a : Action} (hw : a.WF cfg) {x : List U8} (hx : a.toBytes cfg = .ok x) {i : Nat}
    (hi : i < 8 * x.length) (hs : Ignored.large a = true → i ≠ 8 * Ignored.before a + 1) :
    (∀ w junk, Form.ofBytes (Ignored.flip x i) = w ++ junk → Form.action cfg a w →
      (Ignored.action cfg.variant a)[i]? = some true) ∧
    ((Ignored.action cfg.variant a)[i]? = some true → Form.action cfg a (Form.ofBytes (Ignored.flip x i))) := by
  have hm := Ignored.action_length hw hx
  have hF : Form.action cfg a (Form.ofBytes x) := by
    obtain ⟨y, hy, h8, -, hd⟩ := Action.decode_write hw
    obtain ⟨x', hx', rfl⟩ := W.toBytes_ok hy h8
    have : Action.toBytes cfg a = .ok x' := hx'
    rw [hx] at this; cases this
    rw [Form.ofBytes_eq]; exact (Action.decode_iff cfg a _ []).1 (hd [])
  cases hl : Ignored.large a with
  | false =>
    have tight := Tight.action cfg a hw.isTx hw.plain hl
    refine ⟨fun w junk e h => ?_, (tight.flip hi hF hm).2⟩
    have h1 := tight.min w h
    have h2 := congrArg List.length e
    rw [Form.ofBytes_length, Ignored.flip_length, List.length_append] at h2
    have : junk = [] := List.eq_nil_of_length_eq_zero (by omega)
    subst this
    rw [List.append_nil] at e
    rw [← e] at h
    exact (tight.flip hi hF hm).1 h
  | true =>
    obtain ⟨code, o, h⟩ := Ignored.Large.of hw hl
    obtain ⟨c, hp, hc, hN', hN⟩ := h.parts hw hx
    have tight := (h.tight hN hN').flip hi hp.two hm
    have hs := hs hl
    rw [h.before] at hs
    refine ⟨fun w junk e hf => ?_, fun hmark => ?_⟩
    · rw [h.form] at hf
      obtain ⟨k, k', c', hp'⟩ := Form.parts_of (fun n c => h.any _ _ n 0 c) e hf
      refine tight.1 ?_
      rw [Ignored.flip_bits] at hp' ⊢
      exact hp.flip (fun k hk hn => lengthExtra_min _ k hk hn) (fun c' hc' => by rw [hc]; exact (Tight.file _ _ _ _).min c' hc')
        (by rw [Form.ofBytes_length]; exact hi) (by omega) hp'
    · rw [h.form]
      exact Form.two_all (fun n c => h.any _ _ 0 n c) (tight.2 hmark)

/-- The bit telling that a length of two bytes is not one of one is marked as one that matters. -/
theorem Ignored.selector_mark {cfg : Cfg} {a : Action} {code : Nat} {o : Op.FileData} (h : Ignored.Large cfg a code o) :
    (Ignored.action cfg.variant a)[8 * Ignored.before a + 1]? = some false := by
  rw [h.marks, h.before, Ignored.fileOffset, Ignored.length, Ignored.sized, Ignored.size]
  have hl : (Ignored.heed 8 ++ (Ignored.heed 8 ++ Ignored.heed (8 * (1 + Spec.lengthExtra o.offset.offset.val.toNat)))).length =
      8 * (3 + Spec.lengthExtra o.offset.offset.val.toNat) := by simp [Ignored.heed]; omega
  rw [List.getElem?_append_right (by omega), hl, Nat.add_sub_cancel_left]
  rfl

/-- That bit flipped: the file is found one byte earlier. -/
theorem Ignored.selected {cfg : Cfg} {a : Action} (hw : a.WF cfg) (hl : Ignored.large a = true) {x : List U8}
    (hx : a.toBytes cfg = .ok x) {t : List U8} {w r : List Bool}
    (e : Form.ofBytes (Ignored.flip x (8 * Ignored.before a + 1)) ++ Form.ofBytes t = w ++ r) (hf : Form.action cfg a w) :
    Ignored.echoes a = true ∧ r = Form.ofBytes (0x10 :: t) := by
  obtain ⟨code, o, h⟩ := Ignored.Large.of hw hl
  obtain ⟨c0, hp, -⟩ := h.parts hw hx
  obtain ⟨front, hi, lo, z, hz, hfl, hlo, rfl⟩ := h.split hx
  have e1 : Form.ofBytes (front ++ hi :: lo :: z) ++ Form.ofBytes t =
      Form.ofBytes (front ++ [hi]) ++ Form.ofBytes (lo :: (z ++ t)) := by
    rw [← Form.ofBytes_append, ← Form.ofBytes_append]; simp
  have hfl' : (Form.ofBytes (front ++ [hi])).length = 32 + 8 * Spec.lengthExtra o.offset.offset.val.toNat := by
    rw [Form.ofBytes_length, List.length_append, hfl]; simp; omega
  have hc0 : c0 = Form.ofBytes z := by
    have h1 := hp.pre
    have e2 : Form.ofBytes (front ++ hi :: lo :: z) = Form.ofBytes (front ++ [hi, lo]) ++ Form.ofBytes z := by
      rw [← Form.ofBytes_append]; simp
    rw [e2, List.drop_left' (by rw [Form.ofBytes_length, List.length_append, hfl]; simp; omega), List.append_nil] at h1
    exact h1.symm
  subst hc0
  rw [h.form] at hf
  obtain ⟨k, k', c, hq⟩ := Form.parts_of (fun n c => h.any _ _ n 0 c) e hf
  have hlong := hp.long
  rw [Ignored.flip_bits, ← modify_left (by rw [h.before]; omega), h.before,
    show 8 * (3 + Spec.lengthExtra o.offset.offset.val.toNat) + 1 = 25 + 8 * Spec.lengthExtra o.offset.offset.val.toNat by omega] at hq
  obtain ⟨h1, h2⟩ := ((hp.more (Form.ofBytes t)).selector c r).1 ⟨k, k', hq⟩
  rw [e1, List.drop_left' hfl'] at h2
  obtain ⟨⟨i, p, hd⟩, -, hzz, hr⟩ := h.shift hl hz hlo hp.content h1 h2.symm
  refine ⟨?_, hr⟩
  have hpp : p = Ignored.echoProfile := by
    have h3 := hp.content
    rw [hd, hzz] at h3
    obtain ⟨w, w', e0, ⟨rfl, -⟩, w1, w2, rfl, h0, rfl⟩ := h3
    rw [List.nil_append, List.append_nil] at e0
    subst e0
    have h4 := (AccessProfile.fits p _ []).2 h0
    have h5 : AccessProfile.read.eval (Form.ofBytes ([0x41, 0x41] ++ List.replicate 63 0x10) ++ []) =
      .ok (Ignored.echoProfile, []) := by decide +kernel
    have same : ∀ {ε : Type} (q : AccessProfile) (s : Except ε (AccessProfile × List Bool)),
        s = .ok (q, []) → s = .ok (p, []) → p = q := by
      rintro ε q s rfl h
      cases h; rfl
    exact same _ _ h5 h4
  have : (match o.data with
      | .accessProfile _ p => p == Ignored.echoProfile
      | _ => false) = true := by rw [hd, hpp]; exact beq_self_eq_true _
  rcases h.op with rfl | rfl | rfl <;> exact this

/-! ## C86 -/

/-- **C86** for all commands: let one bit of the encoding be flipped. What arrives decodes to the command sent just if the
bit is one of those the decoder does not look at. -/
theorem C86_every_command_partial (cfg : Cfg) (c : Command) (hw : c.WF cfg) (x : List U8) (hx : c.toBytes cfg = .ok x)
    (i : Nat) (hi : i < 8 * x.length) :
    Command.tryFrom cfg (Ignored.flip x i) = .ok c ↔ (Ignored.command cfg.variant c)[i]? = some true := by
  obtain ⟨as⟩ := c
  obtain ⟨hwa, hlast⟩ := hw
  simp only at hwa hlast
  have hlist : W.list (Action.write cfg) as = .ok (bytesBits x) := by
    obtain ⟨x', h1, h2, -⟩ := Form.encoded hwa
    cases h1.symm.trans hx
    exact h2
  obtain ⟨bs, a, cs, xb, xa, xc, j, rfl, rfl, hb, ha, hc, rfl, hj⟩ := Ignored.locate hwa hlist hi
  have hwb : ∀ b ∈ bs, b.WF cfg := fun b h => hwa b (by simp [h])
  have hwA : a.WF cfg := hwa a (by simp)
  have hwc : ∀ b ∈ cs, b.WF cfg := fun b h => hwa b (by simp [h])
  have ht : ∀ b ∈ bs ++ a :: cs, b.isTx = false := fun b h => (hwa b h).isTx
  have code : ∀ {as : List Action} {y : List U8}, (∀ a ∈ as, a.WF cfg) → W.list (Action.write cfg) as = .ok (bytesBits y) →
      Form.actions cfg as (Form.ofBytes y) ∧ (as.flatMap (Ignored.action cfg.variant)).length = 8 * y.length := by
    intro as y hw h
    obtain ⟨y', h1, h2, h3⟩ := Form.encoded hw
    have : y' = y := bytesBits_inj (Except.ok.inj (h2.symm.trans h))
    subst this
    exact ⟨h3, Ignored.command_length (c := ⟨as⟩) hw h1⟩
  obtain ⟨fb, mb⟩ := code hwb hb
  obtain ⟨fc, mc⟩ := code hwc hc
  have ma := Ignored.action_length hwA ha
  have hbits : Form.ofBytes (Ignored.flip (xb ++ (xa ++ xc)) (8 * xb.length + j)) =
      Form.ofBytes xb ++ (Form.ofBytes (Ignored.flip xa j) ++ Form.ofBytes xc) := by
    rw [Ignored.flip_bits, Ignored.flip_bits, Form.ofBytes_append, Form.ofBytes_append,
      ← Form.ofBytes_length xb, modify_right, modify_left (by rw [Form.ofBytes_length]; exact hj)]
  have hmark : (Ignored.command cfg.variant ⟨bs ++ a :: cs⟩)[8 * xb.length + j]? = (Ignored.action cfg.variant a)[j]? := by
    show ((bs ++ a :: cs).flatMap (Ignored.action cfg.variant))[_]? = _
    rw [List.flatMap_append, List.flatMap_cons, List.getElem?_append_right (by omega), mb, Nat.add_sub_cancel_left,
      List.getElem?_append_left (by omega)]
  rw [hmark, C55_try_from_partial cfg _ ⟨bs ++ a :: cs⟩ ht]
  have lj : (Form.ofBytes (Ignored.flip xa j)).length = 8 * xa.length := by
    rw [Form.ofBytes_length, Ignored.flip_length]
  constructor
  · rintro ⟨wire, junk, e, hf, -, hjunk⟩
    obtain ⟨wb, w, e1, gb, wa, wc, rfl, ga, gc⟩ := (Form.actions_pair cfg bs (a :: cs) _).1 hf
    have ga : Form.action cfg a wa := ga
    rw [e, Form.ofBytes_append, e1] at hbits
    simp only [List.append_assoc] at hbits
    have : wb = Form.ofBytes xb := Form.actions_prefix gb fb hbits
    subst this
    have e2 := List.append_cancel_left hbits
    by_cases hsel : Ignored.large a = true ∧ j = 8 * Ignored.before a + 1
    · exfalso
      obtain ⟨hl, rfl⟩ := hsel
      obtain ⟨hecho, hr⟩ := Ignored.selected hwA hl ha e2.symm ga
      refine Form.never_early cfg cs hwc xc hc wc (Form.ofBytes junk) hr gc ?_
      rcases hjunk with rfl | ⟨⟨l, hl', hfw⟩, -⟩
      · exact .inl rfl
      · refine .inr ⟨l, ?_, hfw⟩
        cases cs with
        | nil =>
          simp at hl'
          subst hl'
          obtain ⟨code, o, h⟩ := Ignored.Large.of hwA hl
          rcases h.op with rfl | rfl | rfl <;> cases hfw
        | cons b cs => simpa using hl'
    · obtain ⟨h1, -⟩ := Ignored.inside hwA ha hj (fun hl he => hsel ⟨hl, he⟩)
      by_cases hlen : wa.length ≤ 8 * xa.length
      · have hp : wa <+: Form.ofBytes (Ignored.flip xa j) :=
          List.prefix_of_prefix_length_le (l₃ := Form.ofBytes (Ignored.flip xa j) ++ Form.ofBytes xc)
            (by rw [← e2]; exact List.prefix_append _ _) (List.prefix_append _ _) (by omega)
        obtain ⟨r, hr⟩ := hp
        exact h1 wa r hr.symm ga
      · exfalso
        have hp : Form.ofBytes (Ignored.flip xa j) <+: wa :=
          List.prefix_of_prefix_length_le (l₃ := Form.ofBytes (Ignored.flip xa j) ++ Form.ofBytes xc)
            (List.prefix_append _ _) (by rw [← e2]; exact List.prefix_append _ _) (by omega)
        obtain ⟨r, rfl⟩ := hp
        rw [List.append_assoc] at e2
        have hd := Form.action_dvd hwA.isTx ga
        rw [List.length_append] at hd hlen
        have := Form.never_late cfg cs hwc xc hc r wc _ (List.append_cancel_left e2).symm gc (by omega)
        subst this
        simp at hlen
        omega
  · intro hm
    have hsel : Ignored.large a = true → j ≠ 8 * Ignored.before a + 1 := by
      rintro hl rfl
      obtain ⟨code, o, h⟩ := Ignored.Large.of hwA hl
      rw [Ignored.selector_mark h] at hm
      cases hm
    have := (Ignored.inside hwA ha hj hsel).2 hm
    refine ⟨_, [], (List.append_nil _).symm, ?_, hlast, .inl rfl⟩
    rw [hbits]
    exact (Form.actions_pair cfg bs (a :: cs) _).2 ⟨_, _, rfl, fb, _, _, rfl, this, fc⟩

/-- **C86** for all actions: the same, but for one bit of the actions that carry one certain access profile. -/
theorem C86_every_action_partial (cfg : Cfg) (a : Action) (hw : a.WF cfg) (x : List U8) (hx : a.toBytes cfg = .ok x)
    (i : Nat) (hi : i < 8 * x.length) :
    Action.tryFrom cfg (Ignored.flip x i) = .ok a ↔
      (Ignored.action cfg.variant a)[i]? = some true ∨ Ignored.echoes a = true ∧ i = 8 * Ignored.before a + 1 := by
  have hlarge : Ignored.echoes a = true → Ignored.large a = true := by
    intro h
    cases a with
    | writeFileData o | writeFileDataFlush o | returnFileData o =>
      simp only [Ignored.echoes, Ignored.large] at h ⊢
      cases hd : o.data <;> rw [hd] at h <;> first | rfl | cases h
    | _ => cases h
  by_cases hsel : Ignored.large a = true ∧ i = 8 * Ignored.before a + 1
  · obtain ⟨hl, rfl⟩ := hsel
    obtain ⟨code, o, h⟩ := Ignored.Large.of hw hl
    rw [Ignored.selector_mark h]
    constructor
    · intro hr
      obtain ⟨w, junk, e, hf, -⟩ := (C54_try_from cfg _ a).1 hr
      exact .inr ⟨(Ignored.selected hw hl hx (t := []) (by rw [show Form.ofBytes [] = [] from rfl, List.append_nil]; exact e) hf).1, rfl⟩
    · rintro (hm | ⟨hecho, -⟩)
      · cases hm
      · obtain ⟨j, hd⟩ : ∃ j, o.data = .accessProfile j Ignored.echoProfile := by
          have : (match o.data with
              | .accessProfile _ p => p == Ignored.echoProfile
              | _ => false) = true := by
            rcases h.op with rfl | rfl | rfl <;> exact hecho
          cases hd : o.data with
          | accessProfile j p => rw [hd] at this; exact ⟨j, by rw [eq_of_beq this]⟩
          | _ => rw [hd] at this; cases this
        obtain ⟨c0, hp, -⟩ := h.parts hw hx
        obtain ⟨front, hi', lo, z, hz, hfl, hlo, rfl⟩ := h.split hx
        rw [hd] at hz
        have hz' : Wire.file cfg.bigEndianHost (.accessProfile j Ignored.echoProfile) =
            some ([0x41, 0x41] ++ List.replicate 63 0x10) := by
          show Wire.accessProfile Ignored.echoProfile = _
          decide +kernel
        cases hz.symm.trans hz'
        have : lo = 0x41 := BitVec.eq_of_toNat_eq (by rw [hlo]; rfl)
        subst this
        rw [h.tryFrom, Ignored.flip_bits, h.before,
          show 8 * (3 + Spec.lengthExtra o.offset.offset.val.toNat) + 1 = 25 + 8 * Spec.lengthExtra o.offset.offset.val.toNat by omega]
        refine ⟨Form.ofBytes ([0x41, 0x41, 0x41] ++ List.replicate 62 0x10), Form.ofBytes [0x10],
          (hp.selector _ _).2 ⟨?_, ?_⟩, by decide⟩
        · have h3 := hp.content
          rw [hd] at h3 ⊢
          obtain ⟨w, w', -, g, -⟩ := h3
          refine ⟨[], _, rfl, ⟨rfl, g.2⟩, _, [], (List.append_nil _).symm, ?_, rfl⟩
          exact (AccessProfile.fits _ _ []).1 (by decide +kernel)
        · have e2 : Form.ofBytes (front ++ hi' :: 0x41 :: ([0x41, 0x41] ++ List.replicate 63 0x10)) =
              Form.ofBytes (front ++ [hi']) ++ Form.ofBytes (0x41 :: ([0x41, 0x41] ++ List.replicate 63 0x10)) := by
            rw [← Form.ofBytes_append]; simp
          rw [e2, List.drop_left' (by rw [Form.ofBytes_length, List.length_append, hfl]; simp; omega)]
          decide +kernel
  · obtain ⟨h1, h2⟩ := Ignored.inside hw hx hi (fun hl he => hsel ⟨hl, he⟩)
    rw [C54_try_from]
    constructor
    · rintro ⟨w, junk, e, hf, -⟩
      exact .inl (h1 w junk e hf)
    · rintro (hm | ⟨he, rfl⟩)
      · exact ⟨_, [], (List.append_nil _).symm, h2 hm, by simp⟩
      · exact absurd ⟨hlarge he, rfl⟩ hsel

/-- Two such actions in one command: C86_every_command_partial applies, and the bit that goes unnoticed in an action on its
own is noticed in either. -/
example :
    (Command.mk [tag, echo, echo]).WF spec ∧
    ∃ x, (Command.mk [tag, echo, echo]).toBytes spec = .ok x ∧ x.length = 142 ∧
      (Ignored.command .spec ⟨[tag, echo, echo]⟩)[16 + 25]? = some false ∧
      Command.tryFrom spec (Ignored.flip x (16 + 25)) ≠ .ok ⟨[tag, echo, echo]⟩ ∧
      (Ignored.command .spec ⟨[tag, echo, echo]⟩)[16 + 560 + 25]? = some false ∧
      Command.tryFrom spec (Ignored.flip x (16 + 560 + 25)) ≠ .ok ⟨[tag, echo, echo]⟩ ∧
      (Ignored.command .spec ⟨[tag, echo, echo]⟩)[16 + 560 + 26]? = some true ∧
      Command.tryFrom spec (Ignored.flip x (16 + 560 + 26)) = .ok ⟨[tag, echo, echo]⟩ := by
  refine ⟨by decide +kernel, _, rfl, by decide +kernel, by decide +kernel, by decide +kernel, by decide +kernel,
    by decide +kernel, by decide +kernel, by decide +kernel⟩

/-- The action whose bit goes unnoticed when it is sent on its own. -/
example :
    echo.WF spec ∧ Ignored.echoes echo = true ∧ Ignored.before echo = 3 ∧
    (∃ x, echo.toBytes spec = .ok x ∧ Action.tryFrom spec (Ignored.flip x 25) = .ok echo) := by
  refine ⟨by decide +kernel, by decide +kernel, by decide +kernel, _, rfl, by decide +kernel⟩

end Dash7

#print axioms Dash7.C86_every_command_partial
#print axioms Dash7.C86_every_action_partial
