import Verif.Lemmas.FlipAll

/-!
# For C86: large files that are found again one byte earlier
-/

namespace Dash7

namespace Form

/-- One byte at the head. -/
theorem peel {w r : List Bool} {b : U8} {t : List U8} (hl : w.length = 8) (h : w ++ r = Form.ofBytes (b :: t)) :
    w = Form.ofBytes [b] ∧ r = Form.ofBytes t := by
  have e : Form.ofBytes (b :: t) = Form.ofBytes [b] ++ Form.ofBytes t := Form.ofBytes_append [b] t
  rw [e] at h
  exact List.append_inj h (by rw [hl]; rfl)

theorem field_byte {v b : U8} (h : field 8 v.toNat (Form.ofBytes [b])) : v = b := by
  have e : ∀ b : U8, value (Form.ofBytes [b]) = b.toNat := by decide +kernel
  have := h.2
  rw [e] at this
  exact (BitVec.eq_of_toNat_eq this).symm

/-- A run of equal bytes. -/
theorem run {lo last : U8} : ∀ {z : List U8}, lo :: z = z ++ [last] → (∀ b ∈ z, b = lo) ∧ last = lo
  | [], h => by simp at h; exact ⟨by simp, h.symm⟩
  | b :: z, h => by
    simp only [List.cons_append, List.cons.injEq] at h
    obtain ⟨rfl, h⟩ := h
    obtain ⟨h1, h2⟩ := run h
    exact ⟨fun c hc => by rcases List.mem_cons.1 hc with rfl | hc; rfl; exact h1 c hc, h2⟩

theorem ofBytes_run {z : List U8} {lo : U8} {r : List Bool} (h : Form.ofBytes z ++ r = Form.ofBytes (lo :: z)) :
    (∀ b ∈ z, b = lo) ∧ r = Form.ofBytes [lo] := by
  have hl := congrArg List.length h
  rw [List.length_append, Form.ofBytes_length, Form.ofBytes_length, List.length_cons] at hl
  obtain ⟨a, last, e⟩ : ∃ a last, lo :: z = a ++ [last] := by
    refine ⟨(lo :: z).dropLast, (lo :: z).getLast (by simp), (List.dropLast_concat_getLast (by simp)).symm⟩
  rw [e, Form.ofBytes_append] at h
  have he := congrArg List.length e
  rw [List.length_append, List.length_cons] at he
  simp only [List.length_cons, List.length_nil] at he
  obtain ⟨h1, h2⟩ := List.append_inj h (by rw [Form.ofBytes_length, Form.ofBytes_length]; omega)
  have : z = a := bytesBits_inj (by rw [← Form.ofBytes_eq, ← Form.ofBytes_eq]; exact h1)
  subst this
  obtain ⟨h3, rfl⟩ := run e
  exact ⟨h3, h2⟩

/-- The scan period read from `0x41` or `0x10` is encoded as `0x10`. -/
theorem varInt_sixteen {v : VarInt} {b x : U8} (hb : b = 0x41 ∨ b = 0x10) (h : varInt v (Form.ofBytes [b]))
    (hw : Wire.varInt v = some [x]) : v = ⟨16, false⟩ ∧ x = 0x10 := by
  obtain ⟨e, m, hv, hc, w1, w, e1, ⟨l1, v1⟩, w2, w', rfl, ⟨l2, v2⟩, rfl⟩ := h
  obtain ⟨value, ceil⟩ := v
  simp only at hc hv
  subst hc
  have hv : value = 16 := by
    apply BitVec.eq_of_toNat_eq
    rw [hv, ← v1, ← v2]
    rw [List.append_nil] at e1
    have g1 : w1 = (Form.ofBytes [b]).take 3 := by rw [e1]; exact (List.take_left' l1).symm
    have g2 : w2 = (Form.ofBytes [b]).drop 3 := by rw [e1]; exact (List.drop_left' l1).symm
    rw [g1, g2]
    rcases hb with rfl | rfl <;> decide +kernel
  subst hv
  refine ⟨rfl, ?_⟩
  have : Wire.varInt ⟨16, false⟩ = some [0x10] := by decide +kernel
  rw [this] at hw
  cases hw; rfl

/-- A sub-profile found one byte earlier. -/
theorem subProfile_shift {s : SubProfile} {y t : List U8} {b : U8} {w r : List Bool} (hb : b = 0x41 ∨ b = 0x10)
    (hy : Wire.subProfile s = some y) (h : subProfile s w) (e : w ++ r = Form.ofBytes (b :: (y ++ t))) :
    s = ⟨b, ⟨16, false⟩⟩ ∧ y = [b, 0x10] ∧ r = Form.ofBytes (0x10 :: t) := by
  obtain ⟨w1, w', rfl, h1, w2, w'', rfl, h2, rfl⟩ := h
  obtain ⟨y1, y', hy1, hy', rfl⟩ := Wire.join_some hy
  cases hy1
  obtain ⟨y2, y'', hy2, hy'', rfl⟩ := Wire.join_some hy'
  cases hy''
  obtain ⟨x, rfl⟩ : ∃ x, y2 = [x] := by
    unfold Wire.varInt at hy2
    simp only at hy2
    split at hy2
    · cases hy2; exact ⟨_, rfl⟩
    · cases hy2
  have l2 : w2.length = 8 := by
    obtain ⟨e, m, -, -, a, a', rfl, ⟨la, -⟩, c, c', rfl, ⟨lc, -⟩, rfl⟩ := h2
    simp [la, lc]
  simp only [List.append_assoc, List.append_nil, List.cons_append, List.nil_append] at e
  obtain ⟨e1, e2⟩ := peel h1.1 e
  obtain ⟨e3, e4⟩ := peel l2 e2
  subst e1 e3
  have h0 := field_byte h1
  rw [h0] at h2
  obtain ⟨hv, rfl⟩ := varInt_sixteen hb h2 hy2
  obtain ⟨bm, v⟩ := s
  simp only at h0 hv
  subst h0 hv
  exact ⟨rfl, rfl, e4⟩

/-- What is in a channel header. -/
theorem channelHeader_shift {h : ChannelHeader} {y : List U8} (hy : Wire.channelHeader h = some y)
    (hf : channelHeader h (Form.ofBytes [0x41])) : y = [0x41] := by
  obtain ⟨w0, w, e, l0, w1, w', rfl, ⟨l1, v1⟩, w2, w'', rfl, ⟨l2, v2⟩, w3, w''', rfl, ⟨l3, v3⟩, rfl⟩ := hf
  have l0 : w0.length = 1 := l0
  have g0 : w1 ++ (w2 ++ (w3 ++ [])) = (Form.ofBytes [0x41]).drop 1 := by rw [e]; exact (List.drop_left' l0).symm
  have g1 : w1 = ((Form.ofBytes [0x41]).drop 1).take 3 := by rw [← g0]; exact (List.take_left' l1).symm
  have g0' : w2 ++ (w3 ++ []) = ((Form.ofBytes [0x41]).drop 1).drop 3 := by rw [← g0]; exact (List.drop_left' l1).symm
  have g2 : w2 = (((Form.ofBytes [0x41]).drop 1).drop 3).take 2 := by rw [← g0']; exact (List.take_left' l2).symm
  have g3 : w3 = (((Form.ofBytes [0x41]).drop 1).drop 3).drop 2 := by
    rw [← g0', List.append_nil]; exact (List.drop_left' l2).symm
  rw [g1] at v1
  rw [g2] at v2
  rw [g3] at v3
  unfold Wire.channelHeader at hy
  rw [← v1, ← v2, ← v3] at hy
  have : Wire.byte [(1, 0), (3, value (((Form.ofBytes [0x41]).drop 1).take 3)),
    (2, value ((((Form.ofBytes [0x41]).drop 1).drop 3).take 2)), (2, value ((((Form.ofBytes [0x41]).drop 1).drop 3).drop 2))] =
    some [0x41] := by decide +kernel
  rw [this] at hy
  cases hy; rfl

theorem all_map_len {α : Type} (f : α → Form) (n : Nat) (h : ∀ a c, f a c → c.length = n) : ∀ (l : List α) (c : List Bool),
    Form.all (l.map f) c → c.length = n * l.length := by
  intro l
  induction l with
  | nil => rintro c rfl; rfl
  | cons a l ih =>
    rintro c ⟨x, y, rfl, h1, h2⟩
    rw [List.length_append, h a x h1, ih y h2, List.length_cons, Nat.mul_add]; omega

theorem channelHeader_len {h : ChannelHeader} {c : List Bool} (hf : channelHeader h c) : c.length = 8 := by
  obtain ⟨w0, w, rfl, l0, w1, w, rfl, ⟨l1, v1⟩, w2, w, rfl, ⟨l2, v2⟩, w3, w, rfl, ⟨l3, v3⟩, rfl⟩ := hf
  have l0 : w0.length = 1 := l0
  simp [l0, l1, l2, l3]

theorem subProfile_len (s : SubProfile) (c : List Bool) (h : subProfile s c) : c.length = 16 := by
  obtain ⟨w1, w', rfl, h1, w2, w'', rfl, ⟨e, m, -, -, a, a', rfl, ⟨la, -⟩, d, d', rfl, ⟨lc, -⟩, rfl⟩, rfl⟩ := h
  simp [h1.1, la, lc]

theorem join_append {ps qs : List (Option (List U8))} {x : List U8} (h : Wire.join (ps ++ qs) = some x) :
    ∃ a b, Wire.join ps = some a ∧ Wire.join qs = some b ∧ x = a ++ b := by
  induction ps generalizing x with
  | nil => exact ⟨[], x, rfl, h, rfl⟩
  | cons p ps ih =>
    obtain ⟨a, b, rfl, hb, rfl⟩ := Wire.join_some h
    obtain ⟨c, d, hc, hd, rfl⟩ := ih hb
    exact ⟨a ++ c, d, by rw [Wire.join, hc], hd, by simp⟩

/-- What is left behind a string of bytes, read from its beginning with one more byte in front. -/
theorem shifted_rest {lo : U8} {z t : List U8} {r : List Bool}
    (e : Form.ofBytes z ++ r = Form.ofBytes (lo :: (z ++ t))) :
    (∀ b ∈ z, b = lo) ∧ r = Form.ofBytes (lo :: t) := by
  rw [show lo :: (z ++ t) = (lo :: z) ++ t from rfl, Form.ofBytes_append] at e
  have hp : Form.ofBytes z <+: Form.ofBytes (lo :: z) :=
    List.prefix_of_prefix_length_le (l₃ := Form.ofBytes (lo :: z) ++ Form.ofBytes t)
      (by rw [← e]; exact List.prefix_append _ _) (List.prefix_append _ _)
      (by rw [Form.ofBytes_length, Form.ofBytes_length, List.length_cons]; omega)
  obtain ⟨q, hq⟩ := hp
  obtain ⟨h1, rfl⟩ := ofBytes_run hq
  rw [← hq, List.append_assoc] at e
  exact ⟨h1, by rw [List.append_cancel_left e]; exact (Form.ofBytes_append [lo] t).symm⟩

/-- The only access profile that is found again one byte earlier, behind `0x41`; the last byte of it is `0x10`. -/
theorem accessProfile_shift {p : AccessProfile} {z t : List U8} {c r : List Bool} (hz : Wire.accessProfile p = some z)
    (h0 : accessProfile p (Form.ofBytes z)) (h : accessProfile p c) (e : c ++ r = Form.ofBytes (0x41 :: (z ++ t))) :
    z = [0x41, 0x41] ++ List.replicate 63 0x10 ∧ r = Form.ofBytes (0x10 :: t) := by
  obtain ⟨hd, sps, sbs⟩ := p
  obtain ⟨z1, zT, hz1, hzT, rfl⟩ := join_append hz
  obtain ⟨zh, zs, hzh, hzs, rfl⟩ := Wire.join_some hz1
  obtain ⟨w0, w, rfl, f0, ws, w', rfl, fs, wT, w'', rfl, fT, rfl⟩ := h
  have hzh1 : ∃ x, zh = [x] := by
    unfold Wire.channelHeader Wire.byte Wire.packed at hzh
    injection hzh with hzh
    exact ⟨_, hzh.symm⟩
  have l0 := channelHeader_len f0
  obtain ⟨x, rfl⟩ := hzh1
  simp only [List.append_assoc, List.append_nil] at e
  obtain ⟨e0, e1⟩ := peel l0 e
  subst e0
  cases channelHeader_shift hzh f0
  have four : ∃ s0 s1 s2 s3, sps.toList = [s0, s1, s2, s3] := by
    have hl : sps.toList.length = 4 := by simp
    match hq : sps.toList, hl with
    | [s0, s1, s2, s3], _ => exact ⟨s0, s1, s2, s3, rfl⟩
  obtain ⟨s0, s1, s2, s3, hq⟩ := four
  simp only [hq, List.map_cons, List.map_nil] at fs hzs
  obtain ⟨y0, t0, hy0, q0, rfl⟩ := Wire.join_some (show Wire.join (Wire.subProfile s0 :: [Wire.subProfile s1, Wire.subProfile s2,
    Wire.subProfile s3]) = some zs from hzs)
  obtain ⟨y1, t1, hy1, q1, rfl⟩ := Wire.join_some q0
  obtain ⟨y2, t2, hy2, q2, rfl⟩ := Wire.join_some q1
  obtain ⟨y3, t3, hy3, q3, rfl⟩ := Wire.join_some q2
  cases q3
  obtain ⟨u0, us, rfl, g0, u1, us, rfl, g1, u2, us, rfl, g2, u3, us, rfl, g3, rfl⟩ := fs
  simp only [List.append_assoc, List.append_nil, List.cons_append, List.nil_append] at e1
  obtain ⟨-, rfl, e2⟩ := subProfile_shift (.inl rfl) hy0 g0 e1
  obtain ⟨-, rfl, e3⟩ := subProfile_shift (.inr rfl) hy1 g1 e2
  obtain ⟨-, rfl, e4⟩ := subProfile_shift (.inr rfl) hy2 g2 e3
  obtain ⟨-, rfl, e5⟩ := subProfile_shift (.inr rfl) hy3 g3 e4
  have hwT : wT = Form.ofBytes zT := by
    obtain ⟨v0, v, ev, k0, vs, v', rfl, ks, vT, v'', rfl, kT, rfl⟩ := h0
    rw [Rigid.eq (Rigid.all_map Form.subBand 56 Rigid.subBand _) _ _ fT kT]
    have lv0 := channelHeader_len k0
    have lvs := all_map_len _ 16 subProfile_len _ _ ks
    have lvs : vs.length = 64 := by rw [lvs]; simp
    rw [List.append_nil, Form.ofBytes_append] at ev
    have ev' : _ = (v0 ++ vs) ++ vT := ev.trans (by simp only [List.append_nil, List.append_assoc])
    exact (List.append_inj ev' (by rw [List.length_append, lv0, lvs]; rfl)).2.symm
  subst hwT
  have hl : zT.length = 56 := by
    have := Rigid.len (Rigid.all_map Form.subBand 56 Rigid.subBand _) _ fT
    rw [Form.ofBytes_length] at this
    simp at this
    omega
  obtain ⟨h1, h2⟩ := shifted_rest e5
  refine ⟨?_, h2⟩
  have : zT = List.replicate 56 0x10 := List.eq_replicate_iff.2 ⟨hl, h1⟩
  rw [this]; rfl

/-- No PHY status is found one byte earlier, behind the second byte of its length. -/
theorem phyStatus_shift {p : PhyStatus} {z t : List U8} {c r : List Bool} {lo : U8}
    (h0 : phyStatus p (Form.ofBytes z)) (h : phyStatus p c) (hlo : lo.toNat = z.length % 256)
    (e : c ++ r = Form.ofBytes (lo :: (z ++ t))) : False := by
  have hc := (Rigid.phyStatus p).eq _ _ h h0
  subst hc
  have hl := (Rigid.phyStatus p).len _ h0
  rw [Form.ofBytes_length] at hl
  obtain ⟨h1, -⟩ := shifted_rest e
  have hn : p.channelStatusListLength = lo ∧ p.channelStatus.length = p.channelStatusListLength.toNat := by
    obtain ⟨w1, w, e1, f1, w2, w, rfl, f2, w3, w, rfl, f3, w4, w, rfl, f4, w5, v, rfl, f5, w6, v', rfl,
      ⟨g, g', e2, ⟨-, hg⟩, -⟩, rfl⟩ := h0
    have l1 := (Rigid.number 4 _).len _ f1
    have l2 := (Rigid.number 4 _).len _ f2
    have l3 := (Rigid.number 4 _).len _ f3
    have l4 := (Rigid.number 2 _).len _ f4
    refine ⟨?_, hg⟩
    have hz : z = z.take 14 ++ (lo :: z.drop 15) := by
      have h14 : 14 < z.length := by omega
      have : z.drop 14 = z[14] :: z.drop 15 := List.drop_eq_getElem_cons h14
      rw [h1 _ (List.getElem_mem h14)] at this
      rw [← this, List.take_append_drop]
    have h14 : (Form.ofBytes (z.take 14)).length = 112 := by rw [Form.ofBytes_length, List.length_take]; omega
    have e3 : Form.ofBytes (z.take 14) ++ Form.ofBytes (lo :: z.drop 15) = (w1 ++ (w2 ++ (w3 ++ w4))) ++ (w5 ++ (w6 ++ [])) := by
      rw [← Form.ofBytes_append, ← hz, e1]; simp only [List.append_assoc]
    have e4 := (List.append_inj e3 (by simp only [List.length_append, h14, l1, l2, l3, l4])).2
    obtain ⟨e5, -⟩ := peel f5.1 e4.symm
    rw [e5] at f5
    exact field_byte f5
  obtain ⟨h2, h3⟩ := hn
  rw [h2] at h3
  omega

/-- An action that begins with `0x10` is one of two bytes. -/
theorem sixteen {cfg : Cfg} {a : Action} {w r : List Bool} {t : List U8} (h : Form.action cfg a w)
    (e : w ++ r = Form.ofBytes (0x10 :: t)) : ∃ o, a = .existFile o := by
  have hd := (Action.decode_iff cfg a w r).2 h
  rw [e, Form.ofBytes_eq] at hd
  obtain ⟨-, -, -, hop, -⟩ := Action.decode_ok hd
  rw [opAt_byte] at hop
  have hop : Spec.opcodeOf a = 16 := hop
  cases a <;> first | exact ⟨_, rfl⟩ | simp [Spec.opcodeOf] at hop

/-- Actions are not found one byte before their own encoding, behind a `0x10`. -/
theorem never_early (cfg : Cfg) (cs : List Action) (hw : ∀ a ∈ cs, a.WF cfg) : ∀ (x : List U8),
    W.list (Action.write cfg) cs = .ok (bytesBits x) → ∀ (w junk : List Bool), w ++ junk = Form.ofBytes (0x10 :: x) →
    Form.actions cfg cs w → junk = [] ∨ Spec.endsWithForward cs → False := by
  induction cs with
  | nil =>
    rintro x hx w junk h rfl (rfl | ⟨a, ha, -⟩)
    · have := congrArg List.length h
      rw [Form.ofBytes_length] at this
      simp at this
    · cases ha
  | cons a cs ih =>
    rintro x hx w junk h ⟨wa, wc, rfl, ha, hc⟩ hj
    have hwa : a.WF cfg := hw a (by simp)
    have ha : Form.action cfg a wa := ha
    obtain ⟨xa', hxa', ha8, -, hda⟩ := Action.decode_write hwa
    obtain ⟨xa, hxa, rfl⟩ := W.toBytes_ok hxa' ha8
    obtain ⟨y, xc, hy, hxc, e1⟩ := W.seq_cons_ok.1 hx
    rw [hxa'] at hy; cases hy
    obtain ⟨xc', rfl⟩ : ∃ xc', xc = bytesBits xc' := by
      obtain ⟨xc', -, h2, -⟩ := Form.encoded (cfg := cfg) (as := cs) fun b hb => hw b (by simp [hb])
      exact ⟨xc', by have := hxc.symm.trans h2; cases this; rfl⟩
    have e2 : x = xa ++ xc' := bytesBits_inj (by rw [bytesBits_append]; exact e1)
    subst e2
    rw [List.append_assoc] at h
    obtain ⟨o, rfl⟩ := sixteen ha h
    have hr : Rigid (Form.action cfg (.existFile o)) 16 := by
      apply Rigid.cast
      case h =>
        show Rigid (Form.all [Form.header o.header, Form.opcode o.opcode 16, Form.field 8 o.fileId.toNat]) _
        exact Rigid.cons (Rigid.header _) (by rigid)
      rfl
    have hxa2 : Form.action cfg (.existFile o) (Form.ofBytes xa) := by
      rw [Form.ofBytes_eq]; exact (Action.decode_iff cfg _ _ []).1 (hda [])
    have e3 := hr.eq _ _ ha hxa2
    subst e3
    obtain ⟨-, h2⟩ := shifted_rest h
    refine ih (fun b hb => hw b (by simp [hb])) xc' hxc wc junk h2 hc (hj.imp id ?_)
    rintro ⟨l, hl, hf⟩
    cases cs with
    | nil => cases hl; cases hf
    | cons b cs => exact ⟨l, by simpa [List.getLast?_cons_cons] using hl, hf⟩

end Form

/-- The encoding of an action carrying a large file: what is in front of the length of the file, the length, the file. -/
theorem Ignored.Large.split {cfg : Cfg} {a : Action} {code : Nat} {o : Op.FileData} (h : Ignored.Large cfg a code o)
    {x : List U8} (hx : a.toBytes cfg = .ok x) :
    ∃ front hi lo z, Wire.file cfg.bigEndianHost o.data = some z ∧
      front.length = 3 + Spec.lengthExtra o.offset.offset.val.toNat ∧ lo.toNat = z.length % 256 ∧
      x = front ++ hi :: lo :: z := by
  have hb := C51_action_layout cfg a h.tx
  rw [hx, h.wire] at hb
  cases hd : Wire.fileData cfg.bigEndianHost code o with
  | none => rw [hd] at hb; cases hb
  | some x' =>
    rw [hd] at hb
    injection hb with hb
    subst hb
    obtain ⟨b, z, hz, hn, -, e⟩ := Wire.fileData_lengths hd
    have hs := Size.of_file cfg.bigEndianHost o.data
    rw [hz] at hs
    obtain ⟨hN, hN'⟩ := h.size _ hs.symm
    have hN : 64 ≤ z.length := hN
    have hN' : z.length < 2 ^ 14 := hN'
    rw [Nat.mod_eq_of_lt (by omega)] at e
    have h1 : Spec.lengthExtra z.length = 1 := by
      unfold Spec.lengthExtra
      rw [if_neg (by omega), if_pos (by omega)]
    have h2 : ∃ hi lo : U8, lo.toNat = z.length % 256 ∧ Spec.length z.length = [hi, lo] := by
      unfold Spec.length Spec.lengthWith
      rw [h1]
      refine ⟨_, _, ?_, rfl⟩
      have e14 : (2 : Nat) ^ (6 + 8 * 1) = 16384 := rfl
      rw [BitVec.toNat_ofNat, Nat.pow_zero, Nat.div_one, e14]
      omega
    obtain ⟨hi, lo, h3, h4⟩ := h2
    refine ⟨[b, o.offset.fileId] ++ Spec.length o.offset.offset.val.toNat, hi, lo, z, hz, ?_, h3, ?_⟩
    · rw [List.length_append, Spec.length, Spec.lengthWith, Spec.bigEndian_length]
      simp only [List.length_cons, List.length_nil]; omega
    · rw [e, h4, List.append_assoc]; rfl

/-- A large file found one byte earlier, behind the second byte of its length: it is the access profile all of whose bytes
but two are `0x10`. -/
theorem Ignored.Large.shift {cfg : Cfg} {a : Action} {code : Nat} {o : Op.FileData} (h : Ignored.Large cfg a code o)
    (hl : Ignored.large a = true)
    {z t : List U8} {lo : U8} {b : Nat} {c r : List Bool} (hz : Wire.file cfg.bigEndianHost o.data = some z)
    (hlo : lo.toNat = z.length % 256) (h0 : Form.file cfg.bigEndianHost b 0 o.data (Form.ofBytes z))
    (hc : Form.file cfg.bigEndianHost b 0 o.data c) (e : c ++ r = Form.ofBytes (lo :: (z ++ t))) :
    (∃ i p, o.data = .accessProfile i p) ∧ lo = 0x41 ∧ z = [0x41, 0x41] ++ List.replicate 63 0x10 ∧
      r = Form.ofBytes (0x10 :: t) := by
  have hl : (match o.data with
      | .accessProfile _ _ => true
      | .phyStatus p => decide (17 ≤ p.channelStatus.length)
      | _ => false) = true := by
    rcases h.op with rfl | rfl | rfl <;> exact hl
  cases hd : o.data with
  | accessProfile i p =>
    rw [hd] at hz h0 hc
    obtain ⟨w, w', e0, ⟨rfl, -⟩, w1, w2, rfl, h0, rfl⟩ := h0
    rw [List.nil_append, List.append_nil] at e0
    subst e0
    obtain ⟨w, w', e0, ⟨rfl, -⟩, w1, w2, rfl, hc, rfl⟩ := hc
    rw [List.nil_append, List.append_nil] at e0
    subst e0
    have hN : z.length = 65 := by
      have := Size.of_file cfg.bigEndianHost o.data
      rw [hd, hz] at this
      simp only [Size.of, Size.file] at this
      split at this
      · exact Option.some.inj this
      · cases this
    have : lo = 0x41 := BitVec.eq_of_toNat_eq (by rw [hlo, hN]; rfl)
    subst this
    obtain ⟨h1, h2⟩ := Form.accessProfile_shift hz h0 hc e
    exact ⟨⟨i, p, rfl⟩, rfl, h1, h2⟩
  | phyStatus p =>
    rw [hd] at hz h0 hc
    obtain ⟨w, w', e0, ⟨rfl, -⟩, w1, w2, rfl, h0, rfl⟩ := h0
    rw [List.nil_append, List.append_nil] at e0
    subst e0
    obtain ⟨w, w', e0, ⟨rfl, -⟩, w1, w2, rfl, hc, rfl⟩ := hc
    rw [List.nil_append, List.append_nil] at e0
    subst e0
    exact (Form.phyStatus_shift h0 hc hlo e).elim
  | _ => rw [hd] at hl; cases hl

end Dash7
