import Verif.Lemmas.Late

/-!
# Foreground frames in wizzilab builds

There the headers in front of the command end one bit before a byte boundary.
-/

namespace Dash7
open Spec

/-- The first bit of byte `i`. -/
def Spec.topBit (bs : List U8) (i : Nat) : Bool := (bs.getD i 0).getLsbD 7

/-- Which commands come back from a foreground frame of a wizzilab build. `cmd` are the bytes of the
command, `crc` those of the CRC, `limit` is the length in the header, and the command begins in the byte
before `start`. There must be one action.

If stepping back to the opcode keeps the bit before it, the first bit of the action is taken from the byte
behind its first one instead; only a forward does not look at this bit. The length must not end the command
before the action, and must end it behind the action unless it is an indirect forward.

Otherwise a bit gets lost with the action, so that action and CRC must be all zeros; and testing for the end
must not count. -/
def Spec.comesBackLate (cfg : Cfg) (limit start : Nat) (c : Command) (cmd crc : List U8) : Prop :=
  ∃ a, c.actions = [a] ∧
    if cfg.seekClears then cfg.endCounts = false ∧ cmd = [0] ∧ crc = [0, 0] ∧ limit = start + 1
    else ((∃ o, a = .forward o) ∨ topBit (cmd ++ crc) 0 = topBit (cmd ++ crc) 1) ∧
      (a.isIndirectForward = true ∧ limit = 0 ∨
        start < limit ∧ (a.isIndirectForward = true ∨ limit ≤ start + cmd.length))

/-! ## Taking the headers off -/

theorem Fits.strip {α : Type} {p : P α} {F : α → Form} (hp : Fits p F) {a : α} {b rest c body : List Bool}
    (hd : p.eval (b ++ rest) = .ok (a, rest)) : (b ++ rest = c ++ body ∧ F a c) ↔ c = b ∧ body = rest := by
  constructor
  · rintro ⟨he, hf⟩
    have := (hp a c body).2 hf
    rw [← he, hd] at this
    simp only [Except.ok.injEq, Prod.mk.injEq, true_and] at this
    subst this
    exact ⟨(List.append_cancel_right he).symm, rfl⟩
  · rintro ⟨rfl, rfl⟩
    exact ⟨rfl, (hp a c body).1 hd⟩

theorem foregroundReading_strip {cfg : Cfg} {size : Nat} {f : ForegroundFrame} {hb nb tb body : List Bool}
    (h1 : ∀ rest, ForegroundHeader.read.eval (hb ++ rest) = .ok (f.header, rest))
    (h2 : ∀ rest, (Net.Header.read cfg).eval (nb ++ rest) = .ok (f.frame.header, rest))
    (h3 : ∀ rest, Trans.Header.read.eval (tb ++ rest) = .ok (f.frame.frame.header, rest)) {left : List Bool}
    {n : Nat} :
    foregroundReading cfg size f (hb ++ (nb ++ (tb ++ body))) left n ↔
      ∃ crc m, reading cfg f.header.length.val.toNat size false f.frame.frame.command.actions body (crc ++ left) m ∧
        Form.hostNumber cfg.bigEndianHost 2 f.crc16.toNat crc ∧
        n = hb.length + nb.length + tb.length + m + crc.length := by
  constructor
  · rintro ⟨c1, s1, crc, m1, e1, f1, ⟨c2, s2, m2, e2, f2, ⟨c3, s3, m3, e3, f3, hr, rfl⟩, rfl⟩, hc, rfl⟩
    obtain ⟨rfl, rfl⟩ := (ForegroundHeader.fits.strip (h1 _)).1 ⟨e1, f1⟩
    obtain ⟨rfl, rfl⟩ := ((Net.Header.fits cfg).strip (h2 _)).1 ⟨e2, f2⟩
    obtain ⟨rfl, rfl⟩ := (Trans.Header.fits.strip (h3 _)).1 ⟨e3, f3⟩
    exact ⟨crc, m3, hr, hc, by omega⟩
  · rintro ⟨crc, m, hr, hc, rfl⟩
    exact ⟨hb, _, crc, _, rfl, (ForegroundHeader.fits _ _ []).1 (h1 []),
      ⟨nb, _, _, rfl, (Net.Header.fits cfg _ _ []).1 (h2 []),
        ⟨tb, _, m, rfl, (Trans.Header.fits _ _ []).1 (h3 []), hr, rfl⟩, rfl⟩, hc, by omega⟩

/-! ## Bits and bytes -/

theorem topBit_bits (bs : List U8) : (i : Nat) → i < bs.length →
    ((bytesBits bs).drop (8 * i)).take 1 = [topBit bs i] := by
  induction bs with
  | nil => intro i h; cases h
  | cons b bs ih =>
    intro i h
    have hb : bytesBits (b :: bs) = [b.getLsbD 7, b.getLsbD 6, b.getLsbD 5, b.getLsbD 4, b.getLsbD 3, b.getLsbD 2,
        b.getLsbD 1, b.getLsbD 0] ++ bytesBits bs := by rw [← Form.ofBytes_eq, ← Form.ofBytes_eq]; rfl
    rw [hb]
    cases i with
    | zero => rfl
    | succ i =>
      have h8 : 8 * (i + 1) = 8 + 8 * i := by omega
      rw [h8, ← List.drop_drop]
      exact ih i (by simpa using h)

theorem shift_zero : (l : List Bool) → l.drop 1 ++ [false] = l → l = List.replicate l.length false
  | [], _ => rfl
  | [x], h => by simpa using h.symm
  | x :: y :: t, h => by
    simp only [List.drop_succ_cons, List.drop_zero, List.cons_append, List.cons.injEq] at h
    have := shift_zero (y :: t) (by simpa using h.2)
    rw [List.length_cons, List.replicate_succ, ← this, ← h.1]
    rw [h.1, List.length_cons, List.replicate_succ, List.cons.injEq] at this
    rw [h.1, this.1]

theorem Form.hostNumber_inj {big : Bool} {k v : Nat} {c d : List Bool} (h1 : Form.hostNumber big k v c)
    (h2 : Form.hostNumber big k v d) : c = d := by
  obtain ⟨bs, rfl, l1, v1⟩ := h1
  obtain ⟨cs, rfl, l2, v2⟩ := h2
  rw [Form.value_eq] at v1 v2
  have e1 := natBits_bitsNat (Form.ofBytes (if big then bs else bs.reverse))
  have e2 := natBits_bitsNat (Form.ofBytes (if big then cs else cs.reverse))
  rw [v1, l1] at e1
  rw [v2, l2, e1, Form.ofBytes_eq, Form.ofBytes_eq] at e2
  have := bytesBits_inj e2
  cases big with
  | true => rw [show bs = cs from this]
  | false => rw [List.reverse_inj.1 (show bs.reverse = cs.reverse from this)]

theorem Form.hostNumber_length {big : Bool} {k v : Nat} {c : List Bool} (h : Form.hostNumber big k v c) :
    c.length = 8 * k := by
  obtain ⟨bs, rfl, l1, -⟩ := h
  rw [Form.ofBytes_length] at l1 ⊢
  split at l1
  · exact l1
  · rwa [List.length_reverse] at l1

/-! ## The theorem -/

/-- **C34** Which foreground frames come back in wizzilab builds, whatever the length in the header. -/
theorem C34_wizzilab_partial (cfg : Cfg) (hv : cfg.variant = .wizzilab) (f : ForegroundFrame) (hw : f.WF cfg) :
    ∃ bytes cmd crc, f.toBytes cfg = .ok bytes ∧ f.frame.frame.command.toBytes cfg = .ok cmd ∧
      Wire.hostNumber cfg.bigEndianHost 2 f.crc16.toNat = some crc ∧
      (ForegroundFrame.tryFrom cfg bytes = .ok f ↔
        Spec.comesBackLate cfg f.header.length.val.toNat (bytes.length - 2 - cmd.length) f.frame.frame.command
          cmd crc) := by
  obtain ⟨h, ⟨nh, ⟨th, c⟩⟩, crc⟩ := f
  obtain ⟨hh, hn, ht, hc⟩ := hw
  dsimp only at hh hn ht hc ⊢
  obtain ⟨hb, hhb, hhd⟩ := ForegroundHeader.rt hh
  have h8 := ForegroundHeader.mod8 h hb hhb
  obtain ⟨nb, hnb, hnd⟩ := Net.Header.rt (cfg := cfg) hn
  obtain ⟨tb, htb, htd⟩ := Trans.Header.rt ht
  have h0 := Net.Header.mod8 nh nb hnb
  rw [if_pos hv] at h0
  have h7 := Trans.Header.mod8 th tb htb
  obtain ⟨bs, hw2, hb8, -⟩ := Reads.write hc.1
  have hwc : c.write cfg = .ok bs := hw2
  obtain ⟨cmd, hcmd, hcb⟩ := W.toBytes_ok hwc hb8
  obtain ⟨kc, hkc⟩ : ∃ kc, Wire.hostNumber cfg.bigEndianHost 2 crc.toNat = some kc := ⟨_, rfl⟩
  have hlay := Lay.uintHost (cfg := cfg) (k := 2) (v := crc)
  rw [hkc] at hlay
  obtain ⟨cb, hcw, hcd, hc16⟩ := uintHost_width cfg 2 crc
  have hkb : cb = bytesBits kc := by
    have : W.uintHost cfg 2 crc = .ok (bytesBits kc) := hlay
    rw [hcw] at this; cases this; rfl
  have hkf : Form.hostNumber cfg.bigEndianHost 2 crc.toNat cb := (Fits.host cfg 2 crc cb []).1 (hcd [])
  have hwr : (ForegroundFrame.mk h ⟨nh, ⟨th, c⟩⟩ crc).write cfg = .ok (hb ++ (nb ++ (tb ++ (bs ++ cb)))) := by
    simp only [ForegroundFrame.write, Net.Frame.write, Trans.Frame.write, W.seq, hhb, hnb, htb, hwc, hcw,
      List.append_nil, List.append_assoc]
  have hmod : (hb ++ (nb ++ (tb ++ (bs ++ cb)))).length % 8 = 7 := by simp; omega
  have hbits := bytesBits_pad7 hmod
  generalize hbytes : packBits (hb ++ (nb ++ (tb ++ (bs ++ cb)))) = bytes at hbits
  refine ⟨bytes, cmd, kc, by rw [ForegroundFrame.toBytes, hwr, ← hbytes]; rfl, hcmd, hkc, ?_⟩
  have hlen := congrArg List.length hbits
  rw [bytesBits_length] at hlen
  have hcl := congrArg List.length hcb
  rw [bytesBits_length] at hcl
  have hkl := congrArg List.length hkb
  rw [bytesBits_length] at hkl
  simp only [List.length_append, List.length_singleton] at hlen hmod
  have hpos : bytePosition bytes.length (bs ++ (cb ++ [false])) = bytes.length - 2 - cmd.length := by
    unfold bytePosition
    simp only [List.length_append, List.length_singleton]
    omega
  rw [C58_foreground, Form.ofBytes_eq, hbits]
  simp only [List.append_assoc]
  have hstrip := fun left n => foregroundReading_strip (cfg := cfg) (size := bytes.length)
    (f := ⟨h, ⟨nh, ⟨th, c⟩⟩, crc⟩) (body := bs ++ (cb ++ [false])) (left := left) (n := n) hhd hnd htd
  simp only [hstrip]
  generalize hL : h.length.val.toNat = limit
  have htl : (cb ++ [false]).length = 17 := by simp; omega
  cases hsk : cfg.seekClears with
  | false =>
    have hbit : bs ≠ [] → (((bs ++ (cb ++ [false])).drop 8).take 1 = bs.take 1 ↔
        topBit (cmd ++ kc) 0 = topBit (cmd ++ kc) 1) := by
      intro hne
      have hp := List.length_pos_iff.2 hne
      have t0 := topBit_bits (cmd ++ kc) 0 (by simp; omega)
      have t1 := topBit_bits (cmd ++ kc) 1 (by simp; omega)
      rw [bytesBits_append, hcb, ← hkb] at t0 t1
      rw [Nat.mul_zero, List.drop_zero, List.take_append_of_le_length (by omega)] at t0
      rw [t0, ← List.append_assoc, List.drop_append_of_le_length (by simp; omega),
        List.take_append_of_le_length (by simp; omega), show 8 = 8 * 1 from rfl, t1]
      simp [eq_comm]
    constructor
    · rintro ⟨left, n, ⟨crc', m, hr, hcf, rfl⟩, hn⟩
      obtain ⟨e1, e2, -⟩ := reading_late hsk hc.1 hw2 (by omega) hr
      have hc' := Form.hostNumber_length hcf
      have h1 : c.actions.length = 1 := by omega
      obtain ⟨a, ha⟩ := List.length_eq_one_iff.1 h1
      rw [ha, e1] at hr
      have hwa : a.WF cfg := hc.1 a (by rw [ha]; simp)
      have hwb : a.write cfg = .ok bs := by
        rw [ha] at hw2
        obtain ⟨b, c', hb1, hc1, rfl⟩ := W.seq_cons_ok.1 hw2
        cases hc1
        rwa [List.append_nil]
      obtain ⟨-, hp, -⟩ := Action.operand_of_write hwa hwb
      have := (reading_late_one hsk hwa hwb (by omega) (by simp; omega)).1 ⟨m, hr⟩
      rw [hbit (by intro h; rw [h] at hp; simp at hp), hpos, show bs.length / 8 = cmd.length by omega] at this
      exact ⟨a, ha, by simpa [hsk] using this⟩
    · rintro ⟨a, ha, hx⟩
      simp only [hsk, Bool.false_eq_true, if_false] at hx
      have hwa : a.WF cfg := hc.1 a (by rw [ha]; simp)
      have hwb : a.write cfg = .ok bs := by
        rw [ha] at hw2
        obtain ⟨b, c', hb1, hc1, rfl⟩ := W.seq_cons_ok.1 hw2
        cases hc1
        rwa [List.append_nil]
      obtain ⟨-, hp, -⟩ := Action.operand_of_write hwa hwb
      have hone := (reading_late_one (limit := limit) (size := bytes.length) hsk hwa hwb
        (tail := cb ++ [false]) (by omega) (by simp; omega)).2 (by
          rw [hbit (by intro h; rw [h] at hp; simp at hp), hpos, show bs.length / 8 = cmd.length by omega]
          exact hx)
      obtain ⟨m, hm⟩ := hone
      rw [← ha] at hm
      obtain ⟨-, e2, -⟩ := reading_late hsk hc.1 hw2 (by omega) hm
      rw [ha] at e2
      exact ⟨[false], _, ⟨cb, m, hm, hkf, rfl⟩, by simp at e2; omega⟩
  | true =>
    constructor
    · rintro ⟨left, n, ⟨crc', m, hr, hcf, rfl⟩, hn⟩
      obtain ⟨-, e1, e2, e3⟩ := reading_late_clears hsk hc.1 hw2 (by omega) (by omega) (.inl rfl) hr
      have hc' := Form.hostNumber_length hcf
      have hce : cfg.endCounts = false := by
        cases hce : cfg.endCounts with
        | false => rfl
        | true => rw [hce] at e2; simp only [if_true] at e2; omega
      rw [hce] at e2
      simp only [Bool.false_eq_true, if_false] at e2
      have h1 : c.actions.length = 1 := by omega
      obtain ⟨a, ha⟩ := List.length_eq_one_iff.1 h1
      have hwa : a.WF cfg := hc.1 a (by rw [ha]; simp)
      have hwb : a.write cfg = .ok bs := by
        rw [ha] at hw2
        obtain ⟨b, c', hb1, hc1, rfl⟩ := W.seq_cons_ok.1 hw2
        cases hc1
        rwa [List.append_nil]
      have hcc := Form.hostNumber_inj hcf hkf
      subst hcc
      have hll : left = [] := by
        apply List.eq_nil_of_length_eq_zero
        have := congrArg List.length e1
        simp only [List.length_append, List.length_drop, List.length_singleton] at this
        omega
      subst hll
      have hz : crc' = List.replicate 16 false := by
        have := shift_zero crc' (by
          rw [List.append_nil] at e1
          rw [List.drop_append_of_le_length (by omega)] at e1
          exact e1.symm)
        rwa [hc'] at this
      have hz17 : crc' ++ [false] = List.replicate 17 false := by rw [hz]; rfl
      rw [ha, hz17] at hr
      obtain ⟨z1, z2, z3⟩ := reading_clears_zero hsk hwa hwb hr
      refine ⟨a, ha, ?_⟩
      rw [if_pos hsk]
      have hcm : cmd = [0] := bytesBits_inj (by rw [hcb, z1]; rfl)
      refine ⟨hce, hcm, bytesBits_inj (by rw [← hkb, hz]; rfl), ?_⟩
      rw [hcm]
      simp only [List.length_singleton]
      omega
    · rintro ⟨a, ha, hx⟩
      rw [if_pos hsk] at hx
      obtain ⟨hce, hcm, hkz, hlim⟩ := hx
      have hwa : a.WF cfg := hc.1 a (by rw [ha]; simp)
      have hbz : bs = List.replicate 8 false := by rw [← hcb, hcm]; rfl
      have hcz : cb = List.replicate 16 false := by rw [hkb, hkz]; rfl
      have hwb : a.write cfg = .ok bs := by
        rw [ha] at hw2
        obtain ⟨b, c', hb1, hc1, rfl⟩ := W.seq_cons_ok.1 hw2
        cases hc1
        rwa [List.append_nil]
      rw [hbz] at hwb
      rw [hcm] at hlim
      simp only [List.length_singleton] at hlim
      have := reading_clears_back (limit := limit) (size := bytes.length) hsk hce (by omega) (by omega) hwa hwb
      refine ⟨[], _, ⟨cb, 16, ?_, hkf, rfl⟩, ?_⟩
      · rw [ha, hbz, hcz]; exact this
      · rw [hbz] at hlen
        simp at hlen
        omega

/-- **C34** Which foreground frames come back in all other builds, whatever the length in the header: those
without any action, if the length ends the command where the CRC begins, or before. -/
theorem C34_length_partial (cfg : Cfg) (hv : cfg.variant ≠ .wizzilab) (f : ForegroundFrame) (hw : f.WF cfg) :
    ∃ bytes, f.toBytes cfg = .ok bytes ∧
      (ForegroundFrame.tryFrom cfg bytes = .ok f ↔
        f.frame.frame.command.actions = [] ∧ 0 < f.header.length.val.toNat ∧
          f.header.length.val.toNat + 2 ≤ bytes.length) := by
  obtain ⟨h, ⟨nh, ⟨th, c⟩⟩, crc⟩ := f
  obtain ⟨hh, hn, ht, hc⟩ := hw
  dsimp only at hh hn ht hc ⊢
  obtain ⟨hb, hhb, hhd⟩ := ForegroundHeader.rt hh
  have h8 := ForegroundHeader.mod8 h hb hhb
  obtain ⟨nb, hnb, hnd⟩ := Net.Header.rt (cfg := cfg) hn
  obtain ⟨tb, htb, htd⟩ := Trans.Header.rt ht
  have h0 := Net.Header.mod8 nh nb hnb
  rw [if_neg hv] at h0
  have h7 := Trans.Header.mod8 th tb htb
  obtain ⟨bs, hw2, hb8, -⟩ := Reads.write hc.1
  have hwc : c.write cfg = .ok bs := hw2
  obtain ⟨cb, hcw, hcd, hc16⟩ := uintHost_width cfg 2 crc
  have hkf : Form.hostNumber cfg.bigEndianHost 2 crc.toNat cb := (Fits.host cfg 2 crc cb []).1 (hcd [])
  have hwr : (ForegroundFrame.mk h ⟨nh, ⟨th, c⟩⟩ crc).write cfg = .ok (hb ++ (nb ++ (tb ++ (bs ++ cb)))) := by
    simp only [ForegroundFrame.write, Net.Frame.write, Trans.Frame.write, W.seq, hhb, hnb, htb, hwc, hcw,
      List.append_nil, List.append_assoc]
  obtain ⟨bytes, hby, hbits⟩ := W.toBytes_ok hwr (by simp; omega)
  refine ⟨bytes, hby, ?_⟩
  have hlen := congrArg List.length hbits
  rw [bytesBits_length] at hlen
  simp only [List.length_append] at hlen
  rw [C58_foreground, Form.ofBytes_eq, hbits]
  have hstrip := fun left n => foregroundReading_strip (cfg := cfg) (size := bytes.length)
    (f := ⟨h, ⟨nh, ⟨th, c⟩⟩, crc⟩) (body := bs ++ cb) (left := left) (n := n) hhd hnd htd
  simp only [hstrip]
  generalize hL : h.length.val.toNat = limit
  constructor
  · rintro ⟨left, n, ⟨crc', m, hr, hcf, rfl⟩, hn⟩
    obtain ⟨e1, e2⟩ := reading_whole hc.1 hw2 (by omega) hr
    have hc' := Form.hostNumber_length hcf
    have he : c.actions = [] := List.eq_nil_of_length_eq_zero (by omega)
    refine ⟨he, ?_⟩
    rw [he] at hr hw2
    cases hw2
    obtain ⟨-, hm⟩ := hr
    rw [e1] at hm
    have hp : bytePosition bytes.length cb = bytes.length - 2 := by rw [bytePosition, hc16]
    rcases hm with ⟨⟨l1, l2⟩, -⟩ | ⟨-, h0 | h0, -⟩
    · rw [hp] at l2; omega
    · rw [h0] at hc16; simp at hc16
    · cases h0
  · rintro ⟨he, h1, h2⟩
    rw [he] at hw2 ⊢
    cases hw2
    refine ⟨[], _, ⟨cb, 0, ⟨?_, .inl ⟨⟨by omega, ?_⟩, rfl⟩⟩, hkf, rfl⟩, ?_⟩
    · rw [List.nil_append, List.append_nil, asked_zero (by omega)]
    · rw [List.append_nil, bytePosition, hc16]; omega
    · simp only [List.length_nil] at hlen; omega

/-- **C34** fails in wizzilab builds for every frame whose command is not a single action. -/
theorem C34_wizzilab_single_violates (cfg : Cfg) (hv : cfg.variant = .wizzilab) (f : ForegroundFrame)
    (hw : f.WF cfg) (h1 : f.frame.frame.command.actions.length ≠ 1) :
    ∃ bytes, f.toBytes cfg = .ok bytes ∧ ForegroundFrame.tryFrom cfg bytes ≠ .ok f := by
  obtain ⟨bytes, cmd, crc, hb, -, -, h⟩ := C34_wizzilab_partial cfg hv f hw
  refine ⟨bytes, hb, fun hx => ?_⟩
  obtain ⟨a, ha, -⟩ := h.1 hx
  exact h1 (by rw [ha]; rfl)

/-! ## Cases -/

/-- A wizzilab build in which stepping back keeps bits. -/
def Sample.keeping : Cfg := ⟨.wizzilab, false, true, false, false⟩
/-- The sample request, to a single device. -/
def Sample.readOne : Action := .readFileData ⟨⟨false, false⟩, ⟨1⟩, ⟨0x41, ⟨1000⟩⟩, ⟨300⟩⟩
/-- Whether a frame comes back. -/
def Sample.comesBack (cfg : Cfg) (f : ForegroundFrame) : Bool :=
  match f.toBytes cfg with
  | .ok bytes => decide (ForegroundFrame.tryFrom cfg bytes = .ok f)
  | .error _ => false

open Sample in
/-- Requests come back if the first bits of the two bytes agree and the length is in range; forwards always
if the length is in range; indirect forwards whatever the length beyond the beginning. -/
example : (Sample.foreground 29 ⟨[readOne]⟩).WF keeping ∧
    comesBack keeping (Sample.foreground 29 ⟨[readOne]⟩) = true ∧
    comesBack keeping (Sample.foreground 24 ⟨[readOne]⟩) = true ∧
    comesBack keeping (Sample.foreground 23 ⟨[readOne]⟩) = false ∧
    comesBack keeping (Sample.foreground 30 ⟨[readOne]⟩) = false ∧
    comesBack keeping (Sample.foreground 29 ⟨[readData]⟩) = false ∧
    comesBack keeping (Sample.foreground 24 ⟨[forward]⟩) = true ∧
    comesBack keeping { Sample.foreground 0 ⟨[.indirectForward ⟨⟨false, false⟩, ⟨51⟩, none⟩]⟩ with
      crc16 := 0x1234 } = true ∧
    comesBack keeping { Sample.foreground 99 ⟨[.indirectForward ⟨⟨false, false⟩, ⟨51⟩, none⟩]⟩ with
      crc16 := 0x1234 } = true := by
  decide +kernel

open Sample in
/-- The only frame coming back if stepping back drops bits. -/
example : comesBack wizzilab { Sample.foreground 24 ⟨[.nop ⟨⟨false, false⟩, ⟨0⟩⟩]⟩ with crc16 := 0 } = true ∧
    comesBack wizzilab (Sample.foreground 24 ⟨[.nop ⟨⟨false, false⟩, ⟨0⟩⟩]⟩) = false ∧
    comesBack { wizzilab with endCounts := true }
      { Sample.foreground 24 ⟨[.nop ⟨⟨false, false⟩, ⟨0⟩⟩]⟩ with crc16 := 0 } = false := by
  decide +kernel

open Sample in
/-- Outside wizzilab builds. -/
example : (Sample.foreground 3 ⟨[]⟩).WF spec ∧ comesBack spec (Sample.foreground 3 ⟨[]⟩) = true ∧
    comesBack spec (Sample.foreground 0 ⟨[]⟩) = false ∧ comesBack spec (Sample.foreground 25 ⟨[tag]⟩) = false := by
  decide +kernel

open Sample in
/-- Two actions. -/
example : (Sample.foreground 29 ⟨[readOne, readOne]⟩).WF keeping := by decide +kernel

#print axioms C34_wizzilab_partial
#print axioms C34_length_partial
#print axioms C34_wizzilab_single_violates

end Dash7
