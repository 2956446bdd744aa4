import Verif.Props.Portability
import Verif.Props.Foreground
import Verif.Props.TxStatus
import Verif.Lemmas.Accept

/-!
# C72, C73: frames on the wire, between frames, hosts and builds
-/

namespace Dash7

/-! ## C72: the encodings of frames are unambiguous -/

theorem P.eval_strip {α : Type} {p : P α} {a a' : α} {b b' s s' : List Bool}
    (hd : ∀ rest, p.eval (b ++ rest) = .ok (a, rest)) (hd' : ∀ rest, p.eval (b' ++ rest) = .ok (a', rest))
    (he : b ++ s = b' ++ s') : a = a' ∧ s = s' := by
  have h1 := hd s
  rw [he, hd' s'] at h1
  simp only [Except.ok.injEq, Prod.mk.injEq] at h1
  exact ⟨h1.1.symm, h1.2.symm⟩

theorem Command.write_inj {cfg : Cfg} {c d : Command} (hc : c.WF cfg) (hd : d.WF cfg)
    (h : c.write cfg = d.write cfg) : c = d :=
  C44_command_unambiguous cfg c d hc hd (by unfold Command.toBytes; rw [h])

/-- A transport frame is known from its bits and any string of the same length behind it. -/
theorem Trans.Frame.write_inj {cfg : Cfg} {f g : Trans.Frame} (hf : f.WF cfg) (hg : g.WF cfg)
    {x y s t : List Bool} (hx : f.write cfg = .ok x) (hy : g.write cfg = .ok y) (hl : s.length = t.length)
    (he : x ++ s = y ++ t) : f = g ∧ s = t := by
  obtain ⟨fh, fc⟩ := f
  obtain ⟨gh, gc⟩ := g
  obtain ⟨a, c, ha, hc, rfl⟩ := W.seq_cons_ok.1 hx
  obtain ⟨b, d, hb, hd, rfl⟩ := W.seq_cons_ok.1 hy
  dsimp only at ha hb hc hd
  obtain ⟨a', ha', hda⟩ := Trans.Header.rt hf.1
  obtain ⟨b', hb', hdb⟩ := Trans.Header.rt hg.1
  dsimp only at ha' hb'
  rw [ha] at ha'; cases ha'
  rw [hb] at hb'; cases hb'
  rw [List.append_assoc, List.append_assoc] at he
  obtain ⟨rfl, h2⟩ := P.eval_strip hda hdb he
  obtain ⟨h3, rfl⟩ := List.append_inj' h2 hl
  subst h3
  obtain ⟨c', n, hc', hn, e⟩ := W.seq_cons_ok.1 hc
  obtain ⟨d', m, hd', hm, e'⟩ := W.seq_cons_ok.1 hd
  cases hn; cases hm
  rw [List.append_nil] at e e'
  subst e e'
  have h4 : fc = gc := Command.write_inj hf.2 hg.2 (hc'.trans hd'.symm)
  subst h4
  exact ⟨rfl, rfl⟩

theorem Net.Frame.write_inj {cfg : Cfg} {f g : Net.Frame} (hf : f.WF cfg) (hg : g.WF cfg)
    {x y s t : List Bool} (hx : f.write cfg = .ok x) (hy : g.write cfg = .ok y) (hl : s.length = t.length)
    (he : x ++ s = y ++ t) : f = g ∧ s = t := by
  obtain ⟨fh, fc⟩ := f
  obtain ⟨gh, gc⟩ := g
  obtain ⟨a, c, ha, hc, rfl⟩ := W.seq_cons_ok.1 hx
  obtain ⟨b, d, hb, hd, rfl⟩ := W.seq_cons_ok.1 hy
  dsimp only at ha hb hc hd
  obtain ⟨a', ha', hda⟩ := Net.Header.rt (cfg := cfg) hf.1
  obtain ⟨b', hb', hdb⟩ := Net.Header.rt (cfg := cfg) hg.1
  dsimp only at ha' hb'
  rw [ha] at ha'; cases ha'
  rw [hb] at hb'; cases hb'
  rw [List.append_assoc, List.append_assoc] at he
  obtain ⟨rfl, h2⟩ := P.eval_strip hda hdb he
  obtain ⟨c', n, hc', hn, e⟩ := W.seq_cons_ok.1 hc
  obtain ⟨d', m, hd', hm, e'⟩ := W.seq_cons_ok.1 hd
  cases hn; cases hm
  rw [List.append_nil] at e e'
  subst e e'
  obtain ⟨rfl, h3⟩ := Trans.Frame.write_inj hf.2 hg.2 hc' hd' hl h2
  exact ⟨rfl, h3⟩

theorem ForegroundFrame.write_inj {cfg : Cfg} {f g : ForegroundFrame} (hf : f.WF cfg) (hg : g.WF cfg)
    {x y s t : List Bool} (hx : f.write cfg = .ok x) (hy : g.write cfg = .ok y) (hl : s.length = t.length)
    (he : x ++ s = y ++ t) : f = g ∧ s = t := by
  obtain ⟨fh, fn, fc⟩ := f
  obtain ⟨gh, gn, gc⟩ := g
  obtain ⟨a, c, ha, hc, rfl⟩ := W.seq_cons_ok.1 hx
  obtain ⟨b, d, hb, hd, rfl⟩ := W.seq_cons_ok.1 hy
  dsimp only at ha hb hc hd
  obtain ⟨a', ha', hda⟩ := ForegroundHeader.rt hf.1
  obtain ⟨b', hb', hdb⟩ := ForegroundHeader.rt hg.1
  dsimp only at ha' hb'
  rw [ha] at ha'; cases ha'
  rw [hb] at hb'; cases hb'
  rw [List.append_assoc, List.append_assoc] at he
  obtain ⟨rfl, h2⟩ := P.eval_strip hda hdb he
  obtain ⟨c', n, hc', hn, rfl⟩ := W.seq_cons_ok.1 hc
  obtain ⟨d', m, hd', hm, rfl⟩ := W.seq_cons_ok.1 hd
  obtain ⟨n', z, hn', hz, e⟩ := W.seq_cons_ok.1 hn
  obtain ⟨m', z', hm', hz', e'⟩ := W.seq_cons_ok.1 hm
  cases hz; cases hz'
  rw [List.append_nil] at e e'
  subst e e'
  obtain ⟨n2, hn2, hnd, hnl⟩ := uintHost_width cfg 2 fc
  obtain ⟨m2, hm2, hmd, hml⟩ := uintHost_width cfg 2 gc
  rw [hn'] at hn2; cases hn2
  rw [hm'] at hm2; cases hm2
  rw [List.append_assoc, List.append_assoc] at h2
  obtain ⟨rfl, h3⟩ := Net.Frame.write_inj hf.2 hg.2 hc' hd' (by simp; omega) h2
  obtain ⟨rfl, h4⟩ := P.eval_strip hnd hmd h3
  exact ⟨rfl, h4⟩

theorem Trans.Frame.width {cfg : Cfg} {f : Trans.Frame} (hf : f.WF cfg) :
    ∃ x, f.write cfg = .ok x ∧ x.length % 8 = 7 := by
  obtain ⟨fh, fc⟩ := f
  obtain ⟨a, ha, -⟩ := Trans.Header.rt hf.1
  have h7 := Trans.Header.mod8 _ a ha
  obtain ⟨bs, hw, h8, -⟩ := Reads.write hf.2.1
  have hwc : fc.write cfg = .ok bs := hw
  dsimp only at ha
  refine ⟨a ++ bs, by simp only [Trans.Frame.write, W.seq, ha, hwc, List.append_nil], by simp; omega⟩

theorem Net.Frame.width {cfg : Cfg} {f : Net.Frame} (hf : f.WF cfg) :
    ∃ x, f.write cfg = .ok x ∧ x.length % 8 = if cfg.variant = .wizzilab then 7 else 0 := by
  obtain ⟨fh, fc⟩ := f
  obtain ⟨a, ha, -⟩ := Net.Header.rt (cfg := cfg) hf.1
  have h7 := Net.Header.mod8 _ a ha
  obtain ⟨bs, hw, h8⟩ := Trans.Frame.width hf.2
  dsimp only at ha hw
  refine ⟨a ++ bs, by simp only [Net.Frame.write, W.seq, ha, hw, List.append_nil], ?_⟩
  rw [List.length_append]
  split at h7 <;> simp_all <;> omega

theorem ForegroundFrame.width {cfg : Cfg} {f : ForegroundFrame} (hf : f.WF cfg) :
    ∃ x, f.write cfg = .ok x ∧ x.length % 8 = if cfg.variant = .wizzilab then 7 else 0 := by
  obtain ⟨fh, fn, fc⟩ := f
  obtain ⟨a, ha, -⟩ := ForegroundHeader.rt hf.1
  have h7 := ForegroundHeader.mod8 _ a ha
  obtain ⟨bs, hw, h8⟩ := Net.Frame.width hf.2
  obtain ⟨n2, hn2, -, hnl⟩ := uintHost_width cfg 2 fc
  dsimp only at ha hw
  refine ⟨a ++ (bs ++ n2), by simp only [ForegroundFrame.write, W.seq, ha, hw, hn2, List.append_nil], ?_⟩
  rw [List.length_append, List.length_append]
  omega

/-- Equal bytes of strings that end at the same place in a byte. -/
theorem packBits_same {x y : List Bool} (h : x.length % 8 = y.length % 8) (he : packBits x = packBits y) :
    x.length = y.length ∧ x = y := by
  obtain ⟨p, hp⟩ := bytesBits_packBits_padded x
  obtain ⟨q, hq⟩ := bytesBits_packBits_padded y
  have hlx := packBits_length x
  have hly := packBits_length y
  rw [he] at hlx
  have hl : x.length = y.length := by omega
  rw [he, hq] at hp
  exact ⟨hl, (List.append_inj hp hl.symm).1.symm⟩

theorem toBytes_ok_eq {w : W} {x : List Bool} (h : w = .ok x) : w.toBytes = .ok (packBits x) := by rw [h]; rfl

/-- **C72** for transport frames. -/
theorem C72_transport (cfg : Cfg) (f g : Trans.Frame) (hf : f.WF cfg) (hg : g.WF cfg)
    (h : f.toBytes cfg = g.toBytes cfg) : f = g := by
  obtain ⟨x, hx, lx⟩ := Trans.Frame.width hf
  obtain ⟨y, hy, ly⟩ := Trans.Frame.width hg
  unfold Trans.Frame.toBytes at h
  rw [toBytes_ok_eq hx, toBytes_ok_eq hy] at h
  simp only [Except.ok.injEq] at h
  exact (Trans.Frame.write_inj hf hg hx hy rfl (by rw [(packBits_same (by omega) h).2] : x ++ [] = y ++ [])).1

/-- **C72** for network frames. -/
theorem C72_network (cfg : Cfg) (f g : Net.Frame) (hf : f.WF cfg) (hg : g.WF cfg)
    (h : f.toBytes cfg = g.toBytes cfg) : f = g := by
  obtain ⟨x, hx, lx⟩ := Net.Frame.width hf
  obtain ⟨y, hy, ly⟩ := Net.Frame.width hg
  unfold Net.Frame.toBytes at h
  rw [toBytes_ok_eq hx, toBytes_ok_eq hy] at h
  simp only [Except.ok.injEq] at h
  exact (Net.Frame.write_inj hf hg hx hy rfl (by rw [(packBits_same (by omega) h).2] : x ++ [] = y ++ [])).1

/-- **C72** for foreground frames, whatever the lengths in their headers. -/
theorem C72_foreground (cfg : Cfg) (f g : ForegroundFrame) (hf : f.WF cfg) (hg : g.WF cfg)
    (h : f.toBytes cfg = g.toBytes cfg) : f = g := by
  obtain ⟨x, hx, lx⟩ := ForegroundFrame.width hf
  obtain ⟨y, hy, ly⟩ := ForegroundFrame.width hg
  unfold ForegroundFrame.toBytes at h
  rw [toBytes_ok_eq hx, toBytes_ok_eq hy] at h
  simp only [Except.ok.injEq] at h
  exact (ForegroundFrame.write_inj hf hg hx hy rfl (by rw [(packBits_same (by omega) h).2] : x ++ [] = y ++ [])).1

/-- **C72** for background frames. -/
theorem C72_background (cfg : Cfg) (f g : BackgroundFrame) (hf : f.WF) (hg : g.WF)
    (h : f.toBytes cfg = g.toBytes cfg) : f = g := by
  obtain ⟨x, hx, hx'⟩ := C31_roundtrip cfg f hf
  obtain ⟨y, hy, hy'⟩ := C31_roundtrip cfg g hg
  rw [hx, hy] at h
  cases h
  rw [hx'] at hy'
  cases hy'
  rfl

/-- Two frames the theorem is about, of different lengths in the header. -/
example : (Sample.foreground 25 ⟨[Sample.tag]⟩).WF Sample.spec ∧ (Sample.foreground 0 Sample.command).WF Sample.spec ∧
    (Sample.foreground 25 ⟨[Sample.tag]⟩).frame.WF Sample.wizzilab := by decide +kernel

/-- Without agreement of flags and parts there are different frames of the same bytes. -/
example : ∃ f g : Trans.Frame, f ≠ g ∧ f.toBytes Sample.spec = g.toBytes Sample.spec ∧
    (f.toBytes Sample.spec).isOk = true :=
  ⟨⟨⟨Sample.transHeader.control, 7, 9, some 1, none, none, none, none⟩, ⟨[]⟩⟩,
   ⟨⟨Sample.transHeader.control, 7, 9, none, some ⟨1, false⟩, none, none, none⟩, ⟨[]⟩⟩, by decide +kernel⟩

/-! ## C73: frames on other hosts -/

theorem Command.write_host {cfg : Cfg} (b b' : Bool) {c : Command}
    (h : ∀ a ∈ c.actions, Spec.hostOrdered a = false) :
    c.write { cfg with bigEndianHost := b } = c.write { cfg with bigEndianHost := b' } := by
  obtain ⟨l⟩ := c
  unfold Command.write W.list
  dsimp only at h ⊢
  congr 1
  exact List.map_congr_left fun a ha => Action.write_host cfg _ _ a (h a ha)

/-- **C73** Transport frames are the same on all hosts, if their commands are. -/
theorem C73_host_transport_partial (cfg : Cfg) (f : Trans.Frame)
    (h : ∀ a ∈ f.command.actions, Spec.hostOrdered a = false) :
    f.toBytes { cfg with bigEndianHost := true } = f.toBytes { cfg with bigEndianHost := false } := by
  unfold Trans.Frame.toBytes Trans.Frame.write
  rw [Command.write_host true false h]

/-- **C73** Network frames are the same on all hosts, if their commands are. -/
theorem C73_host_network_partial (cfg : Cfg) (f : Net.Frame)
    (h : ∀ a ∈ f.frame.command.actions, Spec.hostOrdered a = false) :
    f.toBytes { cfg with bigEndianHost := true } = f.toBytes { cfg with bigEndianHost := false } := by
  unfold Net.Frame.toBytes Net.Frame.write Trans.Frame.write
  rw [Command.write_host true false h]
  rfl

theorem bigEndian_two (v : BitVec 16) :
    Spec.bigEndian 2 v.toNat = [BitVec.ofNat 8 (v.toNat / 256), BitVec.ofNat 8 v.toNat] := by
  simp [Spec.bigEndian]

theorem bigEndian_two_reverse (v : BitVec 16) :
    Spec.bigEndian 2 v.toNat = (Spec.bigEndian 2 v.toNat).reverse ↔ v.toNat / 256 = v.toNat % 256 := by
  have := v.isLt
  rw [bigEndian_two]
  simp only [List.reverse_cons, List.reverse_nil, List.nil_append, List.cons_append, List.cons.injEq, and_true]
  constructor
  · rintro ⟨h, -⟩
    have := congrArg BitVec.toNat h
    simp only [BitVec.toNat_ofNat] at this
    omega
  · intro h
    have : BitVec.ofNat 8 (v.toNat / 256) = BitVec.ofNat 8 v.toNat := by
      apply BitVec.eq_of_toNat_eq
      simp only [BitVec.toNat_ofNat]
      omega
    exact ⟨this, this.symm⟩

theorem uintHost_host (cfg : Cfg) (b : Bool) (v : BitVec 16) :
    W.uintHost { cfg with bigEndianHost := b } 2 v =
      .ok (bytesBits (if b then Spec.bigEndian 2 v.toNat else (Spec.bigEndian 2 v.toNat).reverse)) :=
  Lay.uintHost (cfg := { cfg with bigEndianHost := b }) (k := 2) (v := v)

theorem host_length (b : Bool) (v : BitVec 16) :
    (bytesBits (if b then Spec.bigEndian 2 v.toNat else (Spec.bigEndian 2 v.toNat).reverse)).length = 16 := by
  rw [bytesBits_length, bigEndian_two]; cases b <;> rfl

/-- **C73** Foreground frames: two hosts agree on one exactly if the two bytes of its CRC are the same. -/
theorem C73_host_foreground_partial (cfg : Cfg) (f : ForegroundFrame)
    (h : ∀ a ∈ f.frame.frame.command.actions, Spec.hostOrdered a = false)
    (hok : (f.toBytes { cfg with bigEndianHost := true }).isOk = true) :
    f.toBytes { cfg with bigEndianHost := true } = f.toBytes { cfg with bigEndianHost := false } ↔
      f.crc16.toNat / 256 = f.crc16.toNat % 256 := by
  have hn : f.frame.write { cfg with bigEndianHost := true } = f.frame.write { cfg with bigEndianHost := false } := by
    unfold Net.Frame.write Trans.Frame.write
    rw [Command.write_host true false h]
    rfl
  rw [← bigEndian_two_reverse]
  unfold ForegroundFrame.toBytes ForegroundFrame.write at hok ⊢
  simp only [uintHost_host, hn] at hok ⊢
  cases h1 : f.header.write with
  | error e => simp [W.seq, h1, W.toBytes, Except.isOk, Except.toBool] at hok
  | ok x =>
    cases h2 : f.frame.write { cfg with bigEndianHost := false } with
    | error e => simp [W.seq, h1, h2, W.toBytes, Except.isOk, Except.toBool] at hok
    | ok y =>
      simp only [W.seq, W.toBytes, List.append_nil, if_true, Bool.false_eq_true, if_false, Except.ok.injEq]
      have l1 := host_length true f.crc16
      have l2 := host_length false f.crc16
      simp only [if_true, Bool.false_eq_true, if_false] at l1 l2
      constructor
      · intro he
        obtain ⟨-, he⟩ := packBits_same (by simp only [List.length_append]; omega) he
        exact bytesBits_inj (List.append_cancel_left (List.append_cancel_left he))
      · intro he
        rw [← he]

/-- **C73** Background frames: two hosts agree on one exactly if the two bytes of its payload are the same,
and those of its CRC. -/
theorem C73_host_background_partial (cfg : Cfg) (f : BackgroundFrame) :
    f.toBytes { cfg with bigEndianHost := true } = f.toBytes { cfg with bigEndianHost := false } ↔
      f.payload.toNat / 256 = f.payload.toNat % 256 ∧ f.crc16.toNat / 256 = f.crc16.toNat % 256 := by
  rw [← bigEndian_two_reverse, ← bigEndian_two_reverse, C31_layout, C31_layout]
  obtain ⟨b, hb⟩ : ∃ b, Wire.byte [(2, Wire.addressType f.control.addressType), (6, f.control.tagId.toNat)] = some b :=
    ⟨_, rfl⟩
  have hl : ∀ v : BitVec 16, (Spec.bigEndian 2 v.toNat).length = (Spec.bigEndian 2 v.toNat).reverse.length := by simp
  simp only [Spec.backgroundFrame, hb, Wire.hostNumber, Wire.raw, Wire.join, Wire.result, if_true,
    Bool.false_eq_true, if_false, List.append_nil, Except.ok.injEq]
  constructor
  · intro he
    have he := List.append_cancel_left (List.append_cancel_left he)
    exact List.append_inj he (hl _)
  · rintro ⟨h1, h2⟩
    rw [← h1, ← h2]

/-- What the other host reads of a number in host order. -/
def Spec.swapped (v : U16) : U16 := BitVec.ofNat 16 (v.toNat % 256 * 256 + v.toNat / 256)

theorem swapped_bytes (v : U16) :
    Spec.bigEndian 2 (Spec.swapped v).toNat = (Spec.bigEndian 2 v.toNat).reverse := by
  have := v.isLt
  have hs : (Spec.swapped v).toNat = v.toNat % 256 * 256 + v.toNat / 256 := by
    rw [Spec.swapped, BitVec.toNat_ofNat]; omega
  rw [bigEndian_two, bigEndian_two, hs]
  simp only [List.reverse_cons, List.reverse_nil, List.nil_append, List.cons_append, List.cons.injEq, and_true]
  have h1 : v.toNat / 256 < 256 := by omega
  have h2 : v.toNat % 256 < 256 := Nat.mod_lt _ (by omega)
  have h3 : (v.toNat % 256 * 256 + v.toNat / 256) / 256 = v.toNat % 256 := by omega
  constructor <;> apply BitVec.eq_of_toNat_eq <;> simp only [BitVec.toNat_ofNat]
  · rw [h3, Nat.mod_mod]
  · omega

theorem swapped_host (cfg : Cfg) (b : Bool) (v : U16) :
    W.uintHost { cfg with bigEndianHost := b } 2 v = W.uintHost { cfg with bigEndianHost := !b } 2 (Spec.swapped v) := by
  rw [uintHost_host, uintHost_host, swapped_bytes]
  cases b <;> simp

/-- **C73** What a host writes for a background frame, a host of the other order reads as the frame with payload
and CRC swapped byte by byte. -/
theorem C73_host_background_read (cfg : Cfg) (b : Bool) (f : BackgroundFrame) (hf : f.WF) :
    ∃ bytes, f.toBytes { cfg with bigEndianHost := b } = .ok bytes ∧
      BackgroundFrame.tryFrom { cfg with bigEndianHost := !b } bytes =
        .ok { f with payload := Spec.swapped f.payload, crc16 := Spec.swapped f.crc16 } := by
  obtain ⟨bytes, h1, h2⟩ := C31_roundtrip { cfg with bigEndianHost := !b }
    { f with payload := Spec.swapped f.payload, crc16 := Spec.swapped f.crc16 } hf
  refine ⟨bytes, ?_, h2⟩
  rw [← h1]
  unfold BackgroundFrame.toBytes BackgroundFrame.write
  simp only [swapped_host cfg b]

/-- **C73** What a host writes for a foreground frame is what a host of the other order writes for the frame with
its CRC swapped. -/
theorem C73_host_foreground_swapped (cfg : Cfg) (b : Bool) (f : ForegroundFrame)
    (h : ∀ a ∈ f.frame.frame.command.actions, Spec.hostOrdered a = false) :
    f.toBytes { cfg with bigEndianHost := b } =
      ForegroundFrame.toBytes { cfg with bigEndianHost := !b } { f with crc16 := Spec.swapped f.crc16 } := by
  have hn : f.frame.write { cfg with bigEndianHost := b } = f.frame.write { cfg with bigEndianHost := !b } := by
    unfold Net.Frame.write Trans.Frame.write
    rw [Command.write_host b (!b) h]
    rfl
  unfold ForegroundFrame.toBytes ForegroundFrame.write
  simp only [swapped_host cfg b, hn]

/-- **C73** fails for every foreground and background frame with this CRC. -/
theorem C73_host_violates (cfg : Cfg) :
    (Sample.foreground 25 ⟨[Sample.tag]⟩).toBytes { cfg with bigEndianHost := true } ≠
      (Sample.foreground 25 ⟨[Sample.tag]⟩).toBytes { cfg with bigEndianHost := false } ∧
    ∀ s c p, (BackgroundFrame.mk s c p 0xBEEF).toBytes { cfg with bigEndianHost := true } ≠
      (BackgroundFrame.mk s c p 0xBEEF).toBytes { cfg with bigEndianHost := false } := by
  constructor
  · refine fun h => absurd ((C73_host_foreground_partial cfg (Sample.foreground 25 ⟨[Sample.tag]⟩) (by decide) ?_).1 h)
      (by decide)
    rcases cfg with ⟨v, a, b, c, d⟩
    cases v <;> cases a <;> cases b <;> cases c <;> cases d <;> decide +kernel
  · intro s c p h
    exact absurd ((C73_host_background_partial cfg _).1 h).2 (by show ¬ (0xBEEF : U16).toNat / 256 = (0xBEEF : U16).toNat % 256; decide)

/-! ## C73: frames in other builds -/

theorem Command.write_build {cfg : Cfg} (v v' : Variant) {c : Command}
    (h : ∀ a ∈ c.actions, Spec.common v v' a = true) :
    c.write { cfg with variant := v } = c.write { cfg with variant := v' } := by
  obtain ⟨l⟩ := c
  unfold Command.write W.list
  dsimp only at h ⊢
  congr 1
  exact List.map_congr_left fun a ha => Action.write_build cfg _ _ a (h a ha)

/-- **C73** Any two builds write the same transport frames, if they write the same commands. -/
theorem C73_build_transport (cfg : Cfg) (v v' : Variant) (f : Trans.Frame)
    (h : ∀ a ∈ f.command.actions, Spec.common v v' a = true) :
    f.toBytes { cfg with variant := v } = f.toBytes { cfg with variant := v' } := by
  unfold Trans.Frame.toBytes Trans.Frame.write
  rw [Command.write_build v v' h]

theorem Net.Header.write_build (cfg : Cfg) (v v' : Variant) (hv : v ≠ .wizzilab) (hv' : v' ≠ .wizzilab)
    (h : Net.Header) : h.write { cfg with variant := v } = h.write { cfg with variant := v' } := by
  have hw : ∀ v, v ≠ .wizzilab → NlsMethod.width { cfg with variant := v } = 4 := by
    intro v hv; cases v <;> first | rfl | exact absurd rfl hv
  unfold Net.Header.write Net.Control.write NlsMethod.write
  rw [hw v hv, hw v' hv']

theorem Net.Frame.write_build (cfg : Cfg) (v v' : Variant) (hv : v ≠ .wizzilab) (hv' : v' ≠ .wizzilab)
    (f : Net.Frame) (h : ∀ a ∈ f.frame.command.actions, Spec.common v v' a = true) :
    f.write { cfg with variant := v } = f.write { cfg with variant := v' } := by
  unfold Net.Frame.write Trans.Frame.write
  rw [Command.write_build v v' h, Net.Header.write_build cfg v v' hv hv']

/-- **C73** All builds but wizzilab write the same network and foreground frames, if they write the same
commands. -/
theorem C73_build_partial (cfg : Cfg) (v v' : Variant) (hv : v ≠ .wizzilab) (hv' : v' ≠ .wizzilab)
    (f : ForegroundFrame) (h : ∀ a ∈ f.frame.frame.command.actions, Spec.common v v' a = true) :
    f.toBytes { cfg with variant := v } = f.toBytes { cfg with variant := v' } ∧
      f.frame.toBytes { cfg with variant := v } = f.frame.toBytes { cfg with variant := v' } := by
  unfold ForegroundFrame.toBytes ForegroundFrame.write Net.Frame.toBytes
  rw [Net.Frame.write_build cfg v v' hv hv' f.frame h]
  exact ⟨rfl, rfl⟩

/-- The bits around the first bit of the security method, the same in all builds. -/
theorem Net.Control.write_wizzilab (cfg : Cfg) (v : Variant) (hv : v ≠ .wizzilab) (c : Net.Control) :
    ∃ x y, x.length = 5 ∧ c.write { cfg with variant := v } = .ok (x ++ false :: y) ∧
      c.write { cfg with variant := .wizzilab } = .ok (x ++ y) := by
  refine ⟨[c.hasNoOriginAccessId, c.hasHopping] ++ natBits 2 c.originAddressType.id.toNat ++ [false],
    natBits 3 c.nlsMethod.id.toNat, by simp, ?_, rfl⟩
  have h4 : natBits 4 c.nlsMethod.id.toNat = false :: natBits 3 c.nlsMethod.id.toNat := by
    cases c.nlsMethod <;> decide
  rw [← h4]
  cases v <;> first | rfl | exact absurd rfl hv

/-- Builds with and without the first bit of the security method. -/
theorem Net.Frame.write_wizzilab (cfg : Cfg) (v : Variant) (hv : v ≠ .wizzilab) (f : Net.Frame)
    (hf : f.WF { cfg with variant := v }) (h : ∀ a ∈ f.frame.command.actions, Spec.common v .wizzilab a = true) :
    ∃ x y, x.length = 5 ∧ f.write { cfg with variant := v } = .ok (x ++ false :: y) ∧
      f.write { cfg with variant := .wizzilab } = .ok (x ++ y) ∧ (x ++ false :: y).length % 8 = 0 := by
  obtain ⟨z, hz, hl⟩ := Net.Frame.width hf
  rw [if_neg hv] at hl
  obtain ⟨hb, tb, h1, h2, rfl⟩ := W.seq_cons_ok.1 hz
  obtain ⟨cb, rb, h3, h4, rfl⟩ := W.seq_cons_ok.1 (show W.seq (_ :: _) = _ from h1)
  obtain ⟨x, y, hx, e1, e2⟩ := Net.Control.write_wizzilab cfg v hv f.header.control
  rw [e1] at h3
  cases h3
  refine ⟨x, y ++ (rb ++ tb), hx, ?_, ?_, ?_⟩
  · rw [hz]; simp
  · have h5 : W.seq [f.frame.write { cfg with variant := .wizzilab }] = .ok tb := by
      unfold Trans.Frame.write
      rw [← Command.write_build v .wizzilab h]
      exact h2
    have h6 : f.header.write { cfg with variant := .wizzilab } = .ok ((x ++ y) ++ rb) :=
      W.seq_cons_ok.2 ⟨_, _, e2, h4, rfl⟩
    have : f.write { cfg with variant := .wizzilab } = .ok (((x ++ y) ++ rb) ++ tb) :=
      W.seq_cons_ok.2 ⟨_, _, h6, h5, rfl⟩
    rw [this]; simp
  · simpa [Nat.add_assoc] using hl

/-- **C73** What wizzilab builds write for a network frame is what the other builds write, but without the first
of the four bits of the security method, and with a zero bit at the end. -/
theorem C73_wizzilab_network (cfg : Cfg) (v : Variant) (hv : v ≠ .wizzilab) (f : Net.Frame)
    (hf : f.WF { cfg with variant := v }) (h : ∀ a ∈ f.frame.command.actions, Spec.common v .wizzilab a = true) :
    ∃ b w, f.toBytes { cfg with variant := v } = .ok b ∧ f.toBytes { cfg with variant := .wizzilab } = .ok w ∧
      Form.ofBytes w = (Form.ofBytes b).eraseIdx 5 ++ [false] := by
  obtain ⟨x, y, hx, e1, e2, h8⟩ := Net.Frame.write_wizzilab cfg v hv f hf h
  refine ⟨_, _, toBytes_ok_eq e1, toBytes_ok_eq e2, ?_⟩
  simp only [List.length_append, List.length_cons] at h8
  rw [Form.ofBytes_eq, Form.ofBytes_eq, bytesBits_packBits (x ++ false :: y) (by simp; omega),
    bytesBits_pad7 (by simp; omega), List.eraseIdx_append_of_length_le (by omega), hx]
  rfl

/-- **C73** The same for foreground frames, behind their header. -/
theorem C73_wizzilab_foreground (cfg : Cfg) (v : Variant) (hv : v ≠ .wizzilab) (f : ForegroundFrame)
    (hf : f.WF { cfg with variant := v })
    (h : ∀ a ∈ f.frame.frame.command.actions, Spec.common v .wizzilab a = true) :
    ∃ head b w, f.header.write.toBytes = .ok head ∧ f.toBytes { cfg with variant := v } = .ok b ∧
      f.toBytes { cfg with variant := .wizzilab } = .ok w ∧
      Form.ofBytes w = (Form.ofBytes b).eraseIdx (8 * head.length + 5) ++ [false] := by
  obtain ⟨x, y, hx, e1, e2, h8⟩ := Net.Frame.write_wizzilab cfg v hv f.frame hf.2 h
  obtain ⟨hb, hh, -⟩ := ForegroundHeader.rt hf.1
  have hm := ForegroundHeader.mod8 _ hb hh
  obtain ⟨head, hd, hdb⟩ := W.toBytes_ok hh (by omega)
  obtain ⟨cb, hc, -, hc16⟩ := uintHost_width cfg 2 f.crc16
  have w1 : f.write { cfg with variant := v } = .ok (hb ++ (x ++ false :: y ++ cb)) := by
    have : W.uintHost { cfg with variant := v } 2 f.crc16 = .ok cb := hc
    simp only [ForegroundFrame.write, W.seq, hh, e1, this, List.append_nil]
  have w2 : f.write { cfg with variant := .wizzilab } = .ok (hb ++ (x ++ y ++ cb)) := by
    have : W.uintHost { cfg with variant := .wizzilab } 2 f.crc16 = .ok cb := hc
    simp only [ForegroundFrame.write, W.seq, hh, e2, this, List.append_nil]
  refine ⟨head, _, _, hd, toBytes_ok_eq w1, toBytes_ok_eq w2, ?_⟩
  have hl := congrArg List.length hdb
  rw [bytesBits_length] at hl
  simp only [List.length_append, List.length_cons] at h8
  rw [Form.ofBytes_eq, Form.ofBytes_eq, bytesBits_packBits (hb ++ (x ++ false :: y ++ cb)) (by simp; omega),
    bytesBits_pad7 (by simp; omega), hl,
    List.eraseIdx_append_of_length_le (by omega), Nat.add_sub_cancel_left, List.append_assoc x (false :: y),
    List.eraseIdx_append_of_length_le (by omega), hx]
  simp

/-- **C73** fails for wizzilab builds: they write this frame differently, and read what the other builds write
for it as something else, or not at all. -/
theorem C73_wizzilab_violates (cfg : Cfg) :
    let f : Net.Frame := ⟨Sample.netHeader, ⟨Sample.transHeader, ⟨[]⟩⟩⟩
    let b : List U8 := [0xE3, 0xA0, 0x10, 0x80, 0x08, 0x91, 0x19, 0xA2, 0x2A, 0xB3, 0x3B, 0xFD, 0x07, 0x09, 0x30,
      0x12, 0x5F, 0x04, 0x01, 0x02]
    f.toBytes { cfg with variant := .spec } = .ok b ∧ Net.Frame.tryFrom { cfg with variant := .spec } b = .ok f ∧
      f.toBytes { cfg with variant := .wizzilab } ≠ .ok b ∧
      Net.Frame.tryFrom { cfg with variant := .wizzilab } b ≠ .ok f := by
  rcases cfg with ⟨v, a, b, c, d⟩
  dsimp only
  clear v
  revert a b c d
  decide +kernel

/-! ## Cases -/

/-- Frames the theorems speak about. -/
example : (Sample.foreground 25 ⟨[Sample.tag, Sample.readData]⟩).WF Sample.spec ∧
    ([Sample.tag, Sample.readData].all
      fun a => Spec.common .spec .wizzilab a && Spec.common .spec .subiot a && !Spec.hostOrdered a) = true ∧
    ((Sample.foreground 25 ⟨[Sample.tag, Sample.readData]⟩).toBytes { Sample.spec with bigEndianHost := true }).isOk =
      true := by decide +kernel

#print axioms C72_transport
#print axioms C72_network
#print axioms C72_foreground
#print axioms C72_background
#print axioms C73_host_transport_partial
#print axioms C73_host_network_partial
#print axioms C73_host_foreground_partial
#print axioms C73_host_background_partial
#print axioms C73_host_background_read
#print axioms C73_host_foreground_swapped
#print axioms C73_host_violates
#print axioms C73_build_transport
#print axioms C73_build_partial
#print axioms C73_wizzilab_network
#print axioms C73_wizzilab_foreground
#print axioms C73_wizzilab_violates

end Dash7
