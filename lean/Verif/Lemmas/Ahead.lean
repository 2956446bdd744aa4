import Verif.Lemmas.Survive
import Verif.Lemmas.Whole

/-!
# Commands read ahead of where they were written

A reader that is ahead of the writer stays ahead: the one operation that is read from less than what is written for it
holds a large file, and cannot stand one or two bytes, nor a part of a byte more, behind its own beginning.
-/

namespace Dash7

theorem bits_one {l : List Bool} (n : Nat) (h : l.length = n + 1) : ∃ b t, l = b :: t ∧ t.length = n := by
  cases l with
  | nil => simp at h
  | cons b t => exact ⟨b, t, rfl, by simpa using h⟩

theorem bits_two {l : List Bool} (h : l.length = 2) : ∃ a b, l = [a, b] := by
  obtain ⟨a, l1, rfl, h1⟩ := bits_one 1 h
  obtain ⟨b, l2, rfl, h2⟩ := bits_one 0 h1
  obtain rfl := List.eq_nil_of_length_eq_zero h2
  exact ⟨_, _, rfl⟩

theorem bits_six {l : List Bool} (h : l.length = 6) : ∃ a b c d e f, l = [a, b, c, d, e, f] := by
  obtain ⟨a, l1, rfl, h1⟩ := bits_one 5 h
  obtain ⟨b, l2, rfl, h2⟩ := bits_one 4 h1
  obtain ⟨c, l3, rfl, h3⟩ := bits_one 3 h2
  obtain ⟨d, l4, rfl, h4⟩ := bits_one 2 h3
  obtain ⟨e, f, rfl⟩ := bits_two h4
  exact ⟨_, _, _, _, _, _, rfl⟩

theorem bits_eight {l : List Bool} (h : l.length = 8) : ∃ a b c d e f g i, l = [a, b, c, d, e, f, g, i] := by
  obtain ⟨a, l1, rfl, h1⟩ := bits_one 7 h
  obtain ⟨b, l2, rfl, h2⟩ := bits_one 6 h1
  obtain ⟨c, d, e, f, g, i, rfl⟩ := bits_six h2
  exact ⟨_, _, _, _, _, _, _, _, rfl⟩

theorem bits_split {l : List Bool} (n m : Nat) (h : l.length = n + m) :
    ∃ a b, l = a ++ b ∧ a.length = n ∧ b.length = m :=
  ⟨l.take n, l.drop n, (List.take_append_drop n l).symm, by simp; omega, by simp; omega⟩

set_option hygiene false in
/-- Compare the bits. -/
macro "ahead_cases" : tactic => `(tactic|
  (rcases hd with rfl | rfl | rfl <;> rcases hj with rfl | rfl <;>
    obtain ⟨c, rfl | rfl | rfl, hc⟩ := hc <;> (first | rw [e4] at hc | rw [e5] at hc | rw [e32] at hc) <;>
    clear e4 e5 e32 f9 p0 k0 k1 k2 k3 <;> simp at hc hr <;> grind))

/-- The bits in front of the offset, the offset, and the length written behind it. -/
theorem ahead_bits {hdr F O P Z Z' : List Bool} {d j k : Nat} (hhdr : hdr.length = 8)
    (hd : d = 10 ∨ d = 12 ∨ d = 14) (hj : j = 0 ∨ j = 2)
    (hF : (∃ a, a.length = 4 ∧ F = [false, false, true, false] ++ a ∧ P = natBits 16 0x4041) ∨
      F = natBits 8 0x09 ∧ ∃ p, p.length = 10 ∧ P = [false, true, false, false, false, false] ++ p)
    (hk : k < 4) (hO : ∃ o, o.length = 6 + 8 * k ∧ O = natBits 2 k ++ o)
    (hc : ∃ c ∈ [4, 5, 32], (((hdr ++ (F ++ (O ++ (P ++ Z)))).drop (d + j)).take 6) = natBits 6 c)
    (hr : (hdr ++ (F ++ (O ++ (P ++ Z)))).drop (d + 8) = F ++ (O ++ Z')) : False := by
  obtain ⟨h0, h1, h2, h3, h4, h5, h6, h7, rfl⟩ := bits_eight hhdr
  obtain ⟨o, ho, rfl⟩ := hO
  obtain ⟨o1, o2, rfl, ho1, ho2⟩ := bits_split 6 (8 * k) ho
  obtain ⟨q0, q1, q2, q3, q4, q5, rfl⟩ := bits_six ho1
  have e4 : natBits 6 4 = [false, false, false, true, false, false] := by decide
  have e5 : natBits 6 5 = [false, false, false, true, false, true] := by decide
  have e32 : natBits 6 32 = [true, false, false, false, false, false] := by decide
  have f9 : natBits 8 0x09 = [false, false, false, false, true, false, false, true] := by decide
  have p0 : natBits 16 0x4041 = [false, true, false, false, false, false, false, false,
    false, true, false, false, false, false, false, true] := by decide
  have k0 : natBits 2 0 = [false, false] := by decide
  have k1 : natBits 2 1 = [false, true] := by decide
  have k2 : natBits 2 2 = [true, false] := by decide
  have k3 : natBits 2 3 = [true, true] := by decide
  simp only [List.mem_cons, List.not_mem_nil, or_false] at hc
  have hk' : k = 0 ∨ k = 1 ∨ k = 2 ∨ k = 3 := by omega
  rcases hF with ⟨a, ha, rfl, rfl⟩ | ⟨rfl, p, hp, rfl⟩
  · obtain ⟨a1, a2, rfl, ha1, ha2⟩ := bits_split 2 2 ha
    obtain ⟨x0, x1, rfl⟩ := bits_two ha1
    obtain ⟨x2, x3, rfl⟩ := bits_two ha2
    rw [p0] at hc hr
    clear ha ha1 ha2 ho1
    rcases hk' with rfl | rfl | rfl | rfl
    · obtain rfl := List.eq_nil_of_length_eq_zero ho2
      rw [k0] at hc hr
      ahead_cases
    · obtain ⟨r0, r1, r2, r3, r4, r5, r6, r7, rfl⟩ := bits_eight ho2
      rw [k1] at hc hr
      ahead_cases
    · obtain ⟨t1, t2, rfl, ht1, ht2⟩ := bits_split 8 8 ho2
      obtain ⟨r0, r1, r2, r3, r4, r5, r6, r7, rfl⟩ := bits_eight ht1
      obtain ⟨s0, s1, s2, s3, s4, s5, s6, s7, rfl⟩ := bits_eight ht2
      rw [k2] at hc hr
      ahead_cases
    · obtain ⟨t1, t2, rfl, ht1, ht2⟩ := bits_split 8 16 ho2
      obtain ⟨t3, t4, rfl, ht3, ht4⟩ := bits_split 8 8 ht2
      obtain ⟨r0, r1, r2, r3, r4, r5, r6, r7, rfl⟩ := bits_eight ht1
      obtain ⟨s0, s1, s2, s3, s4, s5, s6, s7, rfl⟩ := bits_eight ht3
      obtain ⟨t0, t1, t2, t3, t4, t5, t6, t7, rfl⟩ := bits_eight ht4
      rw [k3] at hc hr
      ahead_cases
  · obtain ⟨p1, p2, rfl, hp1, hp2⟩ := bits_split 2 8 hp
    obtain ⟨x0, x1, rfl⟩ := bits_two hp1
    obtain ⟨y0, y1, y2, y3, y4, y5, y6, y7, rfl⟩ := bits_eight hp2
    rw [f9] at hc hr
    rcases hk' with rfl | rfl | rfl | rfl
    · obtain rfl := List.eq_nil_of_length_eq_zero ho2
      rw [k0] at hc hr
      ahead_cases
    · obtain ⟨r0, r1, r2, r3, r4, r5, r6, r7, rfl⟩ := bits_eight ho2
      rw [k1] at hc hr
      ahead_cases
    · obtain ⟨t1, t2, rfl, ht1, ht2⟩ := bits_split 8 8 ho2
      obtain ⟨r0, r1, r2, r3, r4, r5, r6, r7, rfl⟩ := bits_eight ht1
      obtain ⟨s0, s1, s2, s3, s4, s5, s6, s7, rfl⟩ := bits_eight ht2
      rw [k2] at hc hr
      ahead_cases
    · obtain ⟨t1, t2, rfl, ht1, ht2⟩ := bits_split 8 16 ho2
      obtain ⟨t3, t4, rfl, ht3, ht4⟩ := bits_split 8 8 ht2
      obtain ⟨r0, r1, r2, r3, r4, r5, r6, r7, rfl⟩ := bits_eight ht1
      obtain ⟨s0, s1, s2, s3, s4, s5, s6, s7, rfl⟩ := bits_eight ht3
      obtain ⟨t0, t1, t2, t3, t4, t5, t6, t7, rfl⟩ := bits_eight ht4
      rw [k3] at hc hr
      ahead_cases

/-- The id of a large file, and the length operand written before its content. -/
theorem File.largeHead {f : File} {b : U8} (hf : f.WF (FileId.ofId b)) (hs : f.slack ≠ 0) :
    f.bits / 8 < 2 ^ 30 ∧ ∃ P, (Length.ofUsize (f.bits / 8)).write = .ok P ∧ P.length = 16 ∧
      ((∃ a, a.length = 4 ∧ natBits 8 b.toNat = [false, false, true, false] ++ a ∧ P = natBits 16 0x4041) ∨
        natBits 8 b.toNat = natBits 8 0x09 ∧
          ∃ p, p.length = 10 ∧ P = [false, true, false, false, false, false] ++ p) := by
  cases f <;> try exact (hs rfl).elim
  · rename_i i p
    have hi := (FileId.ofId_accessProfile i b).1 hf.1
    refine ⟨by simp [File.bits], natBits 16 0x4041, by simp only [File.bits]; decide, natBits_length _ _,
      .inl ⟨natBits 4 i.val, natBits_length _ _, ?_, rfl⟩⟩
    rw [hi]
    clear hi hf hs
    revert i
    decide
  · rename_i p
    have h9 : b.toNat = 9 := (FileId.ofId_iff b).2.2.2.2.2.1.1 hf.1
    simp only [File.slack] at hs
    split at hs
    · have h1 := p.channelStatusListLength.isLt
      have h2 := hf.2.1
      have h3 : File.bits (.phyStatus p) / 8 = 15 + 3 * p.channelStatus.length := by simp only [File.bits]; omega
      rw [h3]
      refine ⟨by omega, ?_⟩
      have hn : 64 ≤ 15 + 3 * p.channelStatus.length := by omega
      have hn' : 15 + 3 * p.channelStatus.length < 1024 := by omega
      generalize 15 + 3 * p.channelStatus.length = n at hn hn'
      obtain ⟨e, he, hlt, hh, hw⟩ := Length.write_split (n := n) (by omega)
      have hh' : Spec.lengthHead n = 64 + n / 2 ^ 8 := by
        rw [Spec.lengthHead, if_neg (by omega), if_pos (by omega)]
      have he1 : e = 1 := by
        have : e = 0 ∨ e = 1 ∨ e = 2 ∨ e = 3 := by omega
        rcases this with rfl | rfl | rfl | rfl <;> omega
      subst he1
      refine ⟨_, hw, by simp, .inr ⟨by rw [h9], natBits 2 (n / 2 ^ 8) ++ natBits 8 (n % 2 ^ 8), by simp, ?_⟩⟩
      rw [hh', ← List.append_assoc]
      congr 1
      have hq : n / 2 ^ 8 < 4 := by omega
      generalize n / 2 ^ 8 = q at hq
      have : q = 0 ∨ q = 1 ∨ q = 2 ∨ q = 3 := by omega
      rcases this with rfl | rfl | rfl | rfl <;> decide
    · exact (hs rfl).elim

/-- File data holding a large file is not read from less than two bytes behind its own beginning. -/
theorem fileData_behind {cfg : Cfg} {o : Op.FileData} {op : OpCode} {j : Nat}
    {c w v r h skip : List Bool}
    (hc : Form.all [Form.header o.header, Form.field 6 o.opcode.code.toNat, Form.fileOffset o.offset,
      fun c => ∃ n, Form.all [Form.length n, Form.file cfg.bigEndianHost o.offset.fileId.toNat n o.data] c] c)
    (hw : o.write cfg op = .ok w)
    (hf : o.data.WF (FileId.ofId o.offset.fileId)) (hs : o.data.slack ≠ 0) (hl : w.length = c.length + 8)
    (h8 : skip.length = 8 ∨ (skip.length = 10 ∨ skip.length = 12 ∨ skip.length = 14) ∧ (j = 0 ∨ j = 2) ∧
      ∃ k ∈ [4, 5, 32], ((h ++ (c.drop 8 ++ r)).drop j).take 6 = natBits 6 k)
    (hh : h.length = 8)
    (he : w ++ v = skip ++ (h ++ (c.drop 8 ++ r))) : False := by
  obtain ⟨hid, -⟩ := File.large (cfg := cfg) hf hs
  obtain ⟨h30, P, hP, hPl, hcase⟩ := File.largeHead hf hs
  obtain ⟨c1, d1, rfl, hc1, c2, d2, rfl, hc2, c3, d3, rfl, ⟨c4, d4, rfl, hc4, c5, d5, rfl, hc5, rfl⟩,
    d6, d7, rfl, ⟨n, y, f1, rfl, hy, f2, f3, rfl, hfile, rfl⟩, rfl⟩ := hc
  obtain ⟨g1, g2, rfl, rfl, g3, g4, rfl, rfl, rfl⟩ := hc1
  have hn := Form.length_below hy
  have hv : (BitVec.ofNat 32 n).toNat = n := by
    rw [BitVec.toNat_ofNat, Nat.mod_eq_of_lt (by omega)]
  have hlen : f2.length = o.data.bits := by
    have hread := (File.fits cfg o.offset.fileId (BitVec.ofNat 32 n) o.data f2 []).2 (by rw [hv]; exact hfile)
    exact File.post_bits cfg _ _ _ _ _ hread
  have hv' : (BitVec.ofNat 32 (o.data.bits / 8)).toNat = o.data.bits / 8 := by
    rw [BitVec.toNat_ofNat, Nat.mod_eq_of_lt (by omega)]
  obtain ⟨bs, hbs, hd⟩ := File.rt (cfg := cfg) hf hv'
  have hbl : bs.length = o.data.bits := File.post_bits cfg _ _ _ _ _ (hd [])
  have hdvd : 8 ∣ bs.length := by rw [hbl]; exact o.data.bits_dvd
  obtain ⟨w1, x1, hw1, hx1, rfl⟩ := W.seq_cons_ok.1 hw
  obtain ⟨w2, x2, hw2, hx2, rfl⟩ := W.seq_cons_ok.1 hx1
  obtain ⟨w3, x3, hw3, hx3, rfl⟩ := W.seq_cons_ok.1 hx2
  obtain ⟨w4, x4, hw4, hx4, rfl⟩ := W.seq_cons_ok.1 hx3
  cases hx4
  cases hw1
  obtain ⟨w5, x5, hw5, hx5, rfl⟩ := W.seq_cons_ok.1 hw3
  obtain ⟨w6, x6, hw6, hx6, rfl⟩ := W.seq_cons_ok.1 hx5
  cases hx6
  cases hw5
  cases hw2
  unfold Op.FileData.writeData at hw4
  rw [hbs, writeLengthPrefixed_ok hdvd, hbl, hP] at hw4
  simp only [W.seq, List.append_nil, Except.ok.injEq] at hw4
  subst hw4
  have hoff : Length.ofUsize o.offset.offset.val.toNat = o.offset.offset := by
    simp [Length.ofUsize]
  obtain ⟨w6', hw6', hle, hsame⟩ := Form.length_shortest hc5
  rw [hoff, hw6] at hw6'
  cases hw6'
  obtain ⟨rfl, -⟩ := Form.field_natBits hc4
  have l2 : c2.length = 6 := hc2.1
  have ly : 8 ≤ y.length := by
    obtain ⟨k, -, a, b, rfl, ha, b', t, rfl, hb, rfl⟩ := hy
    have := ha.1
    have := hb.1
    simp; omega
  obtain rfl : c5 = w6 := by
    refine hsame ?_
    simp at hl
    omega
  generalize hH : ([o.header.group] ++ ([o.header.response] ++ ([] : List Bool))) ++ natBits 6 op.code.toNat = H
  have lH : H.length = 8 := by rw [← hH]; simp
  have hdrop : List.drop 8 ([o.header.group] ++ ([o.header.response] ++ []) ++ (c2 ++
      (natBits 8 o.offset.fileId.toNat ++ (c5 ++ []) ++ (y ++ (f2 ++ []) ++ [])))) =
      natBits 8 o.offset.fileId.toNat ++ (c5 ++ (y ++ f2)) := by
    rw [← List.append_assoc, List.drop_left' (by simp [l2])]
    simp
  rw [hdrop] at he h8
  have he1 : H ++ (natBits 8 o.offset.fileId.toNat ++ (c5 ++ (P ++ (bs ++ v)))) =
      skip ++ (h ++ (natBits 8 o.offset.fileId.toNat ++ (c5 ++ (y ++ f2 ++ r)))) := by
    rw [← hH]
    simpa using he
  rcases h8 with h8 | ⟨hd, hj, k, hk, hk'⟩
  · obtain ⟨-, he2⟩ := List.append_inj he1 (by rw [lH, h8])
    obtain ⟨-, he3⟩ := List.append_inj he2 (by rw [hh, natBits_length])
    have hsmall : Form.length o.offset.fileId.toNat (natBits 8 o.offset.fileId.toNat) := by
      refine ⟨0, by omega, natBits 2 0, natBits 6 o.offset.fileId.toNat, ?_, ⟨rfl, rfl⟩, natBits 6 _, [],
        (List.append_nil _).symm, ⟨natBits_length _ _, ?_⟩, rfl⟩
      · rw [natBits_append 2 6, Nat.div_eq_of_lt (show o.offset.fileId.toNat < 2 ^ 6 from hid)]
      · rw [Form.value_eq, bitsNat_natBits_of_lt hid]
    obtain ⟨-, he4⟩ := Form.length_unique hc5 hsmall he3
    rw [he4] at he3
    have he5 := List.append_cancel_left he3
    rcases hcase with ⟨a, ha, e1, rfl⟩ | ⟨e1, p, hp, rfl⟩
    · rw [e1, show natBits 16 0x4041 = [false, true] ++ natBits 14 0x41 by decide] at he5
      simp at he5
    · rw [e1, show natBits 8 9 = [false, false] ++ natBits 6 9 by decide] at he5
      simp at he5
  · obtain ⟨k', hk4, a, b, rfl, ha, b', t, rfl, hb, rfl⟩ := hc5
    obtain ⟨rfl, -⟩ := Form.field_natBits ha
    refine ahead_bits (hdr := H) (d := skip.length) (j := j) (Z := bs ++ v) (Z' := y ++ f2 ++ r) lH hd hj hcase hk4
      ⟨b', hb.1, rfl⟩ ⟨k, hk, ?_⟩ ?_
    · rw [List.append_nil] at he1 hk'
      rw [he1, List.drop_append, List.drop_of_length_le (by omega)]
      simp only [List.append_assoc] at hk' ⊢
      simpa using hk'
    · rw [List.append_nil] at he1
      rw [he1, ← List.append_assoc, List.drop_left' (by simp [hh])]

/-- What is taken for an action, and what is written for it. -/
theorem operand_decoded {cfg : Cfg} {a : Action} {wire : List Bool} (h : Form.operand cfg a wire) :
    Action.Decoded cfg a wire.length := by
  have hlt : Spec.opcodeOf a < 256 := by cases a <;> simp [Spec.opcodeOf]
  have hc : (BitVec.ofNat 8 (Spec.opcodeOf a)).toNat = Spec.opcodeOf a := by
    rw [BitVec.toNat_ofNat, Nat.mod_eq_of_lt (by omega)]
  have := (Action.dispatch_fits cfg ⟨BitVec.ofNat 8 (Spec.opcodeOf a)⟩ a wire []).2 ⟨hc.symm, h⟩
  exact (Action.dispatch_post cfg _ _ _ _ this).2

/-- The reader steps back to where it read the code from, or into the byte looked at. -/
theorem steppedBack_split (cfg : Cfg) {s : List Bool} (h : 8 ≤ s.length) :
    ∃ front h1 h2 t, s = front ++ (h1 ++ t) ∧ Spec.steppedBack cfg s = h2 ++ t ∧ h1.length = 8 ∧ h2.length = 8 ∧
      (cfg.seekClears = true → front.length = s.length % 8 ∧ h1 = h2) ∧ (cfg.seekClears = false → front = []) := by
  cases hc : cfg.seekClears with
  | true =>
    refine ⟨s.take (s.length % 8), (s.drop (s.length % 8)).take 8, (s.drop (s.length % 8)).take 8,
      (s.drop (s.length % 8)).drop 8, ?_, ?_, ?_, ?_, ?_, by simp⟩
    · rw [List.take_append_drop, List.take_append_drop]
    · rw [Spec.steppedBack, if_pos hc, Spec.wholeBytes, List.take_append_drop]
    · simp; omega
    · simp; omega
    · intro _; simp; omega
  | false =>
    have hs : Spec.steppedBack cfg s =
        ((Spec.wholeBytes s).take 8).drop (8 - s.length % 8) ++ Spec.wholeBytes s := by
      rw [Spec.steppedBack, if_neg (by simp [hc])]
    refine ⟨[], s.take 8, (Spec.steppedBack cfg s).take 8, s.drop 8, ?_, ?_, ?_, ?_, by simp, by simp⟩
    · simp
    · have : (Spec.steppedBack cfg s).drop 8 = s.drop 8 := by
        rw [hs, List.drop_append, List.drop_of_length_le (by simp; omega), List.nil_append, Spec.wholeBytes,
          List.drop_drop]
        congr 1
        simp
        omega
      rw [← this, List.take_append_drop]
    · simp; omega
    · rw [hs]; simp [Spec.wholeBytes]; omega

/-- A reader at least a byte ahead of the writer does not read the actions that were written. -/
theorem reading_ahead {cfg : Cfg} {size : Nat} {as : List Action} :
    ∀ {w z s skip left : List Bool} {n : Nat} {stop : Bool}, W.list (Action.write cfg) as = .ok w → z.length < 8 →
      w ++ z = skip ++ s → 8 ≤ skip.length → 2 ∣ skip.length →
      (cfg.seekClears = true → s.length % 8 = 0 ∨ s.length % 8 = 2) →
      (cfg.seekClears = false → 8 ∣ skip.length) →
      ¬ Spec.reading cfg 0 size stop as s left n := by
  induction as with
  | nil =>
    intro w z s skip left n stop hw hz he h8 _ _ _ _
    cases hw
    have := congrArg List.length he
    simp at this
    omega
  | cons a as ih =>
    intro w z s skip left n stop hw hz he h8 h2 hc hn hr
    obtain ⟨w1, w2, hw1, hw2, rfl⟩ := W.seq_cons_ok.1 hw
    obtain ⟨-, -, h8', hval, wire, more, m, hs, hop, hr', -⟩ := hr
    have hask : Spec.asked cfg 0 s = s := by simp [Spec.asked]
    rw [hask] at h8' hval hs
    obtain ⟨front, b1, b2, t, hst, hsb, l1, l2, hclear, hkeep⟩ := steppedBack_split cfg h8'
    have hd := operand_decoded hop
    have ht : t = wire.drop 8 ++ more := by
      rw [hs] at hsb
      have := congrArg (List.drop 8) hsb
      rw [List.drop_left' l2, List.drop_append_of_le_length hd.pos] at this
      exact this.symm
    have hpos := hd.pos
    obtain ⟨w1', hw1', hle⟩ := hd.len
    rw [hw1] at hw1'
    cases hw1'
    -- how far ahead the reader is when it begins with the action
    generalize hD : skip ++ front = D
    have he1 : w1 ++ (w2 ++ z) = D ++ (b1 ++ (wire.drop 8 ++ more)) := by
      rw [← hD, ← ht, ← List.append_assoc w1, he, hst, List.append_assoc]
    have hsl : s.length = front.length + 8 + t.length := by rw [hst]; simp; omega
    have hDl : D.length = skip.length + front.length := by rw [← hD]; simp
    have hwm : w1.length % 8 = wire.length % 8 ∧ (wire.length % 8 = 0 ∨ wire.length % 8 = 6) := by
      cases htx : a.isTx with
      | false =>
        have h1 := Action.mod8 cfg a htx _ hw1
        have h2 := hd.dvd htx
        omega
      | true =>
        have h2 := hd.dvd' htx
        cases a <;> try cases htx
        have h1 := Action.tx_mod8 cfg _ _ hw1
        omega
    have hD8 : 8 ≤ D.length ∧ 2 ∣ D.length ∧ (cfg.seekClears = false → 8 ∣ D.length) := by
      cases hcl : cfg.seekClears with
      | true =>
        have := (hclear hcl).1
        have := hc hcl
        refine ⟨by omega, by omega, by simp⟩
      | false =>
        have h1 := hkeep hcl
        have h3 := hn hcl
        subst h1
        simp only [List.length_nil, Nat.add_zero] at hDl
        rw [hDl]
        exact ⟨h8, h2, fun _ => h3⟩
    obtain ⟨d8, d2, dn⟩ := hD8
    have hgap : w1.length + 8 ≤ D.length + wire.length := by
      by_cases hge : w1.length ≤ wire.length
      · omega
      · have hsl : a.slack ≠ 0 := by omega
        have hw8 : w1.length = wire.length + 8 := by
          rw [slack_eq] at hle
          split at hle <;> omega
        by_cases h16 : 16 ≤ D.length
        · omega
        · exfalso
          have hj : D.length = 8 ∨ (D.length = 10 ∨ D.length = 12 ∨ D.length = 14) ∧
              ∃ j, (j = 0 ∨ j = 2) ∧
                Form.value (((b1 ++ (wire.drop 8 ++ more)).drop j).take 6) = Spec.opcodeOf a := by
            cases hcl : cfg.seekClears with
            | false => have := dn hcl; omega
            | true =>
              by_cases h8D : D.length = 8
              · exact .inl h8D
              · refine .inr ⟨by omega, ?_⟩
                have hfl := (hclear hcl).1
                rw [← ht]
                rcases hc hcl with h0 | h0
                · have : front = [] := List.eq_nil_of_length_eq_zero (by omega)
                  subst this
                  refine ⟨2, .inr rfl, ?_⟩
                  rw [← hval, hst, List.nil_append]
                · refine ⟨0, .inl rfl, ?_⟩
                  rw [List.drop_zero, ← hval, hst, List.drop_left' (i := 2) (by omega)]
          have hcode : ∀ k, Spec.opcodeOf a = k → k ∈ [4, 5, 32] →
              D.length = 8 ∨ (D.length = 10 ∨ D.length = 12 ∨ D.length = 14) ∧ ∃ j, (j = 0 ∨ j = 2) ∧
                ∃ k ∈ [4, 5, 32], ((b1 ++ (wire.drop 8 ++ more)).drop j).take 6 = natBits 6 k := by
            intro k hk hm
            rcases hj with hj | ⟨hj, j, hj', hv⟩
            · exact .inl hj
            · refine .inr ⟨hj, j, hj', k, hm, ?_⟩
              rw [hk, Form.value_eq] at hv
              rw [← hv, ← natBits_bitsNat ((List.drop j _).take 6)]
              rw [bitsNat_natBits_of_lt (bitsNat_lt _)]
              congr 1
              simp
              omega
          have hfd : ∀ o : Op.FileData, ∀ op k, Spec.opcodeOf a = k → k ∈ [4, 5, 32] → o.write cfg op = .ok w1 →
              Form.all [Form.header o.header, Form.field 6 o.opcode.code.toNat, Form.fileOffset o.offset,
                fun c => ∃ n, Form.all [Form.length n,
                  Form.file cfg.bigEndianHost o.offset.fileId.toNat n o.data] c] wire →
              o.data.WF (FileId.ofId o.offset.fileId) → o.data.slack ≠ 0 → False := by
            intro o op k hk hm hw hform hwf hs
            rcases hcode k hk hm with h | ⟨h, j, hj', k', hk', he'⟩
            · exact fileData_behind (j := 0) hform hw hwf hs hw8 (.inl h) l1 he1
            · exact fileData_behind hform hw hwf hs hw8 (.inr ⟨h, hj', k', hk', he'⟩) l1 he1
          have hwf := hd.wf
          cases a <;> try exact (hsl rfl).elim
          · exact hfd _ _ 4 rfl (by simp) hw1 hop (hwf rfl rfl).2 hsl
          · exact hfd _ _ 5 rfl (by simp) hw1 hop (hwf rfl rfl).2 hsl
          · exact hfd _ _ 32 rfl (by simp) hw1 hop (hwf rfl rfl).2 hsl
    have hml : s.length = front.length + wire.length + more.length := by
      rw [hsl, ht]; simp; omega
    refine ih hw2 hz (s := more) (skip := (D ++ (b1 ++ wire.drop 8)).drop w1.length) ?_ ?_ ?_ ?_ ?_ hr'
    · have := congrArg (List.drop w1.length) he1
      rw [List.drop_left, ← List.append_assoc b1, ← List.append_assoc D,
        List.drop_append_of_le_length (by simp; omega)] at this
      exact this
    · simp; omega
    · simp; omega
    · intro hcl
      have := (hclear hcl).1
      have := hc hcl
      omega
    · intro hcl
      have := dn hcl
      simp; omega

/-- Actions that are read from what was written for them are well-formed, whatever they are: a TX status is not read from
what is written for it, and behind the status of an unknown interface the reader is ahead. -/
theorem reading_survive {cfg : Cfg} {size : Nat} {as : List Action} :
    ∀ {w z left : List Bool} {n : Nat} {stop : Bool}, W.list (Action.write cfg) as = .ok w →
      z.length < 8 → 8 ∣ (w ++ z).length → Spec.reading cfg 0 size stop as (w ++ z) left n → ∀ a ∈ as, a.WF cfg := by
  induction as with
  | nil => simp
  | cons a as ih =>
    intro w z left n stop hw hz h8 hr
    obtain ⟨w1, w2, hw1, hw2, rfl⟩ := W.seq_cons_ok.1 hw
    obtain ⟨-, -, h8', hval, wire, more, m, hs, hop, hr', -⟩ := hr
    have hask : Spec.asked cfg 0 (w1 ++ w2 ++ z) = w1 ++ w2 ++ z := by simp [Spec.asked]
    rw [hask] at h8' hval hs
    have hwh : Spec.wholeBytes (w1 ++ w2 ++ z) = w1 ++ w2 ++ z := by
      rw [Spec.wholeBytes, Nat.mod_eq_zero_of_dvd h8, List.drop_zero]
    have hst : Spec.steppedBack cfg (w1 ++ w2 ++ z) = w1 ++ w2 ++ z := by
      rw [Spec.steppedBack, hwh, Nat.mod_eq_zero_of_dvd h8]
      split
      · rfl
      · rw [List.drop_of_length_le (by simp; omega)]; rfl
    rw [hst] at hs
    cases ht : a.isTx with
    | true =>
      cases a <;> try cases ht
      obtain ⟨t, rfl, -⟩ := tx_write hw1
      have : natBits 8 0x40 = [false, true, false, false, false, false, false, false] := by decide
      rw [this] at hval
      simp [Spec.opcodeOf, Form.value] at hval
    | false =>
      have hd : Action.decode cfg (w1 ++ w2 ++ z) = .ok (a, more) := by
        rw [Action.decode, if_pos h8']
        have hc : Spec.opcodeOf a = (opAt 2 (w1 ++ w2 ++ z)).code.toNat := by
          have := Action.opAt_bits (c := w1 ++ w2 ++ z) (s' := []) h8'
          rw [List.append_nil] at this
          rw [← hval, this, Form.value_eq]
        have := (Action.dispatch_fits cfg (opAt 2 (w1 ++ w2 ++ z)) a wire more).2 ⟨hc, hop⟩
        rw [← hs] at this
        exact this
      by_cases hwf : a.WF cfg
      case neg =>
        exfalso
        rw [hs] at hd
        obtain ⟨w1', hw1', hlt⟩ := Form.longer ((Action.decode_iff cfg a wire more).1 hd) ht hwf
        rw [hw1] at hw1'
        cases hw1'
        have hm1 := (operand_decoded hop).dvd ht
        have hm2 := Action.mod8 cfg a ht _ hw1
        have hl := congrArg List.length hs
        simp only [List.length_append] at hl h8
        refine reading_ahead hw2 hz (s := more) (skip := wire.drop w1.length) ?_ ?_ ?_ ?_ ?_ hr'
        · have := congrArg (List.drop w1.length) hs
          rw [List.append_assoc, List.drop_left, List.drop_append_of_le_length (by omega)] at this
          exact this
        · simp; omega
        · simp; omega
        · intro _; omega
        · intro _; simp; omega
      obtain ⟨bs, hbs, h8b, -, hd'⟩ := Action.decode_write hwf
      rw [hw1] at hbs
      cases hbs
      rw [List.append_assoc, hd' (w2 ++ z)] at hd
      simp only [Except.ok.injEq, Prod.mk.injEq, true_and] at hd
      subst hd
      have := ih hw2 (z := z) hz (by
        simp only [List.length_append] at h8 ⊢
        omega) hr'
      simpa using ⟨hwf, this⟩

end Dash7
