import Verif.Props.Accept
import Verif.Props.Normalise
import Verif.Props.TxStatus
import Verif.Props.Offset
import Verif.Lemmas.Items

/-!
# Which commands come back

A form of an action that is not well-formed is longer than what is written for the action; the only forms shorter
than what is written are those of large files. So once a reader is ahead of the writer it never falls back in step.
-/

namespace Dash7

theorem Form.field_natBits {n v : Nat} {c : List Bool} (h : Form.field n v c) : c = natBits n v ∧ v < 2 ^ n := by
  obtain ⟨rfl, rfl⟩ := h
  rw [Form.value_eq]
  exact ⟨(natBits_bitsNat c).symm, bitsNat_lt c⟩

theorem Form.length_below {n : Nat} {c : List Bool} (h : Form.length n c) : n < 2 ^ 30 := by
  obtain ⟨k, hk, a, b, -, -, b', t, -, hb, -⟩ := h
  exact Nat.lt_of_lt_of_le (field_natBits hb).2 (Nat.pow_le_pow_right (by omega) (by omega))

/-- The length operand written is the shortest one, and no other one has its size. -/
theorem Form.length_shortest {n : Nat} {c : List Bool} (h : Form.length n c) :
    ∃ w, (Length.ofUsize n).write = .ok w ∧ w.length ≤ c.length ∧ (c.length < w.length + 8 → c = w) := by
  have hn := length_below h
  obtain ⟨k, hk, a, b, rfl, ha, b', t, rfl, hb, rfl⟩ := h
  obtain ⟨rfl, -⟩ := field_natBits ha
  obtain ⟨rfl, hv⟩ := field_natBits hb
  have hv' := Length.ofUsize_toNat hn
  have hle : Length.extraBytes (Length.ofUsize n).val ≤ k :=
    Length.extraBytes_le (by rw [hv']; simpa [Nat.mul_comm] using hv) hk
  have e1 : W.uint 2 (BitVec.ofNat 32 (Length.extraBytes (Length.ofUsize n).val)) =
      .ok (natBits 2 (Length.extraBytes (Length.ofUsize n).val)) := by
    rw [W.uint, if_neg (by omega), BitVec.toNat_ofNat, Nat.mod_eq_of_lt (by omega)]
  have e2 : W.uint (6 + Length.extraBytes (Length.ofUsize n).val * 8) (Length.ofUsize n).val =
      .ok (natBits (6 + Length.extraBytes (Length.ofUsize n).val * 8) n) := by
    rw [W.uint, if_neg (by omega), hv']
  refine ⟨_, by rw [Length.write, e1, e2]; rfl, ?_, ?_⟩
  · simp; omega
  · intro hlt
    simp at hlt
    have : Length.extraBytes (Length.ofUsize n).val = k := by omega
    rw [this, Nat.mul_comm]

/-- No two length operands begin alike. -/
theorem Form.length_unique {n m : Nat} {c d s t : List Bool} (h : Form.length n c) (h' : Form.length m d)
    (he : c ++ s = d ++ t) : n = m ∧ c = d := by
  have h1 := (Length.fits ⟨BitVec.ofNat 32 n⟩ c s).2
    (by show Form.length (BitVec.ofNat 32 n).toNat c
        rw [BitVec.toNat_ofNat, Nat.mod_eq_of_lt (by have := length_below h; omega)]; exact h)
  have h2 := (Length.fits ⟨BitVec.ofNat 32 m⟩ d t).2
    (by show Form.length (BitVec.ofNat 32 m).toNat d
        rw [BitVec.toNat_ofNat, Nat.mod_eq_of_lt (by have := length_below h'; omega)]; exact h')
  rw [he, h2] at h1
  simp only [Except.ok.injEq, Prod.mk.injEq, Length.mk.injEq] at h1
  obtain ⟨h3, rfl⟩ := h1
  have := congrArg BitVec.toNat h3
  rw [BitVec.toNat_ofNat, BitVec.toNat_ofNat, Nat.mod_eq_of_lt (by have := length_below h'; omega),
    Nat.mod_eq_of_lt (by have := length_below h; omega)] at this
  exact ⟨this.symm, List.append_cancel_right he⟩

theorem Length.write_form {l : Length} (h : l.WF) {w : List Bool} (hw : l.write = .ok w) :
    Form.length l.val.toNat w := by
  obtain ⟨bs, hbs, hd⟩ := Length.rt h
  rw [hw] at hbs
  cases hbs
  exact (Length.fits l w []).1 (hd [])

/-- What is written for the status of an unknown interface. -/
theorem other_write (cfg : Cfg) (op : OpCode) (b : List U8) {x : List Bool}
    (hx : (Length.ofUsize b.length).write = .ok x) :
    (Action.status ⟨.interface, op, .interface ⟨.unknown, .other b⟩⟩).write cfg =
      .ok (natBits 2 1 ++ (natBits 6 34 ++ (x ++ bytesBits b))) := by
  have e0 : InterfaceStatus.write cfg (.other b) = .ok (bytesBits b) := by
    simp only [InterfaceStatus.write, W.list_u8]
  have hp : writeLengthPrefixed (InterfaceStatus.write cfg (.other b)) = .ok (x ++ bytesBits b) := by
    rw [e0, writeLengthPrefixed_ok (by rw [bytesBits_length]; omega), bytesBits_length,
      Nat.mul_div_cancel_left _ (by omega), hx]
    simp [W.seq]
  have e1 : InterfaceType.write .unknown = .ok [] := rfl
  have e2 : Op.StatusType.write .interface = .ok (natBits 2 1) := by decide
  have e3 : OpCode.write (Action.opcode (Action.status ⟨.interface, op, .interface ⟨.unknown, .other b⟩⟩)) =
      .ok (natBits 6 34) := by
    show OpCode.write ⟨34⟩ = _
    decide
  have e4 : (Action.status ⟨.interface, op, .interface ⟨.unknown, .other b⟩⟩).write cfg =
      W.seq [Op.StatusType.write .interface, OpCode.write (Action.opcode (Action.status ⟨.interface, op,
        .interface ⟨.unknown, .other b⟩⟩)), W.seq [InterfaceType.write .unknown,
          writeLengthPrefixed (InterfaceStatus.write cfg (.other b))]] := rfl
  rw [e4, e1, e2, e3, hp]
  simp [W.seq]

theorem knownInterface_head {n : Nat} (hn : n < 2 ^ 30) (h : ¬ Form.knownInterface (Spec.lengthHead n)) :
    4 ≤ n ∧ Spec.lengthHead n ≠ 0xD7 := by
  unfold Form.knownInterface at h
  refine ⟨?_, fun h' => h (by simp [h'])⟩
  unfold Spec.lengthHead at h
  by_cases h6 : n < 2 ^ 6
  · rw [if_pos h6] at h; omega
  · omega

/-- A form of an action which is not well-formed is longer than what is written for it. -/
theorem Form.longer {cfg : Cfg} {a : Action} {c : List Bool} (h : Form.action cfg a c) (ht : a.isTx = false)
    (hn : ¬ a.WF cfg) : ∃ w, a.write cfg = .ok w ∧ w.length + 8 ≤ c.length := by
  have hd := (Action.decode_iff cfg a c []).2 h
  cases ho : a.isOther with
  | false => exact (hn (Action.decode_wf hd ht ho)).elim
  | true =>
    cases a <;> try cases ho
    rename_i o
    obtain ⟨ty, op, st⟩ := o
    cases st <;> try cases ho
    rename_i i
    obtain ⟨it, s⟩ := i
    cases s <;> try cases ho
    rename_i b
    obtain ⟨c1, r1, rfl, h1, c2, r2, rfl, h2, c3, r3, rfl, h3, rfl⟩ := h
    cases ty <;> try exact h3.2.elim
    change Form.interfaceStatus _ _ _ c3 at h3
    cases it <;> try exact h3.2.elim
    obtain ⟨hop, h2⟩ := h2
    have l1 : c1.length = 2 := h1.1
    have l2 : c2.length = 6 := h2.1
    change op.code.toNat = 34 at hop
    simp only [Form.interfaceStatus] at h3
    split at h3
    · obtain ⟨id, -, x, r, rfl, hx, y, r', rfl, hy, z, r'', rfl, rfl, rfl⟩ := h3
      obtain ⟨w, hw, hle, -⟩ := length_shortest hy
      refine ⟨_, other_write cfg op b hw, ?_⟩
      have l3 : x.length = 8 := hx.1
      simp [Form.ofBytes_eq] at *
      omega
    · rename_i hu
      obtain ⟨y, r', rfl, ⟨hy, hk⟩, z, r'', rfl, rfl, rfl⟩ := h3
      obtain ⟨w, hw, hle, hsame⟩ := length_shortest hy
      refine ⟨_, other_write cfg op b hw, ?_⟩
      have hb := length_below hy
      by_cases hlt : y.length < w.length + 8
      · exfalso
        obtain rfl := hsame hlt
        obtain ⟨e, -, -, -, hw'⟩ := Length.write_split hb
        rw [hw] at hw'
        injection hw' with hw'
        have hh : Form.value (y.take 8) = Spec.lengthHead b.length := by
          rw [hw', List.take_left' (natBits_length _ _), value_eq, bitsNat_natBits_of_lt]
          unfold Spec.lengthHead
          repeat' split
          all_goals omega
        rw [hh] at hk
        obtain ⟨h4, hD7⟩ := knownInterface_head hb hk
        refine hn ⟨hop, rfl, rfl, ?_, h4, hb, hD7⟩
        simpa using hu
      · simp [Form.ofBytes_eq] at *
        omega

theorem FileId.large_lt (b : U8) : (match FileId.ofId b with
    | .accessProfile _ | .phyStatus => true
    | _ => false) = true → b.toNat < 64 := by
  revert b; decide +kernel

/-- The content of a large file, and its id. -/
theorem File.large {cfg : Cfg} {f : File} {b : U8} (hf : f.WF (FileId.ofId b)) (hs : f.slack ≠ 0) :
    b.toNat < 64 ∧ ∃ bs, f.write cfg = .ok bs ∧ 8 ∣ bs.length ∧ 64 ≤ bs.length / 8 ∧ bs.length / 8 < 2 ^ 30 := by
  have hbits : 64 ≤ f.bits / 8 ∧ f.bits / 8 < 2 ^ 30 := by
    cases f <;> try exact (hs rfl).elim
    · simp [File.bits]
    · rename_i p
      simp only [File.slack] at hs
      split at hs
      · have := p.channelStatusListLength.isLt
        have := hf.2.1
        simp only [File.bits]
        omega
      · exact (hs rfl).elim
  have hv : (BitVec.ofNat 32 (f.bits / 8)).toNat = f.bits / 8 := by
    rw [BitVec.toNat_ofNat, Nat.mod_eq_of_lt (by omega)]
  obtain ⟨bs, hw, hd⟩ := File.rt (cfg := cfg) hf hv
  have hp := File.post cfg (FileId.ofId b) _ (by rw [hv]; exact hbits.2) _ _ _ (hd [])
  refine ⟨?_, bs, hw, ?_, ?_, ?_⟩
  · refine FileId.large_lt b ?_
    cases f <;> try exact (hs rfl).elim
    · rw [hf.1]
    · rw [hf.1]
  · rw [hp.2]; exact f.bits_dvd
  · rw [hp.2]; exact hbits.1
  · rw [hp.2]; exact hbits.2

/-- One byte ahead of where it was written, file data holding a large file is not read. -/
theorem fileData_ahead {cfg : Cfg} {big : Bool} {o : Op.FileData} {op : OpCode} {code : Nat}
    {c w v r skip : List Bool} (hc : Form.fileData big code o c) (hw : o.write cfg op = .ok w)
    (hf : o.data.WF (FileId.ofId o.offset.fileId)) (hs : o.data.slack ≠ 0) (h8 : skip.length = 8)
    (he : w ++ v = skip ++ (c ++ r)) : False := by
  obtain ⟨hid, bs, hbs, hdvd, h64, h30⟩ := File.large (cfg := cfg) hf hs
  obtain ⟨c1, d1, rfl, hc1, c2, d2, rfl, ⟨-, hc2⟩, c3, d3, rfl, ⟨c4, d4, rfl, hc4, c5, d5, rfl, hc5, rfl⟩, -⟩ := hc
  obtain ⟨g1, g2, rfl, rfl, g3, g4, rfl, rfl, rfl⟩ := hc1
  obtain ⟨w1, x1, hw1, hx1, rfl⟩ := W.seq_cons_ok.1 hw
  obtain ⟨w2, x2, hw2, hx2, rfl⟩ := W.seq_cons_ok.1 hx1
  obtain ⟨w3, x3, hw3, hx3, rfl⟩ := W.seq_cons_ok.1 hx2
  obtain ⟨w4, x4, hw4, hx4, rfl⟩ := W.seq_cons_ok.1 hx3
  cases hx4
  cases hw1
  obtain ⟨w5, x5, hw5, hx5, rfl⟩ := W.seq_cons_ok.1 hw3
  obtain ⟨w6, x6, hw6, hx6, rfl⟩ := W.seq_cons_ok.1 hx5
  cases hx6
  cases hw5
  cases hw2
  have hoff : o.offset.offset.WF := by
    have := Form.length_below hc5
    exact this
  have hw6' := Length.write_form hoff hw6
  unfold Op.FileData.writeData at hw4
  rw [hbs, writeLengthPrefixed_ok hdvd] at hw4
  obtain ⟨w7, x7, hw7, hx7, rfl⟩ := W.seq_cons_ok.1 hw4
  have hw7' := Length.write_form (Length.ofUsize_wf h30) hw7
  rw [Length.ofUsize_toNat h30] at hw7'
  obtain ⟨rfl, -⟩ := Form.field_natBits hc4
  have l2 : c2.length = 6 := hc2.1
  have he1 := congrArg (List.drop 8) he
  rw [List.drop_left' h8] at he1
  have hl : ∀ (x y : Bool) (z t : List Bool), z.length = 6 →
      List.drop 8 (([x] ++ ([y] ++ ([] : List Bool))) ++ (z ++ t)) = t := by
    intro x y z t hz
    rw [← List.append_assoc, List.drop_left' (by simp [hz])]
  simp only [List.append_assoc] at he1
  have he2 : natBits 8 o.offset.fileId.toNat ++ (w6 ++ (w7 ++ (x7 ++ v))) =
      ([o.header.group] ++ ([o.header.response] ++ c2)) ++
        (natBits 8 o.offset.fileId.toNat ++ (c5 ++ (d3 ++ r))) := by
    simpa using he1
  obtain ⟨-, he3⟩ := List.append_inj he2 (by simp [l2])
  have hsmall : Form.length o.offset.fileId.toNat (natBits 8 o.offset.fileId.toNat) := by
    refine ⟨0, by omega, natBits 2 0, natBits 6 o.offset.fileId.toNat, ?_, ⟨rfl, rfl⟩, natBits 6 _, [],
      (List.append_nil _).symm, ⟨natBits_length _ _, ?_⟩, rfl⟩
    · rw [natBits_append 2 6, Nat.div_eq_of_lt (show o.offset.fileId.toNat < 2 ^ 6 from hid)]
    · rw [Form.value_eq, bitsNat_natBits_of_lt hid]
  obtain ⟨e1, rfl⟩ := Form.length_unique hw6' hsmall he3
  have he4 := List.append_cancel_left he3
  obtain ⟨e2, -⟩ := Form.length_unique hw7' hc5 he4
  omega

/-- Ahead of where they were written, actions are not read. -/
theorem actions_ahead {cfg : Cfg} {as : List Action} (ht : ∀ a ∈ as, a.isTx = false) :
    ∀ {w c r skip : List Bool}, W.list (Action.write cfg) as = .ok w → Form.actions cfg as c → 8 ∣ skip.length →
      skip ≠ [] → w ≠ skip ++ (c ++ r) := by
  induction as with
  | nil =>
    intro w c r skip hw _ _ hne he
    cases hw
    cases skip with
    | nil => exact hne rfl
    | cons => cases he
  | cons a as ih =>
    intro w c r skip hw hc h8 hne he
    obtain ⟨w1, w2, hw1, hw2, rfl⟩ := W.seq_cons_ok.1 hw
    obtain ⟨c1, c2, rfl, hc1, hc2⟩ := hc
    have ha := ht a (by simp)
    obtain ⟨x, hx, hxs, -⟩ := Action.decode_ok ((Action.decode_iff cfg a c1 []).2 hc1)
    rw [List.append_nil, List.append_nil] at hx
    subst hx
    obtain ⟨w1', hw1', hle⟩ := hxs.len
    rw [hw1] at hw1'
    cases hw1'
    have hm1 := hxs.dvd ha
    have hm2 : 8 ∣ w1.length := by
      have := Action.mod8 cfg a ha _ hw1
      omega
    have hpos : 0 < skip.length := List.length_pos_iff.2 hne
    by_cases hlt : w1.length < skip.length + c1.length
    · refine ih (fun b hb => ht b (by simp [hb])) hw2 hc2 (skip := (skip ++ c1).drop w1.length) (r := r) ?_ ?_ ?_
      · rw [List.length_drop, List.length_append]; omega
      · intro h
        have := congrArg List.length h
        simp at this
        omega
      · have := congrArg (List.drop w1.length) he
        rw [List.drop_left, ← List.append_assoc, ← List.append_assoc, List.append_assoc,
          List.drop_append_of_le_length (by simp; omega)] at this
        exact this
    · have hsl : a.slack ≠ 0 := by omega
      have h8' : skip.length = 8 := by
        rw [slack_eq] at hle
        split at hle <;> omega
      have hwf := Action.decode_wf ((Action.decode_iff cfg a c1 []).2 hc1) ha
      have he' : w1 ++ w2 = skip ++ (c1 ++ (c2 ++ r)) := by
        rw [← List.append_assoc c1, ← List.append_assoc]
        simpa using he
      cases a <;> try exact (hsl rfl).elim
      · exact fileData_ahead hc1 hw1 (hwf rfl).2.2 hsl h8' he'
      · exact fileData_ahead hc1 hw1 (hwf rfl).2.2 hsl h8' he'
      · exact fileData_ahead hc1 hw1 (hwf rfl).2.2 hsl h8' he'

/-- Actions that are read from what was written for them are well-formed. -/
theorem actions_survive {cfg : Cfg} {as : List Action} (ht : ∀ a ∈ as, a.isTx = false) :
    ∀ {w c r : List Bool}, W.list (Action.write cfg) as = .ok w → Form.actions cfg as c → w = c ++ r →
      ∀ a ∈ as, a.WF cfg := by
  induction as with
  | nil => simp
  | cons a as ih =>
    intro w c r hw hc he
    obtain ⟨w1, w2, hw1, hw2, rfl⟩ := W.seq_cons_ok.1 hw
    obtain ⟨c1, c2, rfl, hc1, hc2⟩ := hc
    have ha := ht a (by simp)
    have hts : ∀ b ∈ as, b.isTx = false := fun b hb => ht b (by simp [hb])
    by_cases hwf : a.WF cfg
    · obtain ⟨bs, hbs, -, -, hd⟩ := Action.decode_write hwf
      rw [hw1] at hbs
      cases hbs
      have hf := (Action.decode_iff cfg a w1 []).1 (hd [])
      obtain ⟨-, rfl⟩ := C54_unambiguous cfg a a w1 c1 w2 (c2 ++ r) hf hc1 (by rw [he, List.append_assoc])
      rw [List.append_assoc] at he
      have := ih hts hw2 hc2 (List.append_cancel_left he)
      simpa using ⟨hwf, this⟩
    · exfalso
      obtain ⟨w1', hw1', hlt⟩ := Form.longer hc1 ha hwf
      rw [hw1] at hw1'
      cases hw1'
      obtain ⟨x, hx, hxs, -⟩ := Action.decode_ok ((Action.decode_iff cfg a c1 []).2 hc1)
      rw [List.append_nil, List.append_nil] at hx
      subst hx
      have hm1 := hxs.dvd ha
      have hm2 : 8 ∣ w1.length := by
        have := Action.mod8 cfg a ha _ hw1
        omega
      refine actions_ahead hts hw2 hc2 (skip := c1.drop w1.length) (r := r) ?_ ?_ ?_
      · rw [List.length_drop]; omega
      · intro h
        have := congrArg List.length h
        simp at this
        omega
      · have := congrArg (List.drop w1.length) he
        rw [List.drop_left, List.append_assoc, List.drop_append_of_le_length (by omega)] at this
        exact this

theorem actions_mod8 {cfg : Cfg} {as : List Action} (ht : ∀ a ∈ as, a.isTx = false) :
    ∀ {w : List Bool}, W.list (Action.write cfg) as = .ok w → 8 ∣ w.length := by
  induction as with
  | nil => intro w hw; cases hw; simp
  | cons a as ih =>
    intro w hw
    obtain ⟨w1, w2, hw1, hw2, rfl⟩ := W.seq_cons_ok.1 hw
    have h1 := Action.mod8 cfg a (ht a (by simp)) _ hw1
    have h2 := ih (fun b hb => ht b (by simp [hb])) hw2
    rw [List.length_append]
    omega

end Dash7
