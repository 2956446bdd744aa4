import Verif.Lemmas.Limit
import Verif.Props.Frames

/-!
# Network and foreground frames
-/

namespace Dash7

/-! ## C34: foreground frames

Outside wizzilab builds the command starts at a byte boundary. The length field is compared with the
position in the input, so `length = position of the first CRC byte` delimits the command. -/

theorem uintHost_width (cfg : Cfg) (k : Nat) (v : BitVec (8 * k)) :
    ∃ bs, W.uintHost cfg k v = .ok bs ∧ (∀ rest, (P.uintHost cfg k).eval (bs ++ rest) = .ok (v, rest)) ∧
      bs.length = 8 * k := by
  obtain ⟨bs, hw, hd⟩ := RT.uintHost cfg v
  exact ⟨bs, hw, hd, (Post.uintHost bs [] v (hd [])).1⟩

/-- **C34** Outside wizzilab builds, a frame whose length field says where the command ends is read back;
but every action makes the derived functions believe that one more byte (two, if looking for the end
counts) was consumed. So `from_bytes` loses that many bytes behind the frame, or panics if they are not
there, and `try_from` wants exactly that many of them. -/
theorem C34_partial (cfg : Cfg) (hv : cfg.variant ≠ .wizzilab) (f : ForegroundFrame) (hw : f.WF cfg) :
    ∃ bytes, f.toBytes cfg = .ok bytes ∧ (f.header.length.val.toNat + 2 = bytes.length →
      ∀ junk extra, extra = f.frame.frame.command.actions.length * (if cfg.endCounts then 2 else 1) →
        ForegroundFrame.fromBytes cfg (bytes ++ junk, 0) =
          (if extra ≤ junk.length then .ok ((junk.drop extra, 0), f) else .error (.fault .panic)) ∧
        ForegroundFrame.tryFrom cfg (bytes ++ junk) =
          (if junk.length = extra then .ok f else .error (.fault .parse))) := by
  obtain ⟨h, n, crc⟩ := f
  obtain ⟨hh, hn⟩ := hw
  dsimp only at hh hn ⊢
  obtain ⟨hb, hhb, hhd⟩ := ForegroundHeader.rt hh
  have h8 := ForegroundHeader.mod8 h hb hhb
  obtain ⟨nb, hnb, hn8, hnp, hrun⟩ := Net.read_limit hv hn
  obtain ⟨cb, hcb, hcd, hc16⟩ := uintHost_width cfg 2 crc
  have hwr : (ForegroundFrame.mk h n crc).write cfg = .ok (hb ++ (nb ++ cb)) := by
    simp only [ForegroundFrame.write, W.seq, hhb, hnb, hcb, List.append_nil]
  obtain ⟨bytes, hby, hbits⟩ := W.toBytes_ok hwr (by simp; omega)
  refine ⟨bytes, hby, fun hL junk extra hex => ?_⟩
  have hk : (if cfg.endCounts then 2 else 1) = 1 + cfg.endCostBytes := by
    unfold Cfg.endCostBytes; split <;> rfl
  rw [hk] at hex
  have hlen := congrArg List.length hbits
  rw [bytesBits_length] at hlen
  simp only [List.length_append] at hlen
  have hpos : 0 < hb.length := by
    obtain ⟨b1, c1, -, hrest, rfl⟩ := W.seq_cons_ok.1
      (show W.seq [h.length.write, W.u8 h.subnet, h.control.write, h.targetAddress.write] = .ok hb from hhb)
    obtain ⟨b2, c2, e2, -, rfl⟩ := W.seq_cons_ok.1 hrest
    cases e2; simp; omega
  have hdata : bytesBits (bytes ++ junk) = hb ++ (nb ++ (cb ++ bytesBits junk)) := by
    rw [bytesBits_append, hbits]; simp
  obtain ⟨r1, e1, c1, m1, d1, -, u1, b1⟩ := P.run_con (Rd.new_con (bytes ++ junk))
    (by rw [Rd.new_rem]; exact hdata) (hhd _) hpos
  obtain ⟨r2, e2, f2, m2, d2, b2⟩ := hrun r1 (cb ++ bytesBits junk) h.length.val c1
    (by rw [u1, Rd.new_cur]; omega) m1 (by
      rw [d1, show (Rd.new (bytes ++ junk)).data = bytes ++ junk from rfl]
      simp only [List.length_append, bytesBits_length]
      omega)
  obtain ⟨r3, e3, c3, m3, d3, -, u3, b3⟩ := P.run_con f2.toCon m2 (hcd _) (by omega)
  have hread : ForegroundFrame.read cfg (Rd.new (bytes ++ junk)) = .ok (⟨h, n, crc⟩, r3) := by
    unfold ForegroundFrame.read
    simp only [R.bind_eq, R.bind, e1, e2, e3]
    rfl
  have hbr : r3.bitsRead = 8 * (bytes.length + extra) := by
    rw [b3, b2, b1, ← hex, show (Rd.new (bytes ++ junk)).bitsRead = 0 from rfl]
    omega
  constructor
  · unfold ForegroundFrame.fromBytes derivedFromBytes
    dsimp only
    rw [startAt_zero, hread]
    dsimp only
    rw [hbr, sliceFrom, Nat.mul_div_cancel_left _ (by omega), Nat.mul_mod_right, List.length_append]
    by_cases hx : extra ≤ junk.length
    · rw [if_pos (by omega), if_pos hx]
      simp
    · rw [if_neg (by omega), if_neg hx]
  · unfold ForegroundFrame.tryFrom derivedTryFrom
    rw [hread]
    dsimp only
    rw [hbr, Nat.mul_div_cancel_left _ (by omega), List.length_append]
    by_cases hx : junk.length = extra
    · rw [if_neg (by omega), if_pos hx]
    · rw [if_pos (by omega), if_neg hx]

/-- **C34** holds for the empty command, outside wizzilab builds. -/
theorem C34_empty_partial (cfg : Cfg) (hv : cfg.variant ≠ .wizzilab) (f : ForegroundFrame)
    (hw : f.WF cfg) (he : f.frame.frame.command.actions = []) :
    ∃ bytes, f.toBytes cfg = .ok bytes ∧ (f.header.length.val.toNat + 2 = bytes.length →
      ForegroundFrame.tryFrom cfg bytes = .ok f ∧
      ∀ rest, ForegroundFrame.fromBytes cfg (bytes ++ rest, 0) = .ok ((rest, 0), f)) := by
  obtain ⟨bytes, h1, h2⟩ := C34_partial cfg hv f hw
  refine ⟨bytes, h1, fun hL => ⟨?_, fun rest => ?_⟩⟩
  · have := (h2 hL [] 0 (by rw [he]; simp)).2
    simpa using this
  · have := (h2 hL rest 0 (by rw [he]; simp)).1
    simpa using this

/-- **C34** fails for every other command: `try_from` refuses the encoding, `from_bytes` panics on it. -/
theorem C34_nonempty_violates (cfg : Cfg) (hv : cfg.variant ≠ .wizzilab) (f : ForegroundFrame)
    (hw : f.WF cfg) (he : f.frame.frame.command.actions ≠ []) :
    ∃ bytes, f.toBytes cfg = .ok bytes ∧ (f.header.length.val.toNat + 2 = bytes.length →
      ForegroundFrame.tryFrom cfg bytes = .error (.fault .parse) ∧
      ForegroundFrame.fromBytes cfg (bytes, 0) = .error (.fault .panic)) := by
  obtain ⟨bytes, h1, h2⟩ := C34_partial cfg hv f hw
  refine ⟨bytes, h1, fun hL => ?_⟩
  have hp := List.length_pos_iff.2 he
  have := h2 hL [] _ rfl
  have hx : 0 < f.frame.frame.command.actions.length * (if cfg.endCounts then 2 else 1) := by
    apply Nat.mul_pos hp; split <;> omega
  rw [List.append_nil] at this
  rw [if_neg (by simp; omega), if_neg (by simp; omega)] at this
  exact ⟨this.2, this.1⟩

/-- A network header with hopping. -/
def Sample.netHeader : Net.Header :=
  ⟨⟨true, true, .uId, .aesCcm32⟩, some ⟨true, .nbId⟩, ⟨2, 1⟩, .uId 0x0011223344556677⟩
/-- A foreground frame around a command. -/
def Sample.foreground (length : U32) (c : Command) : ForegroundFrame :=
  ⟨⟨⟨length⟩, 0x55, ⟨.noId, 33⟩, .noId⟩, ⟨Sample.netHeader, ⟨Sample.transHeader, c⟩⟩, 0xBEEF⟩

instance (h : Net.Header) : Decidable h.WF := by unfold Net.Header.WF; infer_instance
instance (cfg : Cfg) (f : Net.Frame) : Decidable (f.WF cfg) := by unfold Net.Frame.WF; infer_instance
instance (h : ForegroundHeader) : Decidable h.WF := by unfold ForegroundHeader.WF; infer_instance
instance (cfg : Cfg) (f : ForegroundFrame) : Decidable (f.WF cfg) := by
  unfold ForegroundFrame.WF; infer_instance

/-- **C34** fails in every wizzilab build, whichever byte one takes for the end of the command (it ends
within one): neither the empty command nor a request for a file comes back. -/
theorem C34_wizzilab_violates (cfg : Cfg) (hv : cfg.variant = .wizzilab) :
    ∀ p ∈ [(22, ⟨[]⟩), (23, ⟨[]⟩), (28, ⟨[Sample.readData]⟩), (29, ⟨[Sample.readData]⟩)],
      (Sample.foreground p.1 p.2).WF cfg ∧
      (match (Sample.foreground p.1 p.2).toBytes cfg with
        | .ok bytes => decide (p.1.toNat + 2 ≤ bytes.length ∧ bytes.length ≤ p.1.toNat + 3 ∧
            ForegroundFrame.tryFrom cfg bytes ≠ .ok (Sample.foreground p.1 p.2))
        | .error _ => false) = true := by
  rcases cfg with ⟨v, a, b, c, d⟩
  cases hv
  cases a <;> cases b <;> cases c <;> cases d <;> decide +kernel

/-! The theorems apply to a frame holding seven actions and to one holding none. -/

example : (Sample.foreground 113 Sample.command).WF Sample.spec ∧
    (match (Sample.foreground 113 Sample.command).toBytes Sample.spec with
      | .ok bytes => decide (bytes.length = 115 ∧
          ForegroundFrame.tryFrom Sample.spec bytes = .error (.fault .parse) ∧
          ForegroundFrame.fromBytes Sample.spec (bytes ++ [1, 2, 3, 4, 5, 6, 7, 8, 9], 0)
            = .ok (([8, 9], 0), Sample.foreground 113 Sample.command))
      | .error _ => false) = true := by decide +kernel
example : (Sample.foreground 23 ⟨[]⟩).WF Sample.spec' ∧
    (match (Sample.foreground 23 ⟨[]⟩).toBytes Sample.spec' with
      | .ok bytes => decide (bytes.length = 25 ∧
          ForegroundFrame.tryFrom Sample.spec' bytes = .ok (Sample.foreground 23 ⟨[]⟩))
      | .error _ => false) = true := by decide +kernel

#print axioms C34_partial
#print axioms C34_empty_partial
#print axioms C34_nonempty_violates
#print axioms C34_wizzilab_violates

/-! ## C52: network frames -/

theorem P.run_bind {α β : Type} (p : P α) (f : α → P β) (r : Rd) :
    (p.bind f).run r = R.bind p.run (fun a => (f a).run) r := by
  induction p generalizing r with
  | pure a => rfl
  | fail e => rfl
  | bits n k ih =>
    simp only [P.bind, R.bind, P.run_bits]
    cases r.readBits n with
    | error e => rfl
    | ok q => exact ih _ _

/-- **C52** Which network frames come back from their encoding: in wizzilab builds those whose command
survives being read with a bit missing, in all others exactly those without any action. -/
theorem C52_partial (cfg : Cfg) (f : Net.Frame) (hw : f.WF cfg) :
    ∃ bytes, f.toBytes cfg = .ok bytes ∧
      (Net.Frame.tryFrom cfg bytes = .ok f ↔
        if cfg.variant = .wizzilab then Spec.survivesShift cfg.seekClears f.frame.command
        else f.frame.command.actions = []) := by
  by_cases hv : cfg.variant = .wizzilab
  · rw [if_pos hv]
    obtain ⟨nh, th, c⟩ := f
    obtain ⟨hn, ht, hc⟩ := hw
    dsimp only at hn ht hc ⊢
    obtain ⟨nb, hnb, hnd⟩ := Net.Header.rt (cfg := cfg) hn
    obtain ⟨tb, htb, htd⟩ := Trans.Header.rt ht
    have h0 := Net.Header.mod8 nh nb hnb
    rw [if_pos hv] at h0
    have h7 := Trans.Header.mod8 th tb htb
    obtain ⟨bs, hw2, h8, -⟩ := Reads.write hc.1
    have hwc : c.write cfg = .ok bs := hw2
    have hw3 : (Net.Frame.mk nh ⟨th, c⟩).write cfg = .ok (nb ++ tb ++ bs) := by
      simp only [Net.Frame.write, Trans.Frame.write, W.seq, hnb, htb, hwc, List.append_nil,
        List.append_assoc]
    have hlen : (nb ++ tb ++ bs).length % 8 = 7 := by simp; omega
    have hbb : bytesBits (packBits (nb ++ tb ++ bs)) = (nb ++ tb) ++ (bs ++ [false]) := by
      rw [bytesBits_pad7 hlen, List.append_assoc]
    refine ⟨packBits (nb ++ tb ++ bs), by rw [Net.Frame.toBytes, hw3]; rfl, ?_⟩
    have hboth : ((Net.Header.read cfg).bind fun n => Trans.Header.read.bind fun t => P.pure (n, t)).eval
        ((nb ++ tb) ++ (bs ++ [false])) = .ok ((nh, th), bs ++ [false]) := by
      rw [P.eval_bind, List.append_assoc, hnd]
      dsimp only
      rw [P.eval_bind, htd]
      rfl
    obtain ⟨r, hr, hok, hl, hrem, hbits, hdata⟩ := run_header7 hbb hboth (by simp; omega)
    have hsplit : ∀ L, Net.Frame.read cfg L (Rd.new (packBits (nb ++ tb ++ bs))) =
        match Command.read cfg L r with
        | .ok (c, r'') => .ok (⟨nh, ⟨th, c⟩⟩, r'')
        | .error e => .error e := by
      intro L
      rw [P.run_bind, R.bind] at hr
      split at hr
      · rename_i n1 r1 e1
        rw [P.run_bind, R.bind] at hr
        split at hr
        · rename_i t1 r2 e2
          cases hr
          unfold Net.Frame.read Trans.Frame.read
          simp only [R.bind_eq, R.bind, e1, e2]
          cases Command.read cfg L r with
          | error e => rfl
          | ok p => rfl
        · cases hr
      · cases hr
    have hdl := congrArg List.length hbb
    rw [bytesBits_length] at hdl
    simp only [List.length_append] at hdl hbits
    rw [← Command.read_shift_iff hok hl hc hwc hrem (by omega)]
    have hcount : (r.bitsRead + bs.length + 1) / 8 = (packBits (nb ++ tb ++ bs)).length := by
      simp only [List.length_singleton] at hdl; omega
    rw [hcount]
    unfold Net.Frame.tryFrom derivedTryFrom
    rw [hsplit]
    constructor
    · intro h0
      split at h0
      · cases h0
      · rename_i f' r' hx
        split at hx
        · rename_i c' r'' hx'
          cases hx
          split at h0
          · cases h0
          · cases h0
            exact ⟨_, hx', by omega⟩
        · cases hx
    · rintro ⟨r', h1, h2⟩
      rw [h1]
      simp only [h2]
      simp
  · rw [if_neg hv]
    obtain ⟨bs, hb, h8, -, hrun⟩ := Net.read_all hv hw
    obtain ⟨bytes, hby, hbits⟩ := W.toBytes_ok hb h8
    refine ⟨bytes, hby, ?_⟩
    obtain ⟨r', hr', hbr⟩ := hrun (Rd.new bytes) (Rd.new_con _) (by simp) (by rw [Rd.new_rem, hbits])
    unfold Net.Frame.tryFrom derivedTryFrom
    rw [hr']
    dsimp only
    have hlen := congrArg List.length hbits
    rw [bytesBits_length] at hlen
    rw [show (Rd.new bytes).bitsRead = 0 from rfl] at hbr
    have hdiv : r'.bitsRead / 8 = bytes.length + f.frame.command.actions.length * (1 + cfg.endCostBytes) := by
      omega
    rw [hdiv]
    constructor
    · intro h
      split at h
      · cases h
      · rename_i hz
        have hz : f.frame.command.actions.length * (1 + cfg.endCostBytes) = 0 := by omega
        rcases Nat.mul_eq_zero.1 hz with h | h
        · exact List.eq_nil_of_length_eq_zero h
        · omega
    · intro h
      rw [h]
      simp

/-- **C52** fails in every build: a network frame asking for a file does not come back. -/
theorem C52_violates (cfg : Cfg) :
    (Net.Frame.mk Sample.netHeader Sample.transFrame).WF cfg ∧
    (match (Net.Frame.mk Sample.netHeader Sample.transFrame).toBytes cfg with
      | .ok bytes => decide (Net.Frame.tryFrom cfg bytes ≠ .ok ⟨Sample.netHeader, Sample.transFrame⟩)
      | .error _ => false) = true := by
  rcases cfg with ⟨v, a, b, c, d⟩
  cases v <;> cases a <;> cases b <;> cases c <;> cases d <;> decide +kernel

example : (Net.Frame.mk Sample.netHeader ⟨Sample.transHeader, ⟨[]⟩⟩).WF Sample.spec ∧
    (match (Net.Frame.mk Sample.netHeader ⟨Sample.transHeader, ⟨[]⟩⟩).toBytes Sample.spec with
      | .ok bytes => decide (Net.Frame.tryFrom Sample.spec bytes
          = .ok ⟨Sample.netHeader, ⟨Sample.transHeader, ⟨[]⟩⟩⟩)
      | .error _ => false) = true := by decide +kernel
example : (Net.Frame.mk Sample.netHeader Sample.transNop).WF Sample.wizzilab ∧
    (match (Net.Frame.mk Sample.netHeader Sample.transNop).toBytes Sample.wizzilab with
      | .ok bytes => decide (Net.Frame.tryFrom Sample.wizzilab bytes = .ok ⟨Sample.netHeader, Sample.transNop⟩)
      | .error _ => false) = true := by decide +kernel

#print axioms C52_partial
#print axioms C52_violates

end Dash7
