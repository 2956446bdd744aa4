import Verif.Lemmas.Frame

/-!
# The reading loop under a length limit
-/

namespace Dash7

namespace Command

theorem validLength_fresh {cfg : Cfg} {L : U32} {r : Rd} (h : r.Fresh) (hL : L.toNat ≠ 0) :
    validLength cfg L r = .ok (decide (r.pos < L.toNat), r) := by
  unfold validLength
  rw [if_neg hL]
  simp only [R.bind, R.streamPosition, R.pure]
  have : (if cfg.seekClears = true then [] else r.left) = r.left := by
    split
    · exact h.left.symm
    · rfl
  rw [this]

/-- Actions filling exactly the bytes up to the limit are read, and nothing else. -/
theorem loop_limit {cfg : Cfg} {L : U32} {fuel : Nat} {bs : List Action} {s s' : List Bool}
    (hR : Reads cfg bs s s') {acc : List Action} {r : Rd} (h : r.Fresh) (hs : r.rem = s)
    (hL0 : L.toNat ≠ 0) (hL : 8 * r.data.length = 8 * L.toNat + s'.length)
    (hi : ∀ a ∈ (acc ++ bs).dropLast, a.isIndirectForward = false) :
    ∃ r', loop cfg L (fuel + bs.length + 1) acc r = .ok (acc ++ bs, r') ∧ r'.Fresh ∧
      r'.rem = s' ∧ r'.data = r.data ∧
      r'.bitsRead + s'.length = r.bitsRead + s.length + bs.length * (8 + cfg.endCost) := by
  have hcur : ∀ {r : Rd}, r.Fresh → 8 * r.data.length = 8 * r.pos + r.rem.length := by
    intro r h
    have := h.toOK.rem_cur
    rw [Rd.cur, h.left] at this
    simp at this; omega
  induction hR generalizing acc r with
  | nil s =>
    refine ⟨r, ?_, h, hs, rfl, by simp⟩
    have := hcur h
    rw [hs] at this
    have hp : ¬ r.pos < L.toNat := by omega
    rw [loop_succ, validLength_fresh h hL0]
    simp [hp]
  | @cons a as s s1 s' hd ht hR' ih =>
    subst hs
    obtain ⟨c, hc, hdec, -⟩ := Action.decode_ok hd
    have hpos := hdec.pos
    have h8 := hdec.dvd ht
    have hne : r.rem ≠ [] := by
      intro h0; rw [h0] at hc
      have := congrArg List.length hc
      simp at this; omega
    have hlen : r.rem.length = c.length + s1.length := by rw [hc]; simp
    obtain ⟨c', hc', -, -⟩ := hR'.length
    have hlen' : s1.length = c'.length + s'.length := by rw [hc']; simp
    have hp : r.pos < L.toNat := by have := hcur h; omega
    obtain ⟨r1, hr1, ha, hrem, hdata, hcur1, hb⟩ := R.atEnd_fresh (cfg := cfg) h hne
    obtain ⟨r2, hr2, hcon, hrem2, hdata2, hl2, hcur2, hb2⟩ :=
      Action.read_aligned_ok (cfg := cfg) ha (by rw [hrem]; exact hd)
    have hf2 : r2.Fresh := hcon.fresh hl2 (by
      have := ha.dvd
      rw [hrem] at hcur2
      omega)
    obtain ⟨r', hr', hf', hrem', hdata', hb'⟩ := ih (acc := acc ++ [a]) hf2 hrem2
      (by rw [hdata2, hdata]; exact hL) (by simpa using hi)
    refine ⟨r', ?_, hf', hrem', hdata'.trans (hdata2.trans hdata), ?_⟩
    · rw [List.length_cons, ← Nat.add_assoc, loop_succ, validLength_fresh h hL0]
      simp only [hp, decide_true, Bool.true_eq_false, if_false]
      rw [hr1]
      simp only [Bool.false_eq_true, if_false, endsIndirect_false hi]
      rw [hr2]
      simp only
      rw [hr', List.append_assoc]
      rfl
    · rw [List.length_cons, Nat.succ_mul]
      rw [hrem] at hb2
      omega

end Command

/-- Running a header and keeping track of the state. -/
theorem P.run_con {α : Type} {p : P α} {r : Rd} {a : α} {c s : List Bool} (h : r.Con)
    (hs : r.rem = c ++ s) (he : p.eval (c ++ s) = .ok (a, s)) (hpos : 0 < c.length) :
    ∃ r', p.run r = .ok (a, r') ∧ r'.Con ∧ r'.rem = s ∧ r'.data = r.data ∧ r'.left.length < 8 ∧
      r'.cur = r.cur + c.length ∧ r'.bitsRead = r.bitsRead + c.length := by
  obtain ⟨r', n, hr, st, hrem, hn⟩ := P.run_ok p h.toOK (by rw [hs]; exact he)
  have hn : n = c.length := by rw [hs] at hn; simp at hn; omega
  subst hn
  exact ⟨r', hr, st.con h, hrem, st.data, st.left_lt h.toOK hpos, st.cur, st.bitsRead⟩

/-- The fixed parts of a network frame, outside wizzilab builds: a whole number of bytes in all. -/
theorem Net.heads {cfg : Cfg} (hv : cfg.variant ≠ .wizzilab) {f : Net.Frame} (hn : f.header.WF)
    (ht : f.frame.header.WF) :
    ∃ nb tb, f.header.write cfg = .ok nb ∧ f.frame.header.write = .ok tb ∧ 8 ∣ nb.length + tb.length ∧
      0 < nb.length ∧ ∀ (r : Rd) (s : List Bool) (L : U32), r.Con → 8 ∣ r.cur → r.rem = nb ++ (tb ++ s) →
        ∃ r', r'.Fresh ∧ r'.rem = s ∧ r'.data = r.data ∧
          r'.bitsRead = r.bitsRead + nb.length + tb.length ∧
          Net.Frame.read cfg L r = match Command.read cfg L r' with
            | .ok (c, r'') => .ok (⟨f.header, ⟨f.frame.header, c⟩⟩, r'')
            | .error e => .error e := by
  obtain ⟨nb, hnb, hnd⟩ := Net.Header.rt (cfg := cfg) hn
  obtain ⟨tb, htb, htd⟩ := Trans.Header.rt ht
  have h1 := Net.Header.mod8 f.header nb hnb
  rw [if_neg hv] at h1
  have h7 := Trans.Header.mod8 f.frame.header tb htb
  refine ⟨nb, tb, hnb, htb, by omega, by omega, fun r s L hr hc hs => ?_⟩
  obtain ⟨r1, e1, c1, m1, d1, -, u1, b1⟩ := P.run_con hr hs (hnd _) (by omega)
  obtain ⟨r2, e2, c2, m2, d2, l2, u2, b2⟩ := P.run_con c1 m1 (htd _) (by omega)
  refine ⟨r2, c2.fresh l2 (by omega), m2, d2.trans d1, by omega, ?_⟩
  unfold Net.Frame.read Trans.Frame.read
  simp only [R.bind_eq, R.bind, e1, e2]
  cases Command.read cfg L r2 with
  | error e => rfl
  | ok p => rfl

/-- A network frame up to the limit. -/
theorem Net.read_limit {cfg : Cfg} (hv : cfg.variant ≠ .wizzilab) {f : Net.Frame} (hw : f.WF cfg) :
    ∃ bs, f.write cfg = .ok bs ∧ 8 ∣ bs.length ∧ 0 < bs.length ∧
      ∀ (r : Rd) (s : List Bool) (L : U32), r.Con → 8 ∣ r.cur → r.rem = bs ++ s →
        8 * r.data.length = 8 * L.toNat + s.length →
        ∃ r', Net.Frame.read cfg L r = .ok (f, r') ∧ r'.Fresh ∧ r'.rem = s ∧ r'.data = r.data ∧
          r'.bitsRead = r.bitsRead + bs.length +
            8 * (f.frame.command.actions.length * (1 + cfg.endCostBytes)) := by
  obtain ⟨hn, ht, hc⟩ := hw
  obtain ⟨nb, tb, hnb, htb, h8, hp, hrun⟩ := Net.heads hv hn ht
  obtain ⟨cb, hcb, hc8, hR⟩ := Reads.write hc.1
  have hcb' : f.frame.command.write cfg = .ok cb := hcb
  refine ⟨nb ++ (tb ++ cb), ?_, by simp; omega, by simp; omega, ?_⟩
  · simp only [Net.Frame.write, Trans.Frame.write, W.seq, hnb, htb, hcb', List.append_nil]
  · intro r s L hr hcur hrem hL
    obtain ⟨r1, hf, hrem1, hd1, hb1, hread⟩ := hrun r (cb ++ s) L hr hcur (by rw [hrem]; simp)
    have hlen := hr.toOK.rem_cur
    rw [hrem] at hlen
    simp only [List.length_append] at hlen
    have hlen1 := hf.toOK.rem_cur
    rw [hrem1, hd1] at hlen1
    simp only [List.length_append] at hlen1
    obtain ⟨_, hcc, -, hnum⟩ := (hR s).length
    have hnum' : 8 * f.frame.command.actions.length ≤ cb.length := by
      have := congrArg List.length hcc
      simp at this; omega
    obtain ⟨k, hk⟩ : ∃ k, r1.data.length + 1 = k + f.frame.command.actions.length + 1 :=
      ⟨r1.data.length - f.frame.command.actions.length, by rw [hd1]; omega⟩
    obtain ⟨r', hr', hf', hrem', hd', hb'⟩ := Command.loop_limit (L := L) (fuel := k) (acc := []) (hR s)
      hf hrem1 (by omega) (by rw [hd1]; exact hL) hc.2
    refine ⟨r', ?_, hf', hrem', hd'.trans hd1, ?_⟩
    · rw [hread]
      unfold Command.read
      rw [hk]
      simp only [R.bind, hr']
      rfl
    · have hm : f.frame.command.actions.length * (8 + cfg.endCost)
          = 8 * (f.frame.command.actions.length * (1 + cfg.endCostBytes)) := by
        rw [cfg.endCost_eq, Nat.mul_left_comm]; congr 1; omega
      rw [hm] at hb'
      simp only [List.length_append] at hb' ⊢
      omega

/-- A network frame filling the input, without limit. -/
theorem Net.read_all {cfg : Cfg} (hv : cfg.variant ≠ .wizzilab) {f : Net.Frame} (hw : f.WF cfg) :
    ∃ bs, f.write cfg = .ok bs ∧ 8 ∣ bs.length ∧ 0 < bs.length ∧
      ∀ (r : Rd), r.Con → 8 ∣ r.cur → r.rem = bs →
        ∃ r', Net.Frame.read cfg 0 r = .ok (f, r') ∧
          r'.bitsRead = r.bitsRead + bs.length +
            8 * (f.frame.command.actions.length * (1 + cfg.endCostBytes)) := by
  obtain ⟨hn, ht, hc⟩ := hw
  obtain ⟨nb, tb, hnb, htb, h8, hp, hrun⟩ := Net.heads hv hn ht
  obtain ⟨cb, hcb, hc8, hR⟩ := Reads.write hc.1
  have hcb' : f.frame.command.write cfg = .ok cb := hcb
  refine ⟨nb ++ (tb ++ cb), ?_, by simp; omega, by simp; omega, ?_⟩
  · simp only [Net.Frame.write, Trans.Frame.write, W.seq, hnb, htb, hcb', List.append_nil]
  · intro r hr hcur hrem
    obtain ⟨r1, hf, hrem1, hd1, hb1, hread⟩ := hrun r cb 0 hr hcur hrem
    have hlen1 := hf.toOK.rem_cur
    rw [hrem1] at hlen1
    have hR' := hR []
    rw [List.append_nil] at hR'
    obtain ⟨_, hcc, -, hnum⟩ := hR'.length
    have hnum' : 8 * f.frame.command.actions.length ≤ cb.length := by
      have := congrArg List.length hcc
      simp at this; omega
    obtain ⟨k, hk⟩ : ∃ k, r1.data.length + 1 = k + 1 + f.frame.command.actions.length :=
      ⟨r1.data.length - f.frame.command.actions.length, by omega⟩
    obtain ⟨r', hr', hf', hrem', hd', hb'⟩ := Command.loop_reads (fuel := k + 1) (acc := []) hR'
      hf hrem1 hc.2
    refine ⟨r', ?_, ?_⟩
    · rw [hread]
      unfold Command.read
      rw [hk]
      simp only [R.bind, hr', Command.loop_nil hrem']
      rfl
    · have hm : f.frame.command.actions.length * (8 + cfg.endCost)
          = 8 * (f.frame.command.actions.length * (1 + cfg.endCostBytes)) := by
        rw [cfg.endCost_eq, Nat.mul_left_comm]; congr 1; omega
      rw [hm] at hb'
      simp only [List.length_append, List.length_nil] at hb' ⊢
      omega

end Dash7
