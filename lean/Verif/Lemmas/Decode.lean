import Verif.Lemmas.Action

/-!
# Actions on the concrete reader
-/

namespace Dash7

/-! ## The opcode in the encoding -/

theorem W.seq_cons_ok {w : W} {ws : List W} {bs : List Bool} :
    W.seq (w :: ws) = .ok bs ↔ ∃ b c, w = .ok b ∧ W.seq ws = .ok c ∧ bs = b ++ c := by
  constructor
  · intro h
    simp only [W.seq] at h
    split at h
    · cases h
    · rename_i b
      split at h
      · cases h
      · rename_i c hc
        cases h
        exact ⟨b, c, rfl, hc, rfl⟩
  · rintro ⟨b, c, rfl, hc, rfl⟩
    simp only [W.seq, hc]

/-- Two bits, then the opcode. -/
def Head2 (n : Nat) (w : W) : Prop :=
  ∀ bs, w = .ok bs → ∃ h t, h.length = 2 ∧ bs = h ++ (natBits 6 n ++ t)

theorem Head2.one {w : W} {ws : List W} {op : OpCode} (h : ∀ b, w = .ok b → b.length = 2) :
    Head2 op.code.toNat (W.seq (w :: op.write :: ws)) := by
  intro bs hb
  obtain ⟨b, c, h1, h2, rfl⟩ := W.seq_cons_ok.1 hb
  obtain ⟨d, e, h3, h4, rfl⟩ := W.seq_cons_ok.1 h2
  cases h3
  exact ⟨b, e, h b h1, rfl⟩

theorem Head2.two {w w' : W} {ws : List W} {op : OpCode} (h : ∀ b, w = .ok b → b.length = 1)
    (h' : ∀ b, w' = .ok b → b.length = 1) :
    Head2 op.code.toNat (W.seq (w :: w' :: op.write :: ws)) := by
  intro bs hb
  obtain ⟨b, c, h1, h2, rfl⟩ := W.seq_cons_ok.1 hb
  obtain ⟨b', c', h1', h2', rfl⟩ := W.seq_cons_ok.1 h2
  obtain ⟨d, e, h3, h4, rfl⟩ := W.seq_cons_ok.1 h2'
  cases h3
  refine ⟨b ++ b', e, ?_, by simp⟩
  rw [List.length_append, h b h1, h' b' h1']

namespace Action

theorem opcode_toNat (a : Action) : a.opcode.code.toNat = Spec.opcodeOf a := by cases a <;> rfl

theorem write_head {cfg : Cfg} {a : Action} (h : a.isTx = false) :
    Head2 (Spec.opcodeOf a) (a.write cfg) := by
  have e2 : ∀ (x : ActionHeader) (b : List Bool), x.write = .ok b → b.length = 2 := by
    intro x b hb; cases hb; rfl
  rw [← opcode_toNat]
  cases a with
  | nop o =>
    simp only [write, Op.Nop.write]
    exact Head2.one (e2 _)
  | readFileData o =>
    simp only [write, Op.ReadFileData.write]
    exact Head2.one (e2 _)
  | readFileProperties o =>
    simp only [write, Op.FileId.write]
    exact Head2.one (e2 _)
  | writeFileData o =>
    simp only [write, Op.FileData.write]
    exact Head2.one (e2 _)
  | writeFileDataFlush o =>
    simp only [write, Op.FileData.write]
    exact Head2.one (e2 _)
  | writeFileProperties o =>
    simp only [write, Op.FileProperties.write]
    exact Head2.one (e2 _)
  | actionQuery o =>
    simp only [write, Op.ActionQuery.write]
    exact Head2.one (e2 _)
  | breakQuery o =>
    simp only [write, Op.ActionQuery.write]
    exact Head2.one (e2 _)
  | permissionRequest o =>
    simp only [write, Op.PermissionRequest.write]
    exact Head2.one (e2 _)
  | verifyChecksum o =>
    simp only [write, Op.ActionQuery.write]
    exact Head2.one (e2 _)
  | existFile o =>
    simp only [write, Op.FileId.write]
    exact Head2.one (e2 _)
  | createNewFile o =>
    simp only [write, Op.FileProperties.write]
    exact Head2.one (e2 _)
  | deleteFile o =>
    simp only [write, Op.FileId.write]
    exact Head2.one (e2 _)
  | restoreFile o =>
    simp only [write, Op.FileId.write]
    exact Head2.one (e2 _)
  | flushFile o =>
    simp only [write, Op.FileId.write]
    exact Head2.one (e2 _)
  | copyFile o =>
    simp only [write, Op.CopyFile.write]
    exact Head2.one (e2 _)
  | executeFile o =>
    simp only [write, Op.FileId.write]
    exact Head2.one (e2 _)
  | returnFileData o =>
    simp only [write, Op.FileData.write]
    exact Head2.one (e2 _)
  | returnFileProperties o =>
    simp only [write, Op.FileProperties.write]
    exact Head2.one (e2 _)
  | status o =>
    simp only [write, Op.StatusOperand.write]
    refine Head2.one ?_
    intro b hb; cases hb; rfl
  | responseTag o =>
    simp only [write, Op.ResponseTag.write]
    refine Head2.one ?_
    intro b hb; cases hb; rfl
  | txStatus o => cases h
  | chunk o =>
    simp only [write, Op.Chunk.write]
    refine Head2.one ?_
    intro b hb; cases hb; rfl
  | logic o =>
    simp only [write, Op.Logic.write]
    refine Head2.one ?_
    intro b hb; cases hb; rfl
  | forward o =>
    simp only [write, Op.Forward.write]
    refine Head2.two ?_ ?_ <;> (intro b hb; cases hb; rfl)
  | indirectForward o =>
    simp only [write, Op.IndirectForward.write]
    refine Head2.one ?_
    intro b hb; cases hb; rfl
  | requestTag o =>
    simp only [write, Op.RequestTag.write]
    refine Head2.two ?_ ?_ <;> (intro b hb; cases hb; rfl)
  | extension o =>
    simp only [write, Op.Extension.write]
    exact Head2.one (e2 _)

/-! ## Decoding from bits -/

/-- What reading an action from a byte boundary amounts to. -/
def decode (cfg : Cfg) (s : List Bool) : Except Err (Action × List Bool) :=
  if 8 ≤ s.length then (dispatch cfg (opAt 2 s)).eval s else .error .incomplete

theorem opAt_head {h t : List Bool} {op : OpCode} (h2 : h.length = 2) (hop : op.code.toNat < 64) :
    opAt 2 (h ++ (natBits 6 op.code.toNat ++ t)) = op := by
  have : (h ++ (natBits 6 op.code.toNat ++ t)).drop 2 = natBits 6 op.code.toNat ++ t := by
    rw [← h2, List.drop_left]
  rw [opAt, this, List.take_left' (natBits_length _ _), bitsNat_natBits_of_lt hop]
  cases op; simp

theorem opcodeOf_lt (a : Action) : Spec.opcodeOf a < 64 := by cases a <;> simp [Spec.opcodeOf]

theorem WF.isTx {cfg : Cfg} {a : Action} (h : a.WF cfg) : a.isTx = false := by
  cases a <;> first | rfl | exact h.2.elim

/-- Encoding and decoding a well-formed action, followed by anything. -/
theorem decode_write {cfg : Cfg} {a : Action} (h : a.WF cfg) :
    ∃ bs, a.write cfg = .ok bs ∧ 8 ∣ bs.length ∧ 8 ≤ bs.length ∧
      ∀ rest, decode cfg (bs ++ rest) = .ok (a, rest) := by
  obtain ⟨bs, hw, hd⟩ := rt h
  have hp := (dispatch_post cfg a.opcode bs [] a (hd [])).2
  refine ⟨bs, hw, hp.dvd h.isTx, hp.pos, fun rest => ?_⟩
  obtain ⟨x, t, hx, rfl⟩ := write_head h.isTx bs hw
  have h8 := hp.pos
  rw [decode, if_pos (by simp at h8 ⊢; omega), ← opcode_toNat, List.append_assoc, List.append_assoc,
    opAt_head hx (by rw [opcode_toNat]; exact opcodeOf_lt a)]
  have := hd rest
  rwa [List.append_assoc, List.append_assoc, ← opcode_toNat] at this

theorem decode_ok {cfg : Cfg} {s s' : List Bool} {a : Action} (h : decode cfg s = .ok (a, s')) :
    ∃ c, s = c ++ s' ∧ Decoded cfg a c.length ∧ Spec.opcodeOf a = (opAt 2 s).code.toNat ∧
      (a.isTx = false → a.opcodeField = opAt 2 s) ∧ (dispatch cfg (opAt 2 s)).eval s = .ok (a, s') ∧
      ∀ t, decode cfg (c ++ t) = .ok (a, t) := by
  unfold decode at h
  split at h
  · obtain ⟨c, rfl, hc⟩ := P.eval_ok _ h
    have hp := dispatch_post cfg _ _ _ _ h
    refine ⟨c, rfl, hp.2, hp.1, dispatch_opAt cfg _ h, h, fun t => ?_⟩
    have h8 := hp.2.pos
    have hop : opAt 2 (c ++ t) = opAt 2 (c ++ s') := by
      unfold opAt
      rw [List.drop_append_of_le_length (by omega), List.drop_append_of_le_length (by omega),
        List.take_append_of_le_length (by simp; omega), List.take_append_of_le_length (by simp; omega)]
    rw [decode, if_pos (by simp; omega), hop]
    exact hc t
  · cases h

/-- A decoded action is well-formed unless it is one of the two exceptions. -/
theorem decode_wf {cfg : Cfg} {s s' : List Bool} {a : Action} (h : decode cfg s = .ok (a, s'))
    (h1 : a.isTx = false) (h2 : a.isOther = false) : a.WF cfg := by
  obtain ⟨c, rfl, hd, hop, hf, -⟩ := decode_ok h
  exact ⟨by rw [hf h1, hop], hd.wf h1 h2⟩

theorem decode_fault {cfg : Cfg} {s : List Bool} {f : Fault}
    (h : decode cfg s = .error (.fault f)) :
    8 ≤ s.length ∧ (f = .parse ∨
      (f = .invalidParam ∧ dispatch cfg (opAt 2 s) = P.fail .invalidParam)) := by
  unfold decode at h
  split at h
  · rename_i h8
    exact ⟨h8, dispatch_safe cfg _ h⟩
  · cases h

/-! ## The concrete reader -/

theorem opcode_eval {s : List Bool} (h : 6 ≤ s.length) :
    OpCode.read.eval s = .ok (⟨BitVec.ofNat 8 (bitsNat (s.take 6))⟩, s.drop 6) := by
  unfold OpCode.read
  simp only [P.bind_eq]
  rw [P.eval_bind, P.uint, if_neg (by omega), P.eval_bits, if_pos h]
  rfl

theorem opcode_eval_err {s : List Bool} (h : s.length < 6) :
    OpCode.read.eval s = .error .incomplete := by
  unfold OpCode.read
  simp only [P.bind_eq]
  rw [P.eval_bind, P.uint, if_neg (by omega), P.eval_bits, if_neg (by omega)]

theorem pad_eval {s : List Bool} {n : Nat} (h : n ≤ s.length) :
    (P.pad n).eval s = .ok ((), s.drop n) := by
  rw [P.pad, P.eval_bits, if_pos h]; rfl

theorem pad_eval_err {s : List Bool} {n : Nat} (h : s.length < n) :
    (P.pad n).eval s = .error .incomplete := by
  rw [P.pad, P.eval_bits, if_neg (by omega)]

theorem read_short {cfg : Cfg} {r : Rd} (h : r.OK) (h8 : r.rem.length < 8) :
    read cfg r = .error .incomplete := by
  simp only [read, R.bind_eq, R.bind]
  by_cases h2 : 2 ≤ r.rem.length
  · obtain ⟨r1, n, hr1, st1, hrem, hn⟩ := P.run_ok (P.pad 2) h (pad_eval h2)
    have : OpCode.read.run r1 = .error .incomplete :=
      P.run_err _ st1.ok (opcode_eval_err (by rw [hrem, List.length_drop]; omega))
    rw [hr1]
    dsimp only
    rw [this]
  · rw [P.run_err (P.pad 2) h (pad_eval_err (by omega))]

theorem read_state {cfg : Cfg} {r : Rd} (h : r.OK) (h8 : 8 ≤ r.rem.length) :
    ∃ r2, read cfg r = (dispatch cfg (opAt 2 r.rem)).run r2 ∧ r2.OK ∧ r2.data = r.data ∧
      r2.rem.length ≤ r.rem.length ∧ r2.bitsRead = r.bitsRead + 8 ∧
      (r.Con → 8 ∣ r.cur → r2.Con ∧ r2.rem = r.rem ∧ r2.cur = r.cur ∧ r2.left = []) := by
  obtain ⟨r0, n0, hr0, st0, hrem0, hn0⟩ := P.run_ok (P.pad 2) h (pad_eval (n := 2) (by omega))
  obtain ⟨r1, n1, hr1, st1, hrem1, hn1⟩ := P.run_ok OpCode.read st0.ok
    (opcode_eval (s := r0.rem) (by rw [hrem0, List.length_drop]; omega))
  rw [List.length_drop] at hn0
  rw [List.length_drop, hrem0, List.length_drop] at hn1
  obtain rfl : n0 = 2 := by omega
  obtain rfl : n1 = 6 := by omega
  have hleft : r1.left.length < 8 := st1.left_lt st0.ok (by omega)
  have hcur : r1.cur = r.cur + 8 := by rw [st1.cur, st0.cur]
  have hl8 := st1.ok.left8
  have hp1 := st1.ok.pos_le
  refine ⟨{ r1 with pos := r1.pos - 1, left := if cfg.seekClears then [] else r1.left }, ?_, ?_, ?_,
    ?_, ?_, ?_⟩
  · simp only [read, R.bind_eq, R.bind]
    rw [hr0]
    dsimp only
    rw [hr1]
    dsimp only
    rw [hrem0]
    rfl
  · refine ⟨?_, ?_, ?_⟩
    · dsimp only; omega
    · dsimp only; split
      · simp
      · omega
    · dsimp only
      intro hne
      have : r1.left ≠ [] := by
        intro h0; rw [h0] at hne; simp at hne
      have : 0 < r1.left.length := List.length_pos_iff.2 this
      simp only [Rd.cur] at hcur
      omega
  · exact st1.data.trans st0.data
  · have e1 := st1.ok.rem_cur
    have e0 := h.rem_cur
    rw [st1.data, st0.data] at e1
    rw [Rd.rem_length]
    dsimp only
    have hd : r1.data.length = r.data.length := by rw [st1.data, st0.data]
    have : (if cfg.seekClears = true then [] else r1.left).length ≤ r1.left.length := by
      split <;> simp
    simp only [Rd.cur] at *
    omega
  · dsimp only; rw [st1.bitsRead, st0.bitsRead]
  · intro hcon h8c
    have hl0 : r1.left = [] := by
      apply List.eq_nil_of_length_eq_zero
      have : r1.cur = 8 * r1.pos - r1.left.length := rfl
      omega
    have hleq : (if cfg.seekClears = true then [] else r1.left) = [] := by
      rw [hl0]; simp
    have hd : r1.data = r.data := st1.data.trans st0.data
    have hc0 : 8 * (r1.pos - 1) = r.cur := by
      simp only [Rd.cur, hl0, List.length_nil] at hcur ⊢; omega
    rw [hleq]
    have hrem : (Rd.mk r1.data (r1.pos - 1) [] r1.bitsRead).rem = r.rem := by
      rw [hcon.rem_eq]
      simp only [Rd.rem, List.nil_append, hd]
      rw [bytesBits_drop, hc0]
    have hcur2 : (Rd.mk r1.data (r1.pos - 1) [] r1.bitsRead).cur = r.cur := by
      simp only [Rd.cur, List.length_nil]; simp only [Rd.cur] at hc0; omega
    refine ⟨⟨⟨?_, by simp, by simp⟩, ?_⟩, hrem, hcur2, rfl⟩
    · dsimp only; omega
    · rw [hrem, hcur2, hcon.rem_eq, hd]

/-- A reader at a byte boundary, nothing kept back. -/
structure _root_.Dash7.Rd.Aligned (r : Rd) : Prop extends r.Con where
  dvd : 8 ∣ r.cur

theorem _root_.Dash7.Rd.new_aligned (data : List U8) : (Rd.new data).Aligned :=
  ⟨Rd.new_con data, by simp⟩

theorem read_aligned_ok {cfg : Cfg} {r : Rd} (h : r.Aligned) {a : Action} {s' : List Bool}
    (hd : decode cfg r.rem = .ok (a, s')) :
    ∃ r', read cfg r = .ok (a, r') ∧ r'.Con ∧ r'.rem = s' ∧ r'.data = r.data ∧
      r'.left.length < 8 ∧ r'.cur + s'.length = r.cur + r.rem.length ∧
      r'.bitsRead + s'.length = r.bitsRead + 8 + r.rem.length := by
  have h8 : 8 ≤ r.rem.length := by
    unfold decode at hd
    split at hd
    · assumption
    · cases hd
  obtain ⟨r2, hr, hok, hdata, -, hbits, hal⟩ := read_state (cfg := cfg) h.toOK h8
  obtain ⟨hcon, hrem, hcur, hleft⟩ := hal h.toCon h.dvd
  rw [decode, if_pos h8, ← hrem] at hd
  obtain ⟨r', n, hr', st, hrem', hn⟩ := P.run_ok _ hok hd
  rw [hrem] at hr' hn
  refine ⟨r', hr.trans hr', st.con hcon, hrem', st.data.trans hdata, ?_, ?_, ?_⟩
  · rcases st.left with h0 | h0
    · rw [hleft, List.length_nil] at h0; omega
    · exact h0
  · rw [st.cur]; omega
  · rw [st.bitsRead]; omega

theorem read_aligned_err {cfg : Cfg} {r : Rd} (h : r.Aligned) {e : Err}
    (hd : decode cfg r.rem = .error e) : read cfg r = .error e := by
  unfold decode at hd
  split at hd
  · rename_i h8
    obtain ⟨r2, hr, hok, hdata, -, hbits, hal⟩ := read_state (cfg := cfg) h.toOK h8
    obtain ⟨hcon, hrem, hcur⟩ := hal h.toCon h.dvd
    rw [hr]
    exact P.run_err _ hok (by rw [hrem]; exact hd)
  · cases hd
    exact read_short h.toOK (by omega)

/-- Reading an action from any state: what is known of the result. -/
theorem read_ok {cfg : Cfg} {r r' : Rd} (h : r.OK) {a : Action} (hr : read cfg r = .ok (a, r')) :
    ∃ n, r'.OK ∧ r'.data = r.data ∧ n + r'.rem.length ≤ r.rem.length ∧ Decoded cfg a n := by
  by_cases h8 : 8 ≤ r.rem.length
  · obtain ⟨r2, hr2, hok, hdata, hle, hbits, -⟩ := read_state (cfg := cfg) h h8
    rw [hr2] at hr
    obtain ⟨he, n, st, hn⟩ := P.run_ok' _ hok hr
    obtain ⟨c, hc, -⟩ := P.eval_ok _ he
    rw [hc] at he
    have hp := (dispatch_post cfg _ _ _ _ he).2
    have : c.length = n := by
      have := congrArg List.length hc
      simp at this; omega
    exact ⟨n, st.ok, st.data.trans hdata, by omega, this ▸ hp⟩
  · rw [read_short h (by omega)] at hr; cases hr

theorem read_fault {cfg : Cfg} {r : Rd} (h : r.OK) {f : Fault}
    (hr : read cfg r = .error (.fault f)) : f = .parse ∨ f = .invalidParam := by
  by_cases h8 : 8 ≤ r.rem.length
  · obtain ⟨r2, hr2, hok, hdata, hle, hbits, -⟩ := read_state (cfg := cfg) h h8
    rw [hr2] at hr
    rcases dispatch_safe cfg _ (P.run_err' _ hok hr) with h | h
    · exact .inl h
    · exact .inr h.1
  · rw [read_short h (by omega)] at hr; cases hr

theorem read_ext (cfg : Cfg) : (read cfg).Ext := by
  unfold read
  exact (P.run_ext _).bind fun _ => (P.run_ext _).bind fun _ => (R.seekBack_ext cfg).bind fun _ =>
    P.run_ext _

end Action
end Dash7
