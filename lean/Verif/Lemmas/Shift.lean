import Verif.Lemmas.Command
import Verif.Lemmas.Exact
import Verif.Lemmas.Reserved
import Verif.Spec.Frames

/-!
# Commands that do not start at a byte boundary

The header of a transport frame has 7 bits modulo 8, so the command behind it is read with one bit kept
back. Reading the opcode and seeking back one byte then does not restore the position.
-/

namespace Dash7

/-! ## Readers that store the first bit -/

/-- If the result is written with first bit `x`, then reading with `x` in front gives the same. -/
def First {α : Type} (p : P α) (w : α → W) : Prop :=
  ∀ y x tl a s' bs, p.eval (y :: tl) = .ok (a, s') → w a = .ok (x :: bs) → p.eval (x :: tl) = .ok (a, s')

theorem Took.triv {α : Type} {p : P α} : Took p fun _ _ => True := fun _ _ _ _ => trivial

theorem First.of {α : Type} {p : P α} {w : α → W} (hd : α → W)
    (ht : Took p fun a c => ∃ h d, hd a = .ok h ∧ h ≠ [] ∧ c = h ++ d)
    (hw : ∀ a bs, w a = .ok bs → ∃ h t, hd a = .ok h ∧ bs = h ++ t) : First p w := by
  intro y x tl a s' bs he hb
  obtain ⟨c, hc, -⟩ := P.eval_ok _ he
  obtain ⟨h, d, h1, h2, rfl⟩ := ht c s' a (by rw [← hc]; exact he)
  obtain ⟨h', t, h3, h4⟩ := hw a _ hb
  rw [h1] at h3
  cases h3
  cases h with
  | nil => exact absurd rfl h2
  | cons z h =>
    simp only [List.cons_append, List.cons.injEq] at hc h4
    rw [h4.1, ← hc.1]
    exact he

theorem First.map {α β : Type} {p : P α} {w : α → W} {mk : α → β} {w' : β → W} (h : First p w)
    (hm : ∀ a, w' (mk a) = w a) : First (p.bind fun a => P.pure (mk a)) w' := by
  intro y x tl b s' bs he hb
  rw [P.eval_bind] at he ⊢
  split at he
  · rename_i a s1 h1
    simp only [P.eval_pure, Except.ok.injEq, Prod.mk.injEq] at he
    obtain ⟨rfl, rfl⟩ := he
    rw [hm] at hb
    rw [h _ _ _ _ _ _ h1 hb]
    rfl
  · cases he

theorem ActionHeader.exact : Exact read write :=
  Took.bind Took.flag fun _ _ h1 => Took.bind Took.flag fun _ _ h2 => Took.pure
    (W.seq_exact h1 (W.seq_exact h2 rfl))

theorem Op.ResponseTagHeader.exact : Exact read write :=
  Took.bind Took.flag fun _ _ h1 => Took.bind Took.flag fun _ _ h2 => Took.pure
    (W.seq_exact h1 (W.seq_exact h2 rfl))

theorem Op.IndirectForwardHeader.exact : Exact read write :=
  Took.bind Took.flag fun _ _ h1 => Took.bind Took.flag fun _ _ h2 => Took.pure
    (W.seq_exact h1 (W.seq_exact h2 rfl))

theorem Op.StatusType.exact : Exact read write :=
  Took.enum (by
    intro i e hi h
    unfold ofId at h
    split at h <;> first
      | (cases h; rename_i h; exact BitVec.eq_of_toNat_eq h.symm)
      | cases h)

theorem Op.ChunkStep.exact : Exact read write :=
  Took.enum (by
    intro i e hi h
    unfold ofId at h
    split at h <;> first
      | (cases h; rename_i h; exact BitVec.eq_of_toNat_eq h.symm)
      | cases h)

theorem Op.LogicOp.exact : Exact read write :=
  Took.enum (by
    intro i e hi h
    unfold ofId at h
    split at h <;> first
      | (cases h; rename_i h; exact BitVec.eq_of_toNat_eq h.symm)
      | cases h)

/-- The first field is stored: its reader is exact and writes something. -/
macro "op_first" hd:term "," ex:term "," ne:term : tactic => `(tactic| (
  refine First.of $hd ?_ ?_
  · refine Took.bind $ex fun h c hc => ?_
    (try simp only [P.bind_eq])
    repeat (with_reducible refine Took.bind Took.triv fun _ _ _ => ?_)
    refine Took.pure ?_
    exact ⟨c, _, hc, $ne hc, rfl⟩
  · intro o bs hb
    obtain ⟨b, c, h1, -, rfl⟩ := W.seq_cons_ok.1 hb
    exact ⟨b, c, h1, rfl⟩))

theorem W.uint2_ne {v : U8} {c : List Bool} (h : W.uint 2 v = .ok c) : c ≠ [] := by
  intro h0; subst h0
  simp only [W.uint] at h
  split at h
  · cases h
  · simp only [Except.ok.injEq] at h
    have := congrArg List.length h
    simp at this

namespace Op

theorem ActionHeader.write_ne {x : ActionHeader} {b : List Bool} (h : x.write = .ok b) : b ≠ [] := by
  cases h; simp
theorem ResponseTagHeader.write_ne {x : ResponseTagHeader} {b : List Bool} (h : x.write = .ok b) :
    b ≠ [] := by cases h; simp
theorem IndirectForwardHeader.write_ne {x : IndirectForwardHeader} {b : List Bool}
    (h : x.write = .ok b) : b ≠ [] := by cases h; simp
theorem flag_ne {x : Bool} {b : List Bool} (h : W.flag x = .ok b) : b ≠ [] := by cases h; simp

theorem Nop.first (op : OpCode) : First Nop.read (Nop.write op) := by
  op_first (fun o => o.header.write), ActionHeader.exact, ActionHeader.write_ne
theorem ReadFileData.first (op : OpCode) : First ReadFileData.read (ReadFileData.write op) := by
  op_first (fun o => o.header.write), ActionHeader.exact, ActionHeader.write_ne
theorem FileId.first (op : OpCode) : First FileId.read (FileId.write op) := by
  op_first (fun o => o.header.write), ActionHeader.exact, ActionHeader.write_ne
theorem FileData.first (cfg : Cfg) (op : OpCode) : First (FileData.read cfg) (FileData.write cfg op) := by
  op_first (fun o => o.header.write), ActionHeader.exact, ActionHeader.write_ne
theorem FileProperties.first (op : OpCode) : First FileProperties.read (FileProperties.write op) := by
  op_first (fun o => o.header.write), ActionHeader.exact, ActionHeader.write_ne
theorem ActionQuery.first (op : OpCode) : First ActionQuery.read (ActionQuery.write op) := by
  op_first (fun o => o.header.write), ActionHeader.exact, ActionHeader.write_ne
theorem PermissionRequest.first (op : OpCode) :
    First PermissionRequest.read (PermissionRequest.write op) := by
  op_first (fun o => o.header.write), ActionHeader.exact, ActionHeader.write_ne
theorem CopyFile.first (op : OpCode) : First CopyFile.read (CopyFile.write op) := by
  op_first (fun o => o.header.write), ActionHeader.exact, ActionHeader.write_ne
theorem StatusOperand.first (cfg : Cfg) (op : OpCode) :
    First (StatusOperand.read cfg) (StatusOperand.write cfg op) := by
  op_first (fun o => o.statusType.write), StatusType.exact, W.uint2_ne
theorem ResponseTag.first (op : OpCode) : First ResponseTag.read (ResponseTag.write op) := by
  op_first (fun o => o.header.write), ResponseTagHeader.exact, ResponseTagHeader.write_ne
theorem Chunk.first (op : OpCode) : First Chunk.read (Chunk.write op) := by
  op_first (fun o => o.step.write), ChunkStep.exact, W.uint2_ne
theorem Logic.first (op : OpCode) : First Logic.read (Logic.write op) := by
  op_first (fun o => o.logic.write), LogicOp.exact, W.uint2_ne
theorem IndirectForward.first (cfg : Cfg) (op : OpCode) :
    First (IndirectForward.read cfg) (IndirectForward.write cfg op) := by
  op_first (fun o => o.header.write), IndirectForwardHeader.exact, IndirectForwardHeader.write_ne
theorem RequestTag.first (op : OpCode) : First RequestTag.read (RequestTag.write op) := by
  op_first (fun o => W.flag o.endOfPacket), Took.flag, flag_ne
theorem Extension.first (op : OpCode) : First Extension.read (Extension.write op) := by
  op_first (fun o => o.header.write), ActionHeader.exact, ActionHeader.write_ne

theorem Forward.first (cfg : Cfg) (op : OpCode) : First (Forward.read cfg) (Forward.write cfg op) := by
  intro y x tl a s' bs he _
  unfold Forward.read at he ⊢
  simp only [P.bind_eq] at he ⊢
  rw [P.eval_bind, Action.pad_eval (by simp)] at he ⊢
  exact he

end Op

theorem Action.dispatch_first (cfg : Cfg) (code : OpCode) {y x : Bool} {tl s' bs : List Bool}
    {a : Action} (h : (dispatch cfg code).eval (y :: tl) = .ok (a, s')) (ht : a.isTx = false)
    (hw : a.write cfg = .ok (x :: bs)) : (dispatch cfg code).eval (x :: tl) = .ok (a, s') := by
  unfold dispatch at h ⊢
  split at h
  · exact First.map (Op.Nop.first _) (w' := write cfg) (fun _ => rfl) _ _ _ _ _ _ h hw
  · exact First.map (Op.ReadFileData.first _) (w' := write cfg) (fun _ => rfl) _ _ _ _ _ _ h hw
  · exact First.map (Op.FileId.first _) (w' := write cfg) (fun _ => rfl) _ _ _ _ _ _ h hw
  · exact First.map (Op.FileData.first cfg _) (w' := write cfg) (fun _ => rfl) _ _ _ _ _ _ h hw
  · exact First.map (Op.FileData.first cfg _) (w' := write cfg) (fun _ => rfl) _ _ _ _ _ _ h hw
  · exact First.map (Op.FileProperties.first _) (w' := write cfg) (fun _ => rfl) _ _ _ _ _ _ h hw
  · exact First.map (Op.ActionQuery.first _) (w' := write cfg) (fun _ => rfl) _ _ _ _ _ _ h hw
  · exact First.map (Op.ActionQuery.first _) (w' := write cfg) (fun _ => rfl) _ _ _ _ _ _ h hw
  · exact First.map (Op.PermissionRequest.first _) (w' := write cfg) (fun _ => rfl) _ _ _ _ _ _ h hw
  · exact First.map (Op.ActionQuery.first _) (w' := write cfg) (fun _ => rfl) _ _ _ _ _ _ h hw
  · exact First.map (Op.FileId.first _) (w' := write cfg) (fun _ => rfl) _ _ _ _ _ _ h hw
  · exact First.map (Op.FileProperties.first _) (w' := write cfg) (fun _ => rfl) _ _ _ _ _ _ h hw
  · exact First.map (Op.FileId.first _) (w' := write cfg) (fun _ => rfl) _ _ _ _ _ _ h hw
  · exact First.map (Op.FileId.first _) (w' := write cfg) (fun _ => rfl) _ _ _ _ _ _ h hw
  · exact First.map (Op.FileId.first _) (w' := write cfg) (fun _ => rfl) _ _ _ _ _ _ h hw
  · exact First.map (Op.CopyFile.first _) (w' := write cfg) (fun _ => rfl) _ _ _ _ _ _ h hw
  · exact First.map (Op.FileId.first _) (w' := write cfg) (fun _ => rfl) _ _ _ _ _ _ h hw
  · exact First.map (Op.FileData.first cfg _) (w' := write cfg) (fun _ => rfl) _ _ _ _ _ _ h hw
  · exact First.map (Op.FileProperties.first _) (w' := write cfg) (fun _ => rfl) _ _ _ _ _ _ h hw
  · exact First.map (Op.StatusOperand.first cfg _) (w' := write cfg) (fun _ => rfl) _ _ _ _ _ _ h hw
  · exact First.map (Op.ResponseTag.first _) (w' := write cfg) (fun _ => rfl) _ _ _ _ _ _ h hw
  · split at h
    · simp only [P.bind_eq] at h
      rw [P.eval_bind] at h
      split at h
      · cases h; simp [isTx] at ht
      · cases h
    · cases h
  · exact First.map (Op.Chunk.first _) (w' := write cfg) (fun _ => rfl) _ _ _ _ _ _ h hw
  · exact First.map (Op.Logic.first _) (w' := write cfg) (fun _ => rfl) _ _ _ _ _ _ h hw
  · exact First.map (Op.Forward.first cfg _) (w' := write cfg) (fun _ => rfl) _ _ _ _ _ _ h hw
  · exact First.map (Op.IndirectForward.first cfg _) (w' := write cfg) (fun _ => rfl) _ _ _ _ _ _ h hw
  · exact First.map (Op.RequestTag.first _) (w' := write cfg) (fun _ => rfl) _ _ _ _ _ _ h hw
  · exact First.map (Op.Extension.first _) (w' := write cfg) (fun _ => rfl) _ _ _ _ _ _ h hw
  · cases h

/-! ## Reading an action with one bit kept back -/

namespace Action

theorem read_shift {cfg : Cfg} {r : Rd} (h : r.OK) (h1 : r.left.length = 1) (h9 : 9 ≤ r.rem.length) :
    ∃ r2, read cfg r = (dispatch cfg (opAt 2 r.rem)).run r2 ∧ r2.OK ∧ r2.data = r.data ∧
      r2.bitsRead = r.bitsRead + 8 ∧
      (cfg.seekClears = true → r2.left = [] ∧ r2.rem = r.rem.drop 1) ∧
      (cfg.seekClears = false → r2.rem = (r.rem.drop 8).take 1 ++ r.rem.drop 1) := by
  obtain ⟨r0, n0, hr0, st0, hrem0, hn0⟩ := P.run_ok (P.pad 2) h (pad_eval (n := 2) (by omega))
  obtain ⟨r1, n1, hr1, st1, hrem1, hn1⟩ := P.run_ok OpCode.read st0.ok
    (opcode_eval (s := r0.rem) (by rw [hrem0, List.length_drop]; omega))
  rw [List.length_drop] at hn0
  rw [List.length_drop, hrem0, List.length_drop] at hn1
  obtain rfl : n0 = 2 := by omega
  obtain rfl : n1 = 6 := by omega
  have hleft : r1.left.length < 8 := st1.left_lt st0.ok (by omega)
  have hcur : r1.cur = r.cur + 8 := by rw [st1.cur, st0.cur]
  have hl8 := st1.ok.left8
  have hl8' := h.left8
  have hp1 := st1.ok.pos_le
  have hd : r1.data = r.data := st1.data.trans st0.data
  have hpos : r1.pos = r.pos + 1 ∧ r1.left.length = 1 := by
    simp only [Rd.cur] at hcur; omega
  have hrd : bytesBits (r.data.drop r.pos) = r.rem.drop 1 := by
    rw [Rd.rem, ← h1, List.drop_left]
  have hr1l : r1.left = (r.rem.drop 8).take 1 := by
    have e : r1.rem = r.rem.drop 8 := by rw [hrem1, hrem0, List.drop_drop]
    rw [← e, Rd.rem, ← hpos.2, List.take_left]
  refine ⟨{ r1 with pos := r1.pos - 1, left := if cfg.seekClears then [] else r1.left }, ?_, ?_, ?_,
    ?_, ?_, ?_⟩
  · simp only [read, R.bind_eq, R.bind]
    rw [hr0]
    dsimp only
    rw [hr1]
    dsimp only
    rw [hrem0]
    rfl
  · refine ⟨?_, ?_, ?_⟩
    · dsimp only; omega
    · dsimp only; split
      · simp
      · omega
    · dsimp only
      intro _
      have := h.left_pos (by intro h0; rw [h0] at h1; cases h1)
      omega
  · exact hd
  · dsimp only; rw [st1.bitsRead, st0.bitsRead]
  · intro hs
    rw [if_pos hs]
    refine ⟨rfl, ?_⟩
    rw [← hrd, ← hd, ← show r1.pos - 1 = r.pos by omega]
    rfl
  · intro hs
    rw [if_neg (by simp [hs])]
    rw [← hrd, ← hr1l, ← hd, ← show r1.pos - 1 = r.pos by omega]
    rfl

theorem write_cons {b : List Bool} (h : 8 ≤ b.length) :
    ∃ x t, b = x :: t ∧ 7 ≤ t.length := by
  cases b with
  | nil => simp at h
  | cons x t => exact ⟨x, t, rfl, by simpa using h⟩

/-- What a successful read with one bit kept back consumed, when it returned the action that stood
there. -/
theorem read_shift_ok {cfg : Cfg} (hs : cfg.seekClears = false) {a : Action} (hw : a.WF cfg)
    {b rest : List Bool} (hb : a.write cfg = .ok b) (hne : 8 ∣ rest.length + 7) {r r3 : Rd} (h : r.OK)
    (h1 : r.left.length = 1) (hrem : r.rem = b ++ rest) (hr : read cfg r = .ok (a, r3)) :
    r3.OK ∧ r3.data = r.data ∧ r3.left.length = 1 ∧ r3.rem = rest ∧
      r3.bitsRead = r.bitsRead + 8 + b.length ∧
      (dispatch cfg (opAt 2 r.rem)).eval ((r.rem.drop 8).take 1 ++ r.rem.drop 1) = .ok (a, rest) := by
  obtain ⟨b', hb', h8, hpos, hdec⟩ := decode_write hw
  rw [hb] at hb'; cases hb'
  obtain ⟨x, t, rfl, ht⟩ := write_cons hpos
  have h9 : 9 ≤ r.rem.length := by rw [hrem, List.length_append]; omega
  obtain ⟨r2, hr2, hok, hd, hbits, -, hf⟩ := read_shift (cfg := cfg) h h1 h9
  have hr2rem := hf hs
  rw [hr2] at hr
  obtain ⟨he, n, st, hn⟩ := P.run_ok' _ hok hr
  have hlen : ((r.rem.drop 8).take 1).length = 1 := by simp; omega
  obtain ⟨y, hy⟩ := List.length_eq_one_iff.1 hlen
  have hcons : r2.rem = y :: (t ++ rest) := by
    rw [hr2rem, hy, hrem]; rfl
  have he2 := he
  rw [hcons] at he2
  have hx := dispatch_first cfg _ he2 hw.isTx hb
  have hdd := hdec rest
  rw [decode, if_pos (by rw [← hrem]; omega), ← hrem] at hdd
  have e : r.rem = x :: (t ++ rest) := by rw [hrem]; rfl
  rw [← e] at hx
  rw [hx] at hdd
  simp only [Except.ok.injEq, Prod.mk.injEq, true_and] at hdd
  have hr2len : r2.rem.length = r.rem.length := by rw [hcons, e]; simp
  have hrl : r.rem.length = (x :: t).length + rest.length := by rw [hrem, List.length_append]
  rw [hdd] at hn
  have hl := Rd.rem_length r3
  rw [hdd] at hl
  have hlt := st.left_lt hok (by omega)
  refine ⟨st.ok, st.data.trans hd, by omega, hdd, by rw [st.bitsRead, hbits]; omega, ?_⟩
  rw [hr2rem, hdd] at he
  exact he

end Action

namespace Command

theorem loop_prefix {cfg : Cfg} {L : U32} {fuel : Nat} {acc as : List Action} {r r' : Rd} (h : r.OK)
    (hl : loop cfg L fuel acc r = .ok (as, r')) : ∃ t, as = acc ++ t := by
  obtain ⟨ps, h1, -⟩ := loop_ok h hl
  exact ⟨_, h1⟩

theorem atEnd_left {cfg : Cfg} {r : Rd} (h : r.left ≠ []) : R.atEnd cfg r = .ok (false, r) := by
  unfold R.atEnd; rw [if_pos h]

/-- A leftover bit survives seeking: the whole command is read with one bit kept back. -/
theorem loop_shift {cfg : Cfg} (hs : cfg.seekClears = false) {as : List Action}
    (has : ∀ a ∈ as, a.WF cfg) {bs : List Bool} (hb : W.list (Action.write cfg) as = .ok bs) {p : Bool}
    {fuel : Nat} {acc : List Action} {r r' : Rd} (h : r.OK) (h1 : r.left.length = 1)
    (hrem : r.rem = bs ++ [p]) (hr : loop cfg 0 fuel acc r = .ok (acc ++ as, r')) :
    endsIndirect (acc ++ as) = true ∧ r'.bitsRead = r.bitsRead + 8 * as.length + bs.length ∧
      8 ∣ bs.length := by
  induction as generalizing fuel acc r bs with
  | nil =>
    cases hb
    cases fuel with
    | zero => cases hr
    | succ fuel =>
      rw [loop_zero, atEnd_left (by intro h0; rw [h0] at h1; cases h1)] at hr
      dsimp only at hr
      simp only [Bool.false_eq_true, if_false] at hr
      split at hr
      · rename_i hi
        simp only [Except.ok.injEq, Prod.mk.injEq] at hr
        rw [← hr.2]
        exact ⟨by simpa using hi, rfl, by simp⟩
      · rw [Action.read_short h (by rw [hrem]; simp)] at hr
        cases hr
  | cons a as ih =>
    obtain ⟨b, c, hb1, hc, rfl⟩ := W.seq_cons_ok.1 hb
    obtain ⟨c', hc', hc8, -⟩ := Reads.write (cfg := cfg) (as := as) fun x hx => has x (by simp [hx])
    have hcc : c = c' := by
      have : W.list (Action.write cfg) as = .ok c := hc
      rw [this] at hc'; cases hc'; rfl
    subst hcc
    cases fuel with
    | zero => cases hr
    | succ fuel =>
      rw [loop_zero, atEnd_left (by intro h0; rw [h0] at h1; cases h1)] at hr
      dsimp only at hr
      simp only [Bool.false_eq_true, if_false] at hr
      split at hr
      · simp at hr
      · split at hr
        · cases hr
        · rename_i a' r3 hr3
          have hok3 : r3.OK := by
            obtain ⟨n, h0, -⟩ := Action.read_ok h hr3
            exact h0
          obtain ⟨t, ht⟩ := loop_prefix hok3 hr
          have : a' = a := by
            simp at ht; exact ht.1.symm
          subst this
          obtain ⟨hok, hd, hl, hrem3, hbits, -⟩ := Action.read_shift_ok hs (has a' (by simp)) hb1
            (rest := c ++ [p]) (by simp; omega) h h1 (by rw [hrem, List.append_assoc]) hr3
          obtain ⟨i1, i2, i3⟩ := ih (fun x hx => has x (by simp [hx])) hc (acc := acc ++ [a']) hok hl hrem3
            (by simpa using hr)
          obtain ⟨b', hb', h8, -⟩ := Action.decode_write (has a' (by simp))
          rw [hb1] at hb'; cases hb'
          refine ⟨by simpa using i1, ?_, by simp; omega⟩
          rw [i2, hbits]
          simp; omega

end Command

/-! ## A leftover bit dropped by seeking: reading one bit ahead -/

theorem sixBits_shift : ∀ a b c d e f y : Bool, bitsNat [a, b, c, d, e, f] = bitsNat [b, c, d, e, f, y] →
    bitsNat [a, b, c, d, e, f] = 0 ∨ bitsNat [a, b, c, d, e, f] = 63 := by decide

theorem List.six {α : Type} {l : List α} (h : l.length = 6) :
    ∃ a b c d e f, l = [a, b, c, d, e, f] := by
  match l, h with
  | [a, b, c, d, e, f], _ => exact ⟨a, b, c, d, e, f, rfl⟩

namespace Action

theorem head_avail {α : Type} {mk : ActionHeader → OpCode → α} :
    Avail (ActionHeader.read.bind fun h => OpCode.read.bind fun o => P.pure (mk h o)) 8 :=
  Avail.bind (n := 2) (m := 6) (Avail.bind (n := 1) (m := 1) Avail.bits fun _ =>
    Avail.bind (n := 1) (m := 0) Avail.bits fun _ => Avail.pure) fun _ =>
    Avail.bind (n := 6) (m := 0) (Avail.bind (n := 6) (m := 0) (Avail.uint (by omega)) fun _ =>
      Avail.pure) fun _ => Avail.pure

theorem dispatch_avail (cfg : Cfg) {code : OpCode} (h : code.code.toNat = 0 ∨ code.code.toNat = 63) :
    Avail (dispatch cfg code) 8 := by
  rcases h with h | h
  · have e : dispatch cfg code = Op.Nop.read.bind fun o => P.pure (.nop o) := by
      unfold dispatch; rw [h]; rfl
    rw [e]
    exact Avail.bind (n := 8) (m := 0) head_avail fun _ => Avail.pure
  · have e : dispatch cfg code = Op.Extension.read.bind fun o => P.pure (.extension o) := by
      unfold dispatch; rw [h]; rfl
    rw [e]
    exact Avail.bind (n := 8) (m := 0) head_avail fun _ => Avail.pure

/-- Reading an action one bit too late and still getting it: only operations without operands whose
opcode is all zeros or all ones. -/
theorem ahead {cfg : Cfg} {code : OpCode} {a : Action} (hw : a.WF cfg) {b rest s1 : List Bool}
    (hb : a.write cfg = .ok b) (hne : rest ≠ [])
    (he : (dispatch cfg code).eval ((b ++ rest).drop 1) = .ok (a, s1)) :
    (Spec.opcodeOf a = 0 ∨ Spec.opcodeOf a = 63) ∧ b.length = 8 ∧ s1 = rest.drop 1 := by
  have hop := dispatch_opAt cfg _ he hw.isTx
  obtain ⟨c, hc, -⟩ := P.eval_ok _ he
  have hcode := (dispatch_post cfg code c s1 a (by rw [← hc]; exact he)).1
  have hblen : Spec.opcodeOf a = 0 ∨ Spec.opcodeOf a = 63 → b.length = 8 := by
    intro h0
    cases a with
    | nop o => cases hb; rfl
    | extension o => cases hb; rfl
    | _ => exfalso; simp [Spec.opcodeOf] at h0
  obtain ⟨hd, t, hh, rfl⟩ := write_head hw.isTx b hb
  have hf : a.opcodeField.code.toNat = Spec.opcodeOf a := hw.1
  have hlt := opcodeOf_lt a
  obtain ⟨o0, o1, o2, o3, o4, o5, ho⟩ := List.six (natBits_length 6 (Spec.opcodeOf a))
  have hval : bitsNat [o0, o1, o2, o3, o4, o5] = Spec.opcodeOf a := by
    rw [← ho]; exact bitsNat_natBits_of_lt hlt
  obtain ⟨y, u, hyu⟩ : ∃ y u, t ++ rest = y :: u := by
    cases hx : t ++ rest with
    | nil => exact absurd (List.append_eq_nil_iff.1 hx).2 hne
    | cons y u => exact ⟨y, u, rfl⟩
  have hdrop : (((hd ++ (natBits 6 (Spec.opcodeOf a) ++ t)) ++ rest).drop 1).drop 2
      = o1 :: o2 :: o3 :: o4 :: o5 :: y :: u := by
    rw [List.append_assoc, List.append_assoc, hyu, ho]
    match hd, hh with
    | [p, q], _ => rfl
  have hcd : (dispatch cfg code).eval ((hd ++ (natBits 6 (Spec.opcodeOf a) ++ t) ++ rest).drop 1) =
      .ok (a, s1) := he
  have hsh : Spec.opcodeOf a = bitsNat [o1, o2, o3, o4, o5, y] := by
    rw [← hf, hop, opAt, hdrop]
    simp only [List.take_succ_cons, List.take_zero, BitVec.toNat_ofNat]
    refine Nat.mod_eq_of_lt ?_
    have := bitsNat_lt [o1, o2, o3, o4, o5, y]
    simp only [List.length_cons, List.length_nil] at this
    omega
  have h63 := sixBits_shift o0 o1 o2 o3 o4 o5 y (by rw [hval]; exact hsh)
  rw [hval] at h63
  have hlen := hblen h63
  refine ⟨h63, hlen, ?_⟩
  obtain ⟨a', ha'⟩ := dispatch_avail cfg (code := code) (by rw [← hcode]; exact h63) _
    (show 8 ≤ ((hd ++ (natBits 6 (Spec.opcodeOf a) ++ t) ++ rest).drop 1).length by
      have := List.length_pos_iff.2 hne
      rw [List.length_drop, List.length_append]; omega)
  rw [ha'] at hcd
  simp only [Except.ok.injEq, Prod.mk.injEq] at hcd
  rw [← hcd.2, List.drop_drop]
  conv => lhs; rw [show 1 + 8 = (hd ++ (natBits 6 (Spec.opcodeOf a) ++ t)).length + 1 by omega]
  rw [← List.drop_drop, List.drop_left]

end Action

namespace Command

theorem _root_.Dash7.Rd.OK.fresh {r : Rd} (h : r.OK) (hl : r.left = []) : r.Fresh := by
  refine ⟨⟨⟨h, ?_⟩, ?_⟩, hl⟩
  · rw [Rd.rem, hl, Rd.cur, hl, List.nil_append, List.length_nil, Nat.sub_zero, bytesBits_drop]
  · rw [Rd.cur, hl]; exact ⟨r.pos, rfl⟩

/-- From the second action on: at a byte boundary, but one bit ahead of the actions. -/
theorem loop_ahead {cfg : Cfg} {as : List Action}
    (has : ∀ a ∈ as, a.WF cfg) {bs : List Bool} (hb : W.list (Action.write cfg) as = .ok bs) {p : Bool}
    {fuel : Nat} {acc : List Action} {r r' : Rd} (h : r.Fresh)
    (hrem : r.rem = (bs ++ [p]).drop 1) (hr : loop cfg 0 fuel acc r = .ok (acc ++ as, r')) :
    (∀ a ∈ as, Spec.opcodeOf a = 0 ∨ Spec.opcodeOf a = 63) ∧ bs.length = 8 * as.length ∧
      r'.bitsRead = r.bitsRead + as.length * (16 + cfg.endCost) := by
  induction as generalizing fuel acc r bs with
  | nil =>
    cases hb
    cases fuel with
    | zero => cases hr
    | succ fuel =>
      rw [loop_nil (by rw [hrem]; rfl)] at hr
      simp only [Except.ok.injEq, Prod.mk.injEq] at hr
      rw [← hr.2]
      simp
  | cons a as ih =>
    obtain ⟨b, c, hb1, hc, rfl⟩ := W.seq_cons_ok.1 hb
    cases fuel with
    | zero => cases hr
    | succ fuel =>
      have hwa := has a (by simp)
      obtain ⟨b', hb', h8, hpos, -⟩ := Action.decode_write hwa
      rw [hb1] at hb'; cases hb'
      have hne : r.rem ≠ [] := by
        intro h0; rw [h0] at hrem
        have := congrArg List.length hrem
        simp at this; omega
      cases hi : endsIndirect acc with
      | true =>
        obtain ⟨r1, hr1, -⟩ := loop_indirect (cfg := cfg) (fuel := fuel) h hne hi
        rw [hr1] at hr
        simp at hr
      | false =>
        cases hd : Action.decode cfg r.rem with
        | error e => rw [loop_err h hne hi hd] at hr; cases hr
        | ok q =>
          obtain ⟨a', s1⟩ := q
          obtain ⟨r1, hr1, ha, hrem1, hdata, hcur, hbits1⟩ := R.atEnd_fresh (cfg := cfg) h hne
          obtain ⟨r2, hr2, hcon2, -⟩ :=
            Action.read_aligned_ok (cfg := cfg) ha (by rw [hrem1]; exact hd)
          have haa : a' = a := by
            have hr' := hr
            rw [loop_zero, hr1, hi] at hr'
            dsimp only at hr'
            rw [hr2] at hr'
            obtain ⟨t, ht⟩ := loop_prefix hcon2.toOK hr'
            simp at ht; exact ht.1.symm
          subst haa
          obtain ⟨r3, hr3, hf, hrem3, hdata3, hb3⟩ := loop_step (fuel := fuel) h hi hd hwa.isTx
          rw [hr3] at hr
          obtain ⟨-, -, -, -, -, hev, -⟩ := Action.decode_ok hd
          rw [hrem, List.append_assoc] at hev
          obtain ⟨hop, hlen, hs1⟩ := Action.ahead hwa hb1 (rest := c ++ [p]) (by simp) hev
          obtain ⟨i1, i2, i3⟩ := ih (fun x hx => has x (by simp [hx])) hc (acc := acc ++ [a']) hf
            (by rw [hrem3, hs1]) (by simpa using hr)
          refine ⟨?_, ?_, ?_⟩
          · intro x hx
            rcases List.mem_cons.1 hx with rfl | hx
            · exact hop
            · exact i1 x hx
          · simp; omega
          · have hrl : r.rem.length = s1.length + 8 := by
              rw [hrem, hs1]; simp; omega
            rw [i3, List.length_cons, Nat.succ_mul]
            omega

/-- Reading one bit ahead from the first action on. -/
theorem loop_drop {cfg : Cfg} (hs : cfg.seekClears = true) {as : List Action}
    (has : ∀ a ∈ as, a.WF cfg) {bs : List Bool} (hb : W.list (Action.write cfg) as = .ok bs) {p : Bool}
    {fuel : Nat} {r r' : Rd} (h : r.OK) (h1 : r.left.length = 1)
    (hrem : r.rem = bs ++ [p]) (hr : loop cfg 0 fuel [] r = .ok (as, r')) :
    (∀ a ∈ as, Spec.opcodeOf a = 0 ∨ Spec.opcodeOf a = 63) ∧ bs.length = 8 * as.length ∧
      ∃ k, as.length = k + 1 ∧ r'.bitsRead = r.bitsRead + 16 + k * (16 + cfg.endCost) := by
  cases fuel with
  | zero => cases hr
  | succ fuel =>
    rw [loop_zero, atEnd_left (by intro h0; rw [h0] at h1; cases h1)] at hr
    dsimp only at hr
    simp only [Bool.false_eq_true, if_false] at hr
    split at hr
    · rename_i hi; cases hi
    · cases as with
      | nil =>
        cases hb
        rw [Action.read_short h (by rw [hrem]; simp)] at hr
        cases hr
      | cons a as =>
        split at hr
        · cases hr
        · rename_i a' r3 hr3
          obtain ⟨n, hok3, -⟩ := Action.read_ok h hr3
          obtain ⟨t, ht⟩ := loop_prefix hok3 hr
          have : a' = a := by
            simp at ht; exact ht.1.symm
          subst this
          obtain ⟨b, c, hb1, hc, rfl⟩ := W.seq_cons_ok.1 hb
          have hwa := has a' (by simp)
          obtain ⟨b', hb', h8, hpos, -⟩ := Action.decode_write hwa
          rw [hb1] at hb'; cases hb'
          obtain ⟨r2, hr2, hok2, hd2, hbits2, hclr, -⟩ := Action.read_shift (cfg := cfg) h h1
            (by rw [hrem]; simp; omega)
          obtain ⟨hl2, hrem2⟩ := hclr hs
          rw [hr2] at hr3
          obtain ⟨he, m, st, hm⟩ := P.run_ok' _ hok2 hr3
          have he' := he
          rw [hrem2, hrem, List.append_assoc] at he'
          obtain ⟨hop, hlen, hs1⟩ := Action.ahead hwa hb1 (rest := c ++ [p]) (by simp) he'
          have hl3 : r3.left = [] := by
            have hcl := Reads.write (cfg := cfg) (as := as) fun x hx => has x (by simp [hx])
            obtain ⟨c', hc', h8c, -⟩ := hcl
            have : W.list (Action.write cfg) as = .ok c := hc
            rw [this] at hc'; cases hc'
            have hl := Rd.rem_length r3
            have hlt : r3.left.length < 8 := by
              have := st.left
              rw [hl2, List.length_nil] at this
              omega
            rw [hs1] at hl
            simp at hl
            apply List.eq_nil_of_length_eq_zero
            omega
          obtain ⟨i1, i2, i3⟩ := loop_ahead (fun x hx => has x (by simp [hx])) hc (acc := [a'])
            (hok3.fresh hl3) hs1 hr
          refine ⟨?_, ?_, as.length, rfl, ?_⟩
          · intro x hx
            rcases List.mem_cons.1 hx with rfl | hx
            · exact hop
            · exact i1 x hx
          · simp; omega
          · have hm8 : m = 8 := by
              rw [hrem2, hrem, hs1] at hm
              simp at hm; omega
            rw [i3, st.bitsRead, hbits2, hm8]

end Command

/-! ## Which commands survive -/

theorem u8_top (i : U8) : (natBits 8 i.toNat).headD false = decide (128 ≤ i.toNat) :=
  U8.forall (p := fun i => (natBits 8 i.toNat).headD false = decide (128 ≤ i.toNat)) (by decide +kernel) i

namespace Command

/-- The bit after the first byte of an indirect forward followed by a zero. -/
theorem indirect_next {cfg : Cfg} {o : Op.IndirectForward} {b : List Bool}
    (hb : (Action.indirectForward o).write cfg = .ok b) :
    ((b ++ [false]).drop 8).take 1 = [match o.configuration with
      | none => false
      | some .host => false
      | some .serial => false
      | some (.dash7 _) => true
      | some (.unknown i) => decide (128 ≤ i.toNat)] := by
  obtain ⟨⟨ov, rs⟩, oc, cf⟩ := o
  simp only [Action.write, Op.IndirectForward.write] at hb
  obtain ⟨b1, c1, h1, h2, rfl⟩ := W.seq_cons_ok.1 hb
  obtain ⟨b2, c2, h3, h4, rfl⟩ := W.seq_cons_ok.1 h2
  obtain ⟨b3, c3, h5, h6, rfl⟩ := W.seq_cons_ok.1 h4
  cases h1; cases h3; cases h6
  cases cf with
  | none => cases h5; rfl
  | some i =>
    cases i with
    | host => cases h5; rfl
    | serial => cases h5; rfl
    | unknown i =>
      cases h5
      dsimp only
      rw [← u8_top]
      rfl
    | dash7 a =>
      obtain ⟨b4, c4, h7, h8, rfl⟩ := W.seq_cons_ok.1 (show W.seq [W.u8 0xD7, a.write cfg] = _ from h5)
      cases h7
      rfl

theorem read_inv {cfg : Cfg} {L : U32} {r r' : Rd} {c : Command} (h : read cfg L r = .ok (c, r')) :
    loop cfg L (r.data.length + 1) [] r = .ok (c.actions, r') := by
  unfold read R.bind at h
  split at h
  · cases h; assumption
  · cases h

theorem read_of {cfg : Cfg} {L : U32} {r r' : Rd} {as : List Action}
    (h : loop cfg L (r.data.length + 1) [] r = .ok (as, r')) : read cfg L r = .ok (⟨as⟩, r') := by
  unfold read R.bind
  rw [h]; rfl

theorem loop_first {cfg : Cfg} {fuel : Nat} {a : Action} {as : List Action} {r r' : Rd} (h : r.OK)
    (h1 : r.left.length = 1) (hr : loop cfg 0 fuel [] r = .ok (a :: as, r')) :
    ∃ r3, Action.read cfg r = .ok (a, r3) := by
  cases fuel with
  | zero => cases hr
  | succ fuel =>
    rw [loop_zero, atEnd_left (by intro h0; rw [h0] at h1; cases h1)] at hr
    dsimp only at hr
    simp only [Bool.false_eq_true, if_false] at hr
    split at hr
    · rename_i hi; cases hi
    · split at hr
      · cases hr
      · rename_i a' r3 hr3
        obtain ⟨n, hok3, -⟩ := Action.read_ok h hr3
        obtain ⟨t, ht⟩ := loop_prefix hok3 hr
        have : a' = a := by
          simp at ht; exact ht.1.symm
        subst this
        exact ⟨r3, hr3⟩

theorem overloaded_first {cfg : Cfg} {code : OpCode} {o : Op.IndirectForward} {y : Bool}
    {tl s' : List Bool} (h : (Action.dispatch cfg code).eval (y :: tl) = .ok (.indirectForward o, s')) :
    o.header.overloaded = y := by
  obtain ⟨c, hc, -⟩ := P.eval_ok _ h
  have hcode := (Action.dispatch_post cfg code c s' _ (by rw [← hc]; exact h)).1
  have e : Action.dispatch cfg code = (Op.IndirectForward.read cfg).bind fun o =>
      P.pure (.indirectForward o) := by
    unfold Action.dispatch; rw [← hcode]; rfl
  have ht : Took (Op.IndirectForward.read cfg) fun o c => ∃ d, c = o.header.overloaded :: d := by
    refine Took.bind (Q1 := fun h c => c = [h.overloaded, h.response]) ?_ fun h c hc => ?_
    · refine Op.IndirectForwardHeader.exact.mono fun h c hw => ?_
      cases hw; rfl
    · simp only [P.bind_eq]
      refine Took.bind Took.triv fun _ _ _ => Took.bind Took.triv fun _ _ _ => ?_
      refine Took.pure ?_
      subst hc
      exact ⟨_, rfl⟩
  have ht' : Took (Action.dispatch cfg code) fun a c => ∀ o, a = .indirectForward o →
      ∃ d, c = o.header.overloaded :: d := by
    rw [e]
    refine Took.bind ht fun o c hc => ?_
    refine Took.pure ?_
    intro o' ho
    cases ho
    rw [List.append_nil]
    exact hc
  obtain ⟨d, rfl⟩ := ht' c s' _ (by rw [← hc]; exact h) o rfl
  simp only [List.cons_append, List.cons.injEq] at hc
  exact hc.1.symm

theorem indirect_head {cfg : Cfg} {o : Op.IndirectForward} {b : List Bool}
    (hb : (Action.indirectForward o).write cfg = .ok b) :
    ∃ t, b = o.header.overloaded :: t := by
  obtain ⟨⟨ov, rs⟩, oc, cf⟩ := o
  simp only [Action.write, Op.IndirectForward.write] at hb
  obtain ⟨b1, c1, h1, h2, rfl⟩ := W.seq_cons_ok.1 hb
  cases h1
  exact ⟨_, rfl⟩

theorem write_list {cfg : Cfg} {as : List Action} {bs : List Bool}
    (h : Command.write cfg ⟨as⟩ = .ok bs) : W.seq (as.map (Action.write cfg)) = .ok bs := h

theorem read_shift_iff {cfg : Cfg} {r : Rd} {c : Command} {bs : List Bool} (h : r.OK)
    (h1 : r.left.length = 1) (hw : c.WF cfg) (hb : c.write cfg = .ok bs) (hrem : r.rem = bs ++ [false])
    (hbits : 8 ∣ r.bitsRead + 1) :
    (∃ r', read cfg 0 r = .ok (c, r') ∧ r'.bitsRead / 8 = (r.bitsRead + bs.length + 1) / 8) ↔
      Spec.survivesShift cfg.seekClears c := by
  obtain ⟨as⟩ := c
  have has := hw.1
  dsimp only at has
  unfold Spec.survivesShift
  cases hs : cfg.seekClears with
  | false =>
    simp only [Bool.false_eq_true, if_false]
    constructor
    · rintro ⟨r', hr, hdiv⟩
      obtain ⟨i1, i2, i3⟩ := loop_shift hs has hb h h1 hrem (acc := []) (read_inv hr)
      rw [i2] at hdiv
      have hone : as.length = 1 := by omega
      obtain ⟨a, rfl⟩ := List.length_eq_one_iff.1 hone
      cases a with
      | indirectForward o =>
        refine ⟨o, rfl, ?_⟩
        obtain ⟨r3, hr3⟩ := loop_first h h1 (read_inv hr)
        have hwa := has _ (List.mem_singleton_self _)
        obtain ⟨b, c', hb1, hc', rfl⟩ := W.seq_cons_ok.1 (write_list hb)
        cases hc'
        rw [List.append_nil] at hrem
        obtain ⟨-, -, -, -, -, he⟩ := Action.read_shift_ok hs hwa hb1 (rest := [false]) (by simp) h h1
          hrem hr3
        rw [hrem, indirect_next hb1] at he
        have hov := overloaded_first he
        have hsome : o.header.overloaded = o.configuration.isSome := hwa.2.1
        rw [hsome] at hov
        cases hcf : o.configuration with
        | none => trivial
        | some i =>
          rw [hcf] at hov
          cases i with
          | host => cases hov
          | serial => cases hov
          | dash7 a => trivial
          | unknown i => exact of_decide_eq_true hov.symm
      | _ => cases i1
    · rintro ⟨o, ho, hc⟩
      subst ho
      have hwa := has _ (List.mem_singleton_self _)
      obtain ⟨b, c', hb1, hc', rfl⟩ := W.seq_cons_ok.1 (write_list hb)
      cases hc'
      rw [List.append_nil] at hrem ⊢
      obtain ⟨b', hb', h8, hpos, hdec⟩ := Action.decode_write hwa
      rw [hb1] at hb'; cases hb'
      obtain ⟨r2, hr2, hok2, hd2, hbits2, -, hkeep⟩ := Action.read_shift (cfg := cfg) h h1
        (by rw [hrem]; simp; omega)
      have hrem2 : r2.rem = r.rem := by
        rw [hkeep hs, hrem, indirect_next hb1]
        obtain ⟨t, rfl⟩ := indirect_head hb1
        have hsome : o.header.overloaded = o.configuration.isSome := hwa.2.1
        rw [hsome]
        cases hcf : o.configuration with
        | none => rfl
        | some i =>
          rw [hcf] at hc
          cases i with
          | host => exact hc.elim
          | serial => exact hc.elim
          | dash7 a => rfl
          | unknown i =>
            dsimp only at hc ⊢
            rw [decide_eq_true hc]; rfl
      have he := hdec [false]
      rw [Action.decode, if_pos (by simp; omega), ← hrem, ← hrem2] at he
      obtain ⟨r3, n, hr3, st, hrem3, hn⟩ := P.run_ok _ hok2 he
      rw [hrem2] at hr3
      have hn8 : n = b.length := by
        rw [hrem2, hrem] at hn; simp at hn; omega
      have hl3 : r3.left ≠ [] := by
        intro h0
        have := Rd.rem_length r3
        rw [h0, hrem3] at this
        simp at this; omega
      have hd3 := st.data.trans hd2
      refine ⟨r3, read_of ?_, by rw [st.bitsRead, hbits2]; omega⟩
      obtain ⟨m, hm⟩ : ∃ m, r.data.length = m + 1 := by
        have := h.left_pos (by intro h0; rw [h0] at h1; cases h1)
        have := h.pos_le
        exact ⟨r.data.length - 1, by omega⟩
      rw [hm, loop_zero, atEnd_left (by intro h0; rw [h0] at h1; cases h1)]
      dsimp only
      rw [if_neg (by simp), if_neg (by simp [endsIndirect]), hr2, hr3]
      dsimp only
      rw [loop_zero, atEnd_left hl3]
      rfl
  | true =>
    simp only [if_true]
    constructor
    · rintro ⟨r', hr, hdiv⟩
      obtain ⟨i1, i2, k, hk, i3⟩ := loop_drop hs has hb h h1 hrem (read_inv hr)
      rw [i3] at hdiv
      have : k = 0 := by
        have : k * 16 ≤ k * (16 + cfg.endCost) := Nat.mul_le_mul_left _ (by omega)
        omega
      subst this
      obtain ⟨a, rfl⟩ := List.length_eq_one_iff.1 hk
      obtain ⟨r3, hr3⟩ := loop_first h h1 (read_inv hr)
      have hwa := has a (List.mem_singleton_self _)
      obtain ⟨b, c', hb1, hc', rfl⟩ := W.seq_cons_ok.1 (write_list hb)
      cases hc'
      rw [List.append_nil] at hrem i2
      obtain ⟨r2, hr2, hok2, hd2, hbits2, hclr, -⟩ := Action.read_shift (cfg := cfg) h h1
        (by rw [hrem]; simp at i2 ⊢; omega)
      obtain ⟨hl2, hrem2⟩ := hclr hs
      rw [hr2] at hr3
      obtain ⟨he, -⟩ := P.run_ok' _ hok2 hr3
      rw [hrem2, hrem] at he
      have hop := i1 a (by simp)
      cases a with
      | nop o =>
        obtain ⟨⟨g, rs⟩, oc⟩ := o
        have hbv : Action.write cfg (Action.nop ⟨⟨g, rs⟩, oc⟩) =
            .ok [g, rs, false, false, false, false, false, false] := by
          show Except.ok ([g] ++ ([rs] ++ []) ++ (natBits 6 0 ++ [])) = _
          rw [show natBits 6 0 = [false, false, false, false, false, false] by decide]; rfl
        rw [hb1, Except.ok.injEq] at hbv
        subst hbv
        have he' : (Action.nop ⟨⟨rs, false⟩, ⟨0⟩⟩, ([] : List Bool)) = (Action.nop ⟨⟨g, rs⟩, oc⟩, r3.rem) := by
          have e : (Action.dispatch cfg (opAt 2 [g, rs, false, false, false, false, false, false, false])).eval
              [rs, false, false, false, false, false, false, false] = .ok (.nop ⟨⟨rs, false⟩, ⟨0⟩⟩, []) := by
            cases g <;> cases rs <;> rfl
          exact Except.ok.inj (e.symm.trans he)
        simp only [Prod.mk.injEq, Action.nop.injEq, Op.Nop.mk.injEq, ActionHeader.mk.injEq] at he'
        obtain ⟨⟨⟨rfl, rfl⟩, -⟩, -⟩ := he'
        exact ⟨oc, rfl⟩
      | extension o =>
        obtain ⟨⟨g, rs⟩, oc⟩ := o
        have hbv : Action.write cfg (Action.extension ⟨⟨g, rs⟩, oc⟩) =
            .ok [g, rs, true, true, true, true, true, true] := by
          show Except.ok ([g] ++ ([rs] ++ []) ++ (natBits 6 63 ++ [])) = _
          rw [show natBits 6 63 = [true, true, true, true, true, true] by decide]; rfl
        rw [hb1, Except.ok.injEq] at hbv
        subst hbv
        have he' : (Action.extension ⟨⟨rs, true⟩, ⟨62⟩⟩, ([] : List Bool)) = (Action.extension ⟨⟨g, rs⟩, oc⟩, r3.rem) := by
          have e : (Action.dispatch cfg (opAt 2 [g, rs, true, true, true, true, true, true, false])).eval
              [rs, true, true, true, true, true, true, false] = .ok (.extension ⟨⟨rs, true⟩, ⟨62⟩⟩, []) := by
            cases g <;> cases rs <;> rfl
          exact Except.ok.inj (e.symm.trans he)
        simp only [Prod.mk.injEq, Action.extension.injEq, Op.Extension.mk.injEq] at he'
        obtain ⟨⟨-, rfl⟩, -⟩ := he'
        have := hwa.1
        simp [Action.opcodeField, Spec.opcodeOf] at this
      | _ => exfalso; simp [Spec.opcodeOf] at hop
    · rintro ⟨op, ho⟩
      subst ho
      have hwa := has _ (List.mem_singleton_self _)
      have hop : op = ⟨0⟩ := by
        have : op.code.toNat = 0 := hwa.1
        cases op
        congr 1
        exact BitVec.eq_of_toNat_eq this
      subst hop
      cases hb
      obtain ⟨r2, hr2, hok2, hd2, hbits2, hclr, -⟩ := Action.read_shift (cfg := cfg) h h1
        (by rw [hrem]; decide)
      obtain ⟨hl2, hrem2⟩ := hclr hs
      have he : (Action.dispatch cfg (opAt 2 r.rem)).eval r2.rem = .ok (.nop ⟨⟨false, false⟩, ⟨0⟩⟩, []) := by
        rw [hrem2, hrem]; rfl
      obtain ⟨r3, n, hr3, st, hrem3, hn⟩ := P.run_ok _ hok2 he
      have hn8 : n = 8 := by
        rw [hrem2, hrem] at hn; exact hn
      refine ⟨r3, read_of ?_, ?_⟩
      · obtain ⟨m, hm⟩ : ∃ m, r.data.length = m + 1 := by
          have := h.left_pos (by intro h0; rw [h0] at h1; cases h1)
          have := h.pos_le
          exact ⟨r.data.length - 1, by omega⟩
        rw [hm, loop_zero, atEnd_left (by intro h0; rw [h0] at h1; cases h1)]
        dsimp only
        rw [if_neg (by simp), if_neg (by simp [endsIndirect]), hr2, hr3]
        dsimp only
        rw [loop_nil hrem3]
        rfl
      · rw [st.bitsRead, hbits2, hn8]
        show (r.bitsRead + 8 + 8) / 8 = (r.bitsRead + 8 + 1) / 8
        omega

end Command

/-! ## Headers of 7 bits modulo 8 -/

theorem packBits_pad7 : ∀ l : List Bool, l.length % 8 = 7 → packBits l = packBits (l ++ [false])
  | a :: b :: c :: d :: e :: f :: g :: h :: rest, hl => by
    simp only [List.cons_append, packBits]
    rw [packBits_pad7 rest (by simp at hl; omega)]
  | [a, b, c, d, e, f, g], _ => rfl
  | [], h => by cases h
  | [_], h => by cases h
  | [_, _], h => by cases h
  | [_, _, _], h => by cases h
  | [_, _, _, _], h => by cases h
  | [_, _, _, _, _], h => by cases h
  | [_, _, _, _, _, _], h => by cases h

theorem bytesBits_pad7 {l : List Bool} (h : l.length % 8 = 7) :
    bytesBits (packBits l) = l ++ [false] := by
  rw [packBits_pad7 l h, bytesBits_packBits _ (by simp; omega)]

/-- Reading a header of 7 bits modulo 8 leaves one bit kept back. -/
theorem run_header7 {α : Type} {p : P α} {data : List U8} {a : α} {c s : List Bool}
    (hd : bytesBits data = c ++ s) (he : p.eval (c ++ s) = .ok (a, s)) (h7 : c.length % 8 = 7) :
    ∃ r, p.run (Rd.new data) = .ok (a, r) ∧ r.OK ∧ r.left.length = 1 ∧ r.rem = s ∧
      r.bitsRead = c.length ∧ r.data = data := by
  obtain ⟨r, n, hr, st, hrem, hn⟩ := P.run_ok p (Rd.new_con data).toOK (by rw [Rd.new_rem, hd]; exact he)
  rw [Rd.new_rem, hd, List.length_append] at hn
  have hn' : n = c.length := by omega
  subst hn'
  have hl := Rd.rem_length r
  have hlt := st.left_lt (Rd.new_con data).toOK (by omega)
  have hds := congrArg List.length hd
  rw [bytesBits_length, List.length_append] at hds
  rw [hrem] at hl
  refine ⟨r, hr, st.ok, by omega, hrem, ?_, st.data⟩
  rw [st.bitsRead]; simp [Rd.new]

end Dash7
