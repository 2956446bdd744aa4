import Verif.Lemmas.Ops
import Verif.Lemmas.Safe
import Verif.Lemmas.Reader

/-!
# Actions: dispatch, round trip, what a decoded action looks like
-/

namespace Dash7

/-! ## The stored opcode of a decoded operand -/

/-- The opcode at bit offset `k`. -/
def opAt (k : Nat) (s : List Bool) : OpCode := ⟨BitVec.ofNat 8 (bitsNat ((s.drop k).take 6))⟩

theorem opAt_lt (k : Nat) (s : List Bool) : (opAt k s).code.toNat < 64 := by
  have h := bitsNat_lt ((s.drop k).take 6)
  have h6 : ((s.drop k).take 6).length ≤ 6 := by simp; omega
  have : 2 ^ ((s.drop k).take 6).length ≤ 2 ^ 6 := Nat.pow_le_pow_right (by omega) h6
  rw [opAt, BitVec.toNat_ofNat]
  omega

/-- Decoding gives a value whose opcode (`f`) is what stands at offset `k`. -/
def OpAt {α : Type} (k : Nat) (f : α → OpCode) (p : P α) : Prop :=
  ∀ s a s', p.eval s = .ok (a, s') → f a = opAt k s

theorem Post.triv {α : Type} {p : P α} : Post p fun _ _ => True := fun _ _ _ _ => trivial

theorem OpAt.skip {α β : Type} {j k : Nat} {q : P β} {g : β → P α} {f : α → OpCode}
    {G : β → Prop} (hq : Post q fun b n => G b ∧ n = j) (h : ∀ b, OpAt k f (g b)) :
    OpAt (j + k) f (q.bind g) := by
  intro s a s' he
  rw [P.eval_bind] at he
  split at he
  · rename_i b s1 h1
    obtain ⟨c, rfl, _⟩ := P.eval_ok q h1
    have hj := (hq _ _ _ h1).2
    rw [h b _ _ _ he, opAt, opAt, ← hj, ← List.drop_drop, List.drop_left]
  · cases he

theorem OpAt.here {α : Type} {g : OpCode → P α} {f : α → OpCode}
    (h : ∀ op, Post (g op) fun a _ => f a = op) : OpAt 0 f (OpCode.read.bind g) := by
  intro s a s' he
  rw [P.eval_bind] at he
  split at he
  · rename_i b s1 h1
    obtain ⟨c, hc, _⟩ := P.eval_ok (g b) he
    have := h b c s' a (hc ▸ he)
    rw [this]
    unfold OpCode.read at h1
    simp only [P.bind_eq] at h1
    rw [P.eval_bind, P.uint, if_neg (by omega), P.eval_bits] at h1
    split at h1
    · rename_i hx
      split at hx
      · cases hx; cases h1; simp [opAt]
      · cases hx
    · cases h1
  · cases he

theorem OpAt.map {α β : Type} {k : Nat} {p : P β} {mk : β → α} {f : α → OpCode} {f' : β → OpCode}
    (h : OpAt k f' p) (hf : ∀ b, f (mk b) = f' b) : OpAt k f (p.bind fun b => P.pure (mk b)) := by
  intro s a s' he
  rw [P.eval_bind] at he
  split at he
  · rename_i b s1 h1
    cases he
    rw [hf, h _ _ _ h1]
  · cases he

theorem OpAt.two {α β γ : Type} {k : Nat} {q1 : P β} {q2 : P γ} {g : β → γ → P α} {f : α → OpCode}
    (h1 : Post q1 fun _ n => n = 1) (h2 : Post q2 fun _ n => n = 1)
    (h : ∀ b c, OpAt k f (g b c)) :
    OpAt (2 + k) f (q1.bind fun b => q2.bind (g b)) := by
  rw [show 2 + k = 1 + (1 + k) by omega]
  exact OpAt.skip (G := fun _ => True) (h1.mono fun _ _ h => ⟨trivial, h⟩) fun b =>
    OpAt.skip (G := fun _ => True) (h2.mono fun _ _ h => ⟨trivial, h⟩) (h b)

macro "op_tail" : tactic => `(tactic| (
  intro op
  (try simp only [P.bind_eq])
  repeat (with_reducible refine Post.bind Post.triv fun _ _ _ => ?_)
  exact Post.pure rfl))

namespace Op

theorem Nop.opAt : OpAt 2 Nop.opcode Nop.read :=
  OpAt.skip (k := 0) ActionHeader.post fun _ => OpAt.here (by op_tail)
theorem ReadFileData.opAt : OpAt 2 ReadFileData.opcode ReadFileData.read :=
  OpAt.skip (k := 0) ActionHeader.post fun _ => OpAt.here (by op_tail)
theorem FileId.opAt : OpAt 2 FileId.opcode FileId.read :=
  OpAt.skip (k := 0) ActionHeader.post fun _ => OpAt.here (by op_tail)
theorem FileData.opAt (cfg : Cfg) : OpAt 2 FileData.opcode (FileData.read cfg) :=
  OpAt.skip (k := 0) ActionHeader.post fun _ => OpAt.here (by op_tail)
theorem FileProperties.opAt : OpAt 2 FileProperties.opcode FileProperties.read :=
  OpAt.skip (k := 0) ActionHeader.post fun _ => OpAt.here (by op_tail)
theorem ActionQuery.opAt : OpAt 2 ActionQuery.opcode ActionQuery.read :=
  OpAt.skip (k := 0) ActionHeader.post fun _ => OpAt.here (by op_tail)
theorem PermissionRequest.opAt : OpAt 2 PermissionRequest.opcode PermissionRequest.read :=
  OpAt.skip (k := 0) ActionHeader.post fun _ => OpAt.here (by op_tail)
theorem CopyFile.opAt : OpAt 2 CopyFile.opcode CopyFile.read :=
  OpAt.skip (k := 0) ActionHeader.post fun _ => OpAt.here (by op_tail)
theorem StatusOperand.opAt (cfg : Cfg) : OpAt 2 StatusOperand.opcode (StatusOperand.read cfg) :=
  OpAt.skip (k := 0) StatusType.post fun _ => OpAt.here (by op_tail)
theorem ResponseTag.opAt : OpAt 2 ResponseTag.opcode ResponseTag.read :=
  OpAt.skip (k := 0) ResponseTagHeader.post fun _ => OpAt.here (by op_tail)
theorem Chunk.opAt : OpAt 2 Chunk.opcode Chunk.read :=
  OpAt.skip (k := 0) ChunkStep.post fun _ => OpAt.here (by op_tail)
theorem Logic.opAt : OpAt 2 Logic.opcode Logic.read :=
  OpAt.skip (k := 0) LogicOp.post fun _ => OpAt.here (by op_tail)
theorem Forward.opAt (cfg : Cfg) : OpAt 2 Forward.opcode (Forward.read cfg) :=
  OpAt.two (k := 0) (Post.pad.mono fun _ _ h => h.1) (Post.flag.mono fun _ _ h => h.1) fun _ _ => OpAt.here (by op_tail)
theorem IndirectForward.opAt (cfg : Cfg) : OpAt 2 IndirectForward.opcode (IndirectForward.read cfg) :=
  OpAt.skip (k := 0) IndirectForwardHeader.post fun _ => OpAt.here (by op_tail)
theorem RequestTag.opAt : OpAt 2 RequestTag.opcode RequestTag.read :=
  OpAt.two (k := 0) (Post.flag.mono fun _ _ h => h.1) (Post.pad.mono fun _ _ h => h.1) fun _ _ => OpAt.here (by op_tail)
theorem Extension.opAt : OpAt 2 Extension.opcode Extension.read :=
  OpAt.skip (k := 0) ActionHeader.post fun _ => OpAt.here (by op_tail)

end Op

namespace Action

/-- What holds of an action read by `dispatch` from `n` bits. -/
structure Decoded (cfg : Cfg) (a : Action) (n : Nat) : Prop where
  pos : 8 ≤ n
  dvd : a.isTx = false → 8 ∣ n
  dvd' : a.isTx = true → 8 ∣ n + 2
  variant : a.isTx = true → cfg.variant = .wizzilab
  wf : a.isTx = false → a.isOther = false → a.OperandWF cfg
  len : LenLe (a.write cfg) (n + a.slack)

theorem dispatch_post (cfg : Cfg) (code : OpCode) : Post (dispatch cfg code) fun a n =>
    Spec.opcodeOf a = code.code.toNat ∧ Decoded cfg a n := by
  unfold dispatch
  split
  · rename_i h
    exact Post.bind Op.Nop.post fun o n ⟨⟨g, h8, h8'⟩, w⟩ =>
      Post.pure ⟨h.symm, h8', fun _ => h8, by simp [isTx], by simp [isTx], fun _ _ => g, w _⟩
  · rename_i h
    exact Post.bind Op.ReadFileData.post fun o n ⟨⟨g, h8, h8'⟩, w⟩ =>
      Post.pure ⟨h.symm, h8', fun _ => h8, by simp [isTx], by simp [isTx], fun _ _ => g, w _⟩
  · rename_i h
    exact Post.bind Op.FileId.post fun o n ⟨⟨g, h8, h8'⟩, w⟩ =>
      Post.pure ⟨h.symm, h8', fun _ => h8, by simp [isTx], by simp [isTx], fun _ _ => g, w _⟩
  · rename_i h
    exact Post.bind (Op.FileData.post cfg) fun o n ⟨⟨g, h8, h8'⟩, w⟩ =>
      Post.pure ⟨h.symm, h8', fun _ => h8, by simp [isTx], by simp [isTx], fun _ _ => g, w _⟩
  · rename_i h
    exact Post.bind (Op.FileData.post cfg) fun o n ⟨⟨g, h8, h8'⟩, w⟩ =>
      Post.pure ⟨h.symm, h8', fun _ => h8, by simp [isTx], by simp [isTx], fun _ _ => g, w _⟩
  · rename_i h
    exact Post.bind Op.FileProperties.post fun o n ⟨⟨g, h8, h8'⟩, w⟩ =>
      Post.pure ⟨h.symm, h8', fun _ => h8, by simp [isTx], by simp [isTx], fun _ _ => g, w _⟩
  · rename_i h
    exact Post.bind Op.ActionQuery.post fun o n ⟨⟨g, h8, h8'⟩, w⟩ =>
      Post.pure ⟨h.symm, h8', fun _ => h8, by simp [isTx], by simp [isTx], fun _ _ => g, w _⟩
  · rename_i h
    exact Post.bind Op.ActionQuery.post fun o n ⟨⟨g, h8, h8'⟩, w⟩ =>
      Post.pure ⟨h.symm, h8', fun _ => h8, by simp [isTx], by simp [isTx], fun _ _ => g, w _⟩
  · rename_i h
    exact Post.bind Op.PermissionRequest.post fun o n ⟨⟨g, h8, h8'⟩, w⟩ =>
      Post.pure ⟨h.symm, h8', fun _ => h8, by simp [isTx], by simp [isTx], fun _ _ => g, w _⟩
  · rename_i h
    exact Post.bind Op.ActionQuery.post fun o n ⟨⟨g, h8, h8'⟩, w⟩ =>
      Post.pure ⟨h.symm, h8', fun _ => h8, by simp [isTx], by simp [isTx], fun _ _ => g, w _⟩
  · rename_i h
    exact Post.bind Op.FileId.post fun o n ⟨⟨g, h8, h8'⟩, w⟩ =>
      Post.pure ⟨h.symm, h8', fun _ => h8, by simp [isTx], by simp [isTx], fun _ _ => g, w _⟩
  · rename_i h
    exact Post.bind Op.FileProperties.post fun o n ⟨⟨g, h8, h8'⟩, w⟩ =>
      Post.pure ⟨h.symm, h8', fun _ => h8, by simp [isTx], by simp [isTx], fun _ _ => g, w _⟩
  · rename_i h
    exact Post.bind Op.FileId.post fun o n ⟨⟨g, h8, h8'⟩, w⟩ =>
      Post.pure ⟨h.symm, h8', fun _ => h8, by simp [isTx], by simp [isTx], fun _ _ => g, w _⟩
  · rename_i h
    exact Post.bind Op.FileId.post fun o n ⟨⟨g, h8, h8'⟩, w⟩ =>
      Post.pure ⟨h.symm, h8', fun _ => h8, by simp [isTx], by simp [isTx], fun _ _ => g, w _⟩
  · rename_i h
    exact Post.bind Op.FileId.post fun o n ⟨⟨g, h8, h8'⟩, w⟩ =>
      Post.pure ⟨h.symm, h8', fun _ => h8, by simp [isTx], by simp [isTx], fun _ _ => g, w _⟩
  · rename_i h
    exact Post.bind Op.CopyFile.post fun o n ⟨⟨g, h8, h8'⟩, w⟩ =>
      Post.pure ⟨h.symm, h8', fun _ => h8, by simp [isTx], by simp [isTx], fun _ _ => g, w _⟩
  · rename_i h
    exact Post.bind Op.FileId.post fun o n ⟨⟨g, h8, h8'⟩, w⟩ =>
      Post.pure ⟨h.symm, h8', fun _ => h8, by simp [isTx], by simp [isTx], fun _ _ => g, w _⟩
  · rename_i h
    exact Post.bind (Op.FileData.post cfg) fun o n ⟨⟨g, h8, h8'⟩, w⟩ =>
      Post.pure ⟨h.symm, h8', fun _ => h8, by simp [isTx], by simp [isTx], fun _ _ => g, w _⟩
  · rename_i h
    exact Post.bind Op.FileProperties.post fun o n ⟨⟨g, h8, h8'⟩, w⟩ =>
      Post.pure ⟨h.symm, h8', fun _ => h8, by simp [isTx], by simp [isTx], fun _ _ => g, w _⟩
  · rename_i h
    exact Post.bind (Op.StatusOperand.post cfg) fun o n ⟨⟨g, h8, h8'⟩, w⟩ =>
      Post.pure ⟨h.symm, h8', fun _ => h8, by simp [isTx], by simp [isTx], fun _ h => ⟨g.1, g.2 h⟩, w _⟩
  · rename_i h
    exact Post.bind Op.ResponseTag.post fun o n ⟨⟨g, h8, h8'⟩, w⟩ =>
      Post.pure ⟨h.symm, h8', fun _ => h8, by simp [isTx], by simp [isTx], fun _ _ => g, w _⟩
  · rename_i h
    split
    · rename_i hv
      exact Post.bind (Op.TxStatusOperation.post cfg) fun o n ⟨⟨h8, h8'⟩, w⟩ =>
        Post.pure ⟨h.symm, h8', by simp [isTx], fun _ => h8, fun _ => hv, by simp [isTx], w _⟩
    · exact Post.fail
  · rename_i h
    exact Post.bind Op.Chunk.post fun o n ⟨⟨g, h8, h8'⟩, w⟩ =>
      Post.pure ⟨h.symm, h8', fun _ => h8, by simp [isTx], by simp [isTx], fun _ _ => g, w _⟩
  · rename_i h
    exact Post.bind Op.Logic.post fun o n ⟨⟨g, h8, h8'⟩, w⟩ =>
      Post.pure ⟨h.symm, h8', fun _ => h8, by simp [isTx], by simp [isTx], fun _ _ => g, w _⟩
  · rename_i h
    exact Post.bind (Op.Forward.post cfg) fun o n ⟨⟨g, h8, h8'⟩, w⟩ =>
      Post.pure ⟨h.symm, h8', fun _ => h8, by simp [isTx], by simp [isTx], fun _ _ => g, w _⟩
  · rename_i h
    exact Post.bind (Op.IndirectForward.post cfg) fun o n ⟨⟨g, h8, h8'⟩, w⟩ =>
      Post.pure ⟨h.symm, h8', fun _ => h8, by simp [isTx], by simp [isTx], fun _ _ => g, w _⟩
  · rename_i h
    exact Post.bind Op.RequestTag.post fun o n ⟨⟨g, h8, h8'⟩, w⟩ =>
      Post.pure ⟨h.symm, h8', fun _ => h8, by simp [isTx], by simp [isTx], fun _ _ => g, w _⟩
  · rename_i h
    exact Post.bind Op.Extension.post fun o n ⟨⟨g, h8, h8'⟩, w⟩ =>
      Post.pure ⟨h.symm, h8', fun _ => h8, by simp [isTx], by simp [isTx], fun _ _ => g, w _⟩
  · exact Post.fail

theorem dispatch_opAt (cfg : Cfg) (code : OpCode) {s s' : List Bool} {a : Action}
    (h : (dispatch cfg code).eval s = .ok (a, s')) (ht : a.isTx = false) :
    a.opcodeField = opAt 2 s := by
  unfold dispatch at h
  split at h
  · exact OpAt.map Op.Nop.opAt (f := Action.opcodeField) (fun _ => rfl) _ _ _ h
  · exact OpAt.map Op.ReadFileData.opAt (f := Action.opcodeField) (fun _ => rfl) _ _ _ h
  · exact OpAt.map Op.FileId.opAt (f := Action.opcodeField) (fun _ => rfl) _ _ _ h
  · exact OpAt.map (Op.FileData.opAt cfg) (f := Action.opcodeField) (fun _ => rfl) _ _ _ h
  · exact OpAt.map (Op.FileData.opAt cfg) (f := Action.opcodeField) (fun _ => rfl) _ _ _ h
  · exact OpAt.map Op.FileProperties.opAt (f := Action.opcodeField) (fun _ => rfl) _ _ _ h
  · exact OpAt.map Op.ActionQuery.opAt (f := Action.opcodeField) (fun _ => rfl) _ _ _ h
  · exact OpAt.map Op.ActionQuery.opAt (f := Action.opcodeField) (fun _ => rfl) _ _ _ h
  · exact OpAt.map Op.PermissionRequest.opAt (f := Action.opcodeField) (fun _ => rfl) _ _ _ h
  · exact OpAt.map Op.ActionQuery.opAt (f := Action.opcodeField) (fun _ => rfl) _ _ _ h
  · exact OpAt.map Op.FileId.opAt (f := Action.opcodeField) (fun _ => rfl) _ _ _ h
  · exact OpAt.map Op.FileProperties.opAt (f := Action.opcodeField) (fun _ => rfl) _ _ _ h
  · exact OpAt.map Op.FileId.opAt (f := Action.opcodeField) (fun _ => rfl) _ _ _ h
  · exact OpAt.map Op.FileId.opAt (f := Action.opcodeField) (fun _ => rfl) _ _ _ h
  · exact OpAt.map Op.FileId.opAt (f := Action.opcodeField) (fun _ => rfl) _ _ _ h
  · exact OpAt.map Op.CopyFile.opAt (f := Action.opcodeField) (fun _ => rfl) _ _ _ h
  · exact OpAt.map Op.FileId.opAt (f := Action.opcodeField) (fun _ => rfl) _ _ _ h
  · exact OpAt.map (Op.FileData.opAt cfg) (f := Action.opcodeField) (fun _ => rfl) _ _ _ h
  · exact OpAt.map Op.FileProperties.opAt (f := Action.opcodeField) (fun _ => rfl) _ _ _ h
  · exact OpAt.map (Op.StatusOperand.opAt cfg) (f := Action.opcodeField) (fun _ => rfl) _ _ _ h
  · exact OpAt.map Op.ResponseTag.opAt (f := Action.opcodeField) (fun _ => rfl) _ _ _ h
  · split at h
    · simp only [P.bind_eq] at h
      rw [P.eval_bind] at h
      split at h
      · cases h; simp [isTx] at ht
      · cases h
    · cases h
  · exact OpAt.map Op.Chunk.opAt (f := Action.opcodeField) (fun _ => rfl) _ _ _ h
  · exact OpAt.map Op.Logic.opAt (f := Action.opcodeField) (fun _ => rfl) _ _ _ h
  · exact OpAt.map (Op.Forward.opAt cfg) (f := Action.opcodeField) (fun _ => rfl) _ _ _ h
  · exact OpAt.map (Op.IndirectForward.opAt cfg) (f := Action.opcodeField) (fun _ => rfl) _ _ _ h
  · exact OpAt.map Op.RequestTag.opAt (f := Action.opcodeField) (fun _ => rfl) _ _ _ h
  · exact OpAt.map Op.Extension.opAt (f := Action.opcodeField) (fun _ => rfl) _ _ _ h
  · cases h

theorem dispatch_safe (cfg : Cfg) (code : OpCode) {s : List Bool} {f : Fault}
    (h : (dispatch cfg code).eval s = .error (.fault f)) :
    f = .parse ∨ (f = .invalidParam ∧ dispatch cfg code = P.fail .invalidParam) := by
  unfold dispatch at h
  split at h
  · exact .inl (P.Safe.bind Op.Nop.safe (fun _ => P.Safe.pure) _ _ h)
  · exact .inl (P.Safe.bind Op.ReadFileData.safe (fun _ => P.Safe.pure) _ _ h)
  · exact .inl (P.Safe.bind Op.FileId.safe (fun _ => P.Safe.pure) _ _ h)
  · exact .inl (P.Safe.bind (Op.FileData.safe cfg) (fun _ => P.Safe.pure) _ _ h)
  · exact .inl (P.Safe.bind (Op.FileData.safe cfg) (fun _ => P.Safe.pure) _ _ h)
  · exact .inl (P.Safe.bind Op.FileProperties.safe (fun _ => P.Safe.pure) _ _ h)
  · exact .inl (P.Safe.bind Op.ActionQuery.safe (fun _ => P.Safe.pure) _ _ h)
  · exact .inl (P.Safe.bind Op.ActionQuery.safe (fun _ => P.Safe.pure) _ _ h)
  · exact .inl (P.Safe.bind Op.PermissionRequest.safe (fun _ => P.Safe.pure) _ _ h)
  · exact .inl (P.Safe.bind Op.ActionQuery.safe (fun _ => P.Safe.pure) _ _ h)
  · exact .inl (P.Safe.bind Op.FileId.safe (fun _ => P.Safe.pure) _ _ h)
  · exact .inl (P.Safe.bind Op.FileProperties.safe (fun _ => P.Safe.pure) _ _ h)
  · exact .inl (P.Safe.bind Op.FileId.safe (fun _ => P.Safe.pure) _ _ h)
  · exact .inl (P.Safe.bind Op.FileId.safe (fun _ => P.Safe.pure) _ _ h)
  · exact .inl (P.Safe.bind Op.FileId.safe (fun _ => P.Safe.pure) _ _ h)
  · exact .inl (P.Safe.bind Op.CopyFile.safe (fun _ => P.Safe.pure) _ _ h)
  · exact .inl (P.Safe.bind Op.FileId.safe (fun _ => P.Safe.pure) _ _ h)
  · exact .inl (P.Safe.bind (Op.FileData.safe cfg) (fun _ => P.Safe.pure) _ _ h)
  · exact .inl (P.Safe.bind Op.FileProperties.safe (fun _ => P.Safe.pure) _ _ h)
  · exact .inl (P.Safe.bind (Op.StatusOperand.safe cfg) (fun _ => P.Safe.pure) _ _ h)
  · exact .inl (P.Safe.bind Op.ResponseTag.safe (fun _ => P.Safe.pure) _ _ h)
  · rename_i h38
    split at h
    · exact .inl (P.Safe.bind (Op.TxStatusOperation.safe cfg) (fun _ => P.Safe.pure) _ _ h)
    · rename_i hv
      cases h
      refine .inr ⟨rfl, ?_⟩
      unfold dispatch
      rw [h38]
      cases hc : cfg.variant with
      | wizzilab => exact absurd hc hv
      | _ => rfl
  · exact .inl (P.Safe.bind Op.Chunk.safe (fun _ => P.Safe.pure) _ _ h)
  · exact .inl (P.Safe.bind Op.Logic.safe (fun _ => P.Safe.pure) _ _ h)
  · exact .inl (P.Safe.bind (Op.Forward.safe cfg) (fun _ => P.Safe.pure) _ _ h)
  · exact .inl (P.Safe.bind (Op.IndirectForward.safe cfg) (fun _ => P.Safe.pure) _ _ h)
  · exact .inl (P.Safe.bind Op.RequestTag.safe (fun _ => P.Safe.pure) _ _ h)
  · exact .inl (P.Safe.bind Op.Extension.safe (fun _ => P.Safe.pure) _ _ h)
  · rename_i hn
    cases h
    refine .inr ⟨rfl, ?_⟩
    unfold dispatch
    split
    · rename_i h0; exact absurd h0 (by assumption)
    · rename_i h0; exact absurd h0 (by assumption)
    · rename_i h0; exact absurd h0 (by assumption)
    · rename_i h0; exact absurd h0 (by assumption)
    · rename_i h0; exact absurd h0 (by assumption)
    · rename_i h0; exact absurd h0 (by assumption)
    · rename_i h0; exact absurd h0 (by assumption)
    · rename_i h0; exact absurd h0 (by assumption)
    · rename_i h0; exact absurd h0 (by assumption)
    · rename_i h0; exact absurd h0 (by assumption)
    · rename_i h0; exact absurd h0 (by assumption)
    · rename_i h0; exact absurd h0 (by assumption)
    · rename_i h0; exact absurd h0 (by assumption)
    · rename_i h0; exact absurd h0 (by assumption)
    · rename_i h0; exact absurd h0 (by assumption)
    · rename_i h0; exact absurd h0 (by assumption)
    · rename_i h0; exact absurd h0 (by assumption)
    · rename_i h0; exact absurd h0 (by assumption)
    · rename_i h0; exact absurd h0 (by assumption)
    · rename_i h0; exact absurd h0 (by assumption)
    · rename_i h0; exact absurd h0 (by assumption)
    · rename_i h0; exact absurd h0 (by assumption)
    · rename_i h0; exact absurd h0 (by assumption)
    · rename_i h0; exact absurd h0 (by assumption)
    · rename_i h0; exact absurd h0 (by assumption)
    · rename_i h0; exact absurd h0 (by assumption)
    · rename_i h0; exact absurd h0 (by assumption)
    · rename_i h0; exact absurd h0 (by assumption)
    · rfl

/-! ## Round trip -/

theorem rt {cfg : Cfg} {a : Action} (h : a.WF cfg) :
    RT (dispatch cfg a.opcode) (a.write cfg) a := by
  obtain ⟨h0, h1⟩ := h
  have hlt : a.opcodeField.code.toNat < 64 := by
    rw [h0]; cases a <;> simp [Spec.opcodeOf]
  have hop : a.opcode = a.opcodeField := by
    have h2 : a.opcode.code.toNat = Spec.opcodeOf a := by cases a <;> rfl
    have h3 : a.opcode.code = a.opcodeField.code := BitVec.eq_of_toNat_eq (h2.trans h0.symm)
    cases ha : a.opcode; cases hb : a.opcodeField
    rw [ha, hb] at h3
    exact congrArg OpCode.mk h3
  cases a with
  | nop o =>
    show RT (P.bind _ _) _ _
    unfold write
    rw [hop]
    exact RT.map (p := Op.Nop.read) (f := fun o => P.pure (Action.nop o)) (Op.Nop.rt hlt) rfl
  | readFileData o =>
    show RT (P.bind _ _) _ _
    unfold write
    rw [hop]
    exact RT.map (p := Op.ReadFileData.read) (f := fun o => P.pure (Action.readFileData o)) (Op.ReadFileData.rt hlt h1.1 h1.2) rfl
  | readFileProperties o =>
    show RT (P.bind _ _) _ _
    unfold write
    rw [hop]
    exact RT.map (p := Op.FileId.read) (f := fun o => P.pure (Action.readFileProperties o)) (Op.FileId.rt hlt) rfl
  | writeFileData o =>
    show RT (P.bind _ _) _ _
    unfold write
    rw [hop]
    exact RT.map (p := Op.FileData.read cfg) (f := fun o => P.pure (Action.writeFileData o)) (Op.FileData.rt hlt h1.1 h1.2) rfl
  | writeFileDataFlush o =>
    show RT (P.bind _ _) _ _
    unfold write
    rw [hop]
    exact RT.map (p := Op.FileData.read cfg) (f := fun o => P.pure (Action.writeFileDataFlush o)) (Op.FileData.rt hlt h1.1 h1.2) rfl
  | writeFileProperties o =>
    show RT (P.bind _ _) _ _
    unfold write
    rw [hop]
    exact RT.map (p := Op.FileProperties.read) (f := fun o => P.pure (Action.writeFileProperties o)) (Op.FileProperties.rt hlt) rfl
  | actionQuery o =>
    show RT (P.bind _ _) _ _
    unfold write
    rw [hop]
    exact RT.map (p := Op.ActionQuery.read) (f := fun o => P.pure (Action.actionQuery o)) (Op.ActionQuery.rt hlt h1) rfl
  | breakQuery o =>
    show RT (P.bind _ _) _ _
    unfold write
    rw [hop]
    exact RT.map (p := Op.ActionQuery.read) (f := fun o => P.pure (Action.breakQuery o)) (Op.ActionQuery.rt hlt h1) rfl
  | permissionRequest o =>
    show RT (P.bind _ _) _ _
    unfold write
    rw [hop]
    exact RT.map (p := Op.PermissionRequest.read) (f := fun o => P.pure (Action.permissionRequest o)) (Op.PermissionRequest.rt hlt) rfl
  | verifyChecksum o =>
    show RT (P.bind _ _) _ _
    unfold write
    rw [hop]
    exact RT.map (p := Op.ActionQuery.read) (f := fun o => P.pure (Action.verifyChecksum o)) (Op.ActionQuery.rt hlt h1) rfl
  | existFile o =>
    show RT (P.bind _ _) _ _
    unfold write
    rw [hop]
    exact RT.map (p := Op.FileId.read) (f := fun o => P.pure (Action.existFile o)) (Op.FileId.rt hlt) rfl
  | createNewFile o =>
    show RT (P.bind _ _) _ _
    unfold write
    rw [hop]
    exact RT.map (p := Op.FileProperties.read) (f := fun o => P.pure (Action.createNewFile o)) (Op.FileProperties.rt hlt) rfl
  | deleteFile o =>
    show RT (P.bind _ _) _ _
    unfold write
    rw [hop]
    exact RT.map (p := Op.FileId.read) (f := fun o => P.pure (Action.deleteFile o)) (Op.FileId.rt hlt) rfl
  | restoreFile o =>
    show RT (P.bind _ _) _ _
    unfold write
    rw [hop]
    exact RT.map (p := Op.FileId.read) (f := fun o => P.pure (Action.restoreFile o)) (Op.FileId.rt hlt) rfl
  | flushFile o =>
    show RT (P.bind _ _) _ _
    unfold write
    rw [hop]
    exact RT.map (p := Op.FileId.read) (f := fun o => P.pure (Action.flushFile o)) (Op.FileId.rt hlt) rfl
  | copyFile o =>
    show RT (P.bind _ _) _ _
    unfold write
    rw [hop]
    exact RT.map (p := Op.CopyFile.read) (f := fun o => P.pure (Action.copyFile o)) (Op.CopyFile.rt hlt) rfl
  | executeFile o =>
    show RT (P.bind _ _) _ _
    unfold write
    rw [hop]
    exact RT.map (p := Op.FileId.read) (f := fun o => P.pure (Action.executeFile o)) (Op.FileId.rt hlt) rfl
  | returnFileData o =>
    show RT (P.bind _ _) _ _
    unfold write
    rw [hop]
    exact RT.map (p := Op.FileData.read cfg) (f := fun o => P.pure (Action.returnFileData o)) (Op.FileData.rt hlt h1.1 h1.2) rfl
  | returnFileProperties o =>
    show RT (P.bind _ _) _ _
    unfold write
    rw [hop]
    exact RT.map (p := Op.FileProperties.read) (f := fun o => P.pure (Action.returnFileProperties o)) (Op.FileProperties.rt hlt) rfl
  | status o =>
    show RT (P.bind _ _) _ _
    unfold write
    rw [hop]
    exact RT.map (p := Op.StatusOperand.read cfg) (f := fun o => P.pure (Action.status o)) (Op.StatusOperand.rt hlt h1.1 h1.2) rfl
  | responseTag o =>
    show RT (P.bind _ _) _ _
    unfold write
    rw [hop]
    exact RT.map (p := Op.ResponseTag.read) (f := fun o => P.pure (Action.responseTag o)) (Op.ResponseTag.rt hlt) rfl
  | txStatus o => exact h1.elim
  | chunk o =>
    show RT (P.bind _ _) _ _
    unfold write
    rw [hop]
    exact RT.map (p := Op.Chunk.read) (f := fun o => P.pure (Action.chunk o)) (Op.Chunk.rt hlt) rfl
  | logic o =>
    show RT (P.bind _ _) _ _
    unfold write
    rw [hop]
    exact RT.map (p := Op.Logic.read) (f := fun o => P.pure (Action.logic o)) (Op.Logic.rt hlt) rfl
  | forward o =>
    show RT (P.bind _ _) _ _
    unfold write
    rw [hop]
    exact RT.map (p := Op.Forward.read cfg) (f := fun o => P.pure (Action.forward o)) (Op.Forward.rt hlt h1) rfl
  | indirectForward o =>
    show RT (P.bind _ _) _ _
    unfold write
    rw [hop]
    exact RT.map (p := Op.IndirectForward.read cfg) (f := fun o => P.pure (Action.indirectForward o)) (Op.IndirectForward.rt hlt h1) rfl
  | requestTag o =>
    show RT (P.bind _ _) _ _
    unfold write
    rw [hop]
    exact RT.map (p := Op.RequestTag.read) (f := fun o => P.pure (Action.requestTag o)) (Op.RequestTag.rt hlt) rfl
  | extension o =>
    show RT (P.bind _ _) _ _
    unfold write
    rw [hop]
    exact RT.map (p := Op.Extension.read) (f := fun o => P.pure (Action.extension o)) (Op.Extension.rt hlt) rfl

end Action
end Dash7
