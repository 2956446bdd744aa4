import Verif.Lemmas.Total
import Verif.Lemmas.Align
import Verif.Props.Samples

/-!
# C04, C14, C15, C16, C18, C19, C36, C49: what the decoder and encoder do with arbitrary input
-/

namespace Dash7
open Sample

/-- The errors a decoder may report: too little input, or a refusal. In particular no panic. -/
def Spec.Refusal (e : Err) : Prop := e = .incomplete ∨ e = .fault .parse ∨ e = .fault .invalidParam

/-- Returns a value or refuses; it never panics. -/
def Spec.Total {α : Type} (x : Except Err α) : Prop :=
  (∃ a, x = .ok a) ∨ ∃ e, x = .error e ∧ Spec.Refusal e

/-! ## C04 -/

theorem fromBytes_total {α : Type} {m : R α} (data : List U8) {off : Nat} (ho : off ≤ 8)
    (hm : ∀ r f, r.OK → m r = .error (.fault f) → f = .parse ∨ f = .invalidParam) :
    Spec.Total (Dash7.fromBytes m (data, off)) := by
  unfold fromBytes
  dsimp only
  rcases startAt_cases off m data with ⟨r, hok, -, hs, -⟩ | hs
  · rw [hs]
    cases hr : m r with
    | error e =>
      refine .inr ⟨e, rfl, ?_⟩
      cases e with
      | incomplete => exact .inl rfl
      | fault f => rcases hm r f hok hr with rfl | rfl <;> simp [Spec.Refusal]
    | ok p =>
      obtain ⟨a, r'⟩ := p
      obtain ⟨rest, hrest⟩ := padRest_total data ho r'.bitsRead
      dsimp only
      rw [hrest]
      exact .inl ⟨_, rfl⟩
  · rw [hs]
    exact .inr ⟨_, rfl, .inl rfl⟩

theorem fromReader_total {α : Type} {m : R α} (data : List U8) (off : Nat)
    (hm : ∀ r f, r.OK → m r = .error (.fault f) → f = .parse ∨ f = .invalidParam) :
    Spec.Total (Dash7.fromReader m data off) := by
  unfold fromReader
  rcases startAt_cases off m data with ⟨r, hok, -, hs, -⟩ | hs
  · rw [hs]
    cases hr : m r with
    | error e =>
      refine .inr ⟨e, rfl, ?_⟩
      cases e with
      | incomplete => exact .inl rfl
      | fault f => rcases hm r f hok hr with rfl | rfl <;> simp [Spec.Refusal]
    | ok p => exact .inl ⟨_, rfl⟩
  · rw [hs]
    exact .inr ⟨_, rfl, .inl rfl⟩

/-- **C04** `Command::try_from` terminates with a command or a refusal on every byte string. -/
theorem C04_command_total (cfg : Cfg) (data : List U8) : Spec.Total (Command.tryFrom cfg data) := by
  unfold Command.tryFrom
  rcases fromBytes_total (m := Command.read cfg 0) data (off := 0) (by omega)
    (fun r f h hr => Command.read_fault h hr) with ⟨⟨rest, c⟩, h⟩ | ⟨e, h, he⟩
  · rw [Command.fromBytes, h]
    dsimp only
    split
    · exact .inr ⟨_, rfl, .inr (.inl rfl)⟩
    · exact .inl ⟨_, rfl⟩
  · rw [Command.fromBytes, h]
    exact .inr ⟨e, rfl, he⟩

/-- **C04** The same for single actions. -/
theorem C04_action_total (cfg : Cfg) (data : List U8) : Spec.Total (Action.tryFrom cfg data) := by
  unfold Action.tryFrom
  rcases fromBytes_total (m := Action.read cfg) data (off := 0) (by omega)
    (fun r f h hr => Action.read_fault h hr) with ⟨⟨rest, c⟩, h⟩ | ⟨e, h, he⟩
  · rw [Action.fromBytes, h]
    dsimp only
    split
    · exact .inr ⟨_, rfl, .inr (.inl rfl)⟩
    · exact .inl ⟨_, rfl⟩
  · rw [Action.fromBytes, h]
    exact .inr ⟨e, rfl, he⟩

/-- **C04** Reading from a cursor is total at any bit offset; for commands inside a frame also with
any limit on the stream position. -/
theorem C04_reader_total (cfg : Cfg) (data : List U8) (off : Nat) (limit : U32) :
    Spec.Total (Command.fromReader cfg data off) ∧ Spec.Total (Action.fromReader cfg data off) ∧
      Spec.Total (fromReader (Command.read cfg limit) data off) :=
  ⟨fromReader_total data off fun _ _ h hr => Command.read_fault h hr,
    fromReader_total data off fun _ _ h hr => Action.read_fault h hr,
    fromReader_total data off fun _ _ h hr => Command.read_fault h hr⟩

example : Command.tryFrom spec [0xb4, 0x07] = .ok ⟨[tag]⟩ ∧
    Command.tryFrom spec [0x01] = .error .incomplete ∧
    Command.tryFrom spec [0x0a, 0x07] = .error (.fault .parse) ∧
    Command.tryFrom spec [0x03] = .error (.fault .invalidParam) := by decide +kernel

/-! ## C14 -/

/-- The opcodes of the ALP specification; 38 exists for wizzilab only. -/
def Spec.knownOpcodes (cfg : Cfg) : List Nat :=
  [0, 1, 2, 4, 5, 6, 8, 9, 10, 11, 16, 17, 18, 19, 20, 23, 31, 32, 33, 34, 35, 48, 49, 50, 51, 52, 63]
    ++ if cfg.variant = .wizzilab then [38] else []

theorem opAt_byte (b : U8) (t : List U8) : (opAt 2 (bytesBits (b :: t))).code.toNat = b.toNat % 64 := by
  have h : bytesBits (b :: t) = natBits 8 b.toNat ++ bytesBits t := rfl
  have h1 : ∀ b : U8, (BitVec.ofNat 8 (bitsNat (((natBits 8 b.toNat).drop 2).take 6))).toNat
      = b.toNat % 64 := by decide +kernel
  unfold opAt
  rw [h, List.drop_append_of_le_length (by simp), List.take_append_of_le_length (by simp)]
  exact h1 b

theorem dispatch_fail_iff (cfg : Cfg) (op : OpCode) :
    Action.dispatch cfg op = P.fail .invalidParam ↔ op.code.toNat ∉ Spec.knownOpcodes cfg := by
  have key : ∀ (v : Variant) (n : Nat), n < 256 → ∀ cfg : Cfg, cfg.variant = v →
      (n ∈ Spec.knownOpcodes cfg ↔ n ∈ [0, 1, 2, 4, 5, 6, 8, 9, 10, 11, 16, 17, 18, 19, 20, 23, 31, 32,
        33, 34, 35, 48, 49, 50, 51, 52, 63] ∨ (v = .wizzilab ∧ n = 38)) := by
    rintro v n - cfg rfl
    unfold Spec.knownOpcodes
    rw [List.mem_append]
    split <;> simp_all
  rw [key _ _ op.code.isLt cfg rfl]
  unfold Action.dispatch
  constructor
  · intro h
    split at h <;> first
      | (exfalso; revert h; intro h; cases h; done)
      | skip
    · split at h
      · cases h
      · rename_i h38 v hv
        simp only [h38]
        intro hc
        rcases hc with hc | hc
        · revert hc; decide
        · exact hv hc.1
    · simp_all
  · intro h
    split <;> first
      | (rename_i h0; rw [h0] at h; exact absurd (.inl (by decide)) h)
      | skip
    · rename_i h38
      split
      · rename_i hv
        exact absurd (.inr ⟨hv, h38⟩) h
      · rfl
    · rfl

/-- **C14** The low six bits of the first byte decide which kind of action is decoded. -/
theorem C14_kind (cfg : Cfg) (b : U8) (t : List U8) (a : Action)
    (h : Action.tryFrom cfg (b :: t) = .ok a) :
    Spec.opcodeOf a = b.toNat % 64 ∧ b.toNat % 64 ∈ Spec.knownOpcodes cfg := by
  cases hd : Action.decode cfg (bytesBits (b :: t)) with
  | error e => rw [(Action.fromBytes_err hd).2.2] at h; cases h
  | ok p =>
    obtain ⟨a', s'⟩ := p
    obtain ⟨c, -, -, hop, -, he, -⟩ := Action.decode_ok hd
    have haa : a' = a := by
      obtain ⟨r', hr, -⟩ := Action.read_aligned_ok (cfg := cfg) (Rd.new_aligned (b :: t))
        (by rw [Rd.new_rem]; exact hd)
      unfold Action.tryFrom Action.fromBytes fromBytes at h
      dsimp only at h
      rw [startAt_zero, hr] at h
      dsimp only at h
      obtain ⟨rest, hrest⟩ := padRest_total (b :: t) (off := 0) (by omega) r'.bitsRead
      rw [hrest] at h
      dsimp only at h
      split at h
      · cases h
      · cases h; rfl
    subst haa
    rw [opAt_byte] at hop
    refine ⟨hop, ?_⟩
    by_cases hk : b.toNat % 64 ∈ Spec.knownOpcodes cfg
    · exact hk
    · rw [(dispatch_fail_iff cfg _).2 (by rw [opAt_byte]; exact hk)] at he
      cases he

/-- **C14** `InvalidParam` is reported exactly for opcodes outside the table. -/
theorem C14_unknown_opcode (cfg : Cfg) (b : U8) (t : List U8) :
    Action.tryFrom cfg (b :: t) = .error (.fault .invalidParam) ↔
      b.toNat % 64 ∉ Spec.knownOpcodes cfg := by
  have h8 : 8 ≤ (bytesBits (b :: t)).length := by rw [bytesBits_length, List.length_cons]; omega
  constructor
  · intro h
    cases hd : Action.decode cfg (bytesBits (b :: t)) with
    | error e =>
      rw [(Action.fromBytes_err hd).2.2] at h
      cases h
      rcases (Action.decode_fault hd).2 with h | h
      · cases h
      · have := (dispatch_fail_iff cfg _).1 h.2
        rwa [opAt_byte] at this
    | ok p =>
      obtain ⟨a', s'⟩ := p
      obtain ⟨r', hr, -⟩ := Action.read_aligned_ok (cfg := cfg) (Rd.new_aligned (b :: t))
        (by rw [Rd.new_rem]; exact hd)
      unfold Action.tryFrom Action.fromBytes fromBytes at h
      dsimp only at h
      rw [startAt_zero, hr] at h
      dsimp only at h
      obtain ⟨rest, hrest⟩ := padRest_total (b :: t) (off := 0) (by omega) r'.bitsRead
      rw [hrest] at h
      dsimp only at h
      split at h <;> cases h
  · intro h
    have hd : Action.decode cfg (bytesBits (b :: t)) = .error (.fault .invalidParam) := by
      unfold Action.decode
      rw [if_pos h8, (dispatch_fail_iff cfg _).2 (by rw [opAt_byte]; exact h)]
      rfl
    exact (Action.fromBytes_err hd).2.2

/-- **C14** The two top bits never influence the kind: bytes which differ there only are both refused
as unknown or decode, if they decode, to actions with the same opcode. -/
theorem C14_top_bits (cfg : Cfg) (b b' : U8) (t t' : List U8) (hb : b.toNat % 64 = b'.toNat % 64) :
    (Action.tryFrom cfg (b :: t) = .error (.fault .invalidParam) ↔
      Action.tryFrom cfg (b' :: t') = .error (.fault .invalidParam)) ∧
    ∀ a a', Action.tryFrom cfg (b :: t) = .ok a → Action.tryFrom cfg (b' :: t') = .ok a' →
      Spec.opcodeOf a = Spec.opcodeOf a' := by
  refine ⟨?_, fun a a' h h' => ?_⟩
  · rw [C14_unknown_opcode, C14_unknown_opcode, hb]
  · rw [(C14_kind cfg b t a h).1, (C14_kind cfg b' t' a' h').1, hb]

example : Action.tryFrom spec [0x34, 7] = .ok (.requestTag ⟨false, ⟨52⟩, 7⟩) ∧
    Action.tryFrom spec [0xb4, 7] = .ok tag ∧ 0xb4 % 64 = 0x34 % 64 ∧
    Action.tryFrom spec [0x26, 0] = .error (.fault .invalidParam) ∧
    Action.tryFrom wizzilab [0x26, 0x10, 0, 0] ≠ .error (.fault .invalidParam) := by decide +kernel

/-! ## C15 -/

/-- The same action with another value in its `opcode` field. -/
def Spec.withOpcode (op : OpCode) : Action → Action
  | .nop o => .nop { o with opcode := op }
  | .readFileData o => .readFileData { o with opcode := op }
  | .readFileProperties o => .readFileProperties { o with opcode := op }
  | .writeFileData o => .writeFileData { o with opcode := op }
  | .writeFileDataFlush o => .writeFileDataFlush { o with opcode := op }
  | .writeFileProperties o => .writeFileProperties { o with opcode := op }
  | .actionQuery o => .actionQuery { o with opcode := op }
  | .breakQuery o => .breakQuery { o with opcode := op }
  | .permissionRequest o => .permissionRequest { o with opcode := op }
  | .verifyChecksum o => .verifyChecksum { o with opcode := op }
  | .existFile o => .existFile { o with opcode := op }
  | .createNewFile o => .createNewFile { o with opcode := op }
  | .deleteFile o => .deleteFile { o with opcode := op }
  | .restoreFile o => .restoreFile { o with opcode := op }
  | .flushFile o => .flushFile { o with opcode := op }
  | .copyFile o => .copyFile { o with opcode := op }
  | .executeFile o => .executeFile { o with opcode := op }
  | .returnFileData o => .returnFileData { o with opcode := op }
  | .returnFileProperties o => .returnFileProperties { o with opcode := op }
  | .status o => .status { o with opcode := op }
  | .responseTag o => .responseTag { o with opcode := op }
  | .txStatus o => .txStatus { o with opcode := op }
  | .chunk o => .chunk { o with opcode := op }
  | .logic o => .logic { o with opcode := op }
  | .forward o => .forward { o with opcode := op }
  | .indirectForward o => .indirectForward { o with opcode := op }
  | .requestTag o => .requestTag { o with opcode := op }
  | .extension o => .extension { o with opcode := op }

/-- **C15** Whatever an action (other than TX status) holds, its first encoded byte ends in the opcode
of its kind. -/
theorem C15_opcode_on_wire_partial (cfg : Cfg) (a : Action) (h : a.isTx = false) (bytes : List U8)
    (hb : a.toBytes cfg = .ok bytes) :
    ∃ b t, bytes = b :: t ∧ b.toNat % 64 = Spec.opcodeOf a := by
  unfold Action.toBytes at hb
  cases hw : a.write cfg with
  | error e => rw [hw] at hb; cases hb
  | ok bs =>
    obtain ⟨x, t, hx, hbs⟩ := Action.write_head h bs hw
    have h8 := Action.mod8 cfg a h bs hw
    obtain ⟨bytes', hb', hbits⟩ := W.toBytes_ok hw (Nat.dvd_of_mod_eq_zero h8)
    rw [hb'] at hb
    cases hb
    cases bytes with
    | nil =>
      rw [hbs] at hbits
      have := congrArg List.length hbits
      simp at this
      omega
    | cons b l =>
      refine ⟨b, l, rfl, ?_⟩
      have hlt := Action.opcodeOf_lt a
      rw [← opAt_byte b l, hbits, hbs, ← Action.opcode_toNat, Action.opAt_head hx
        (by rw [Action.opcode_toNat]; omega)]

/-- **C15** The `opcode` field stored in an action has no influence on its encoding. -/
theorem C15_field_ignored (cfg : Cfg) (a : Action) (op : OpCode) :
    (Spec.withOpcode op a).opcodeField = op ∧
      (Spec.withOpcode op a).toBytes cfg = a.toBytes cfg := by
  cases a <;> exact ⟨rfl, rfl⟩

/-- **C15** fails for TX status: no TX status carries its opcode in its first byte. -/
theorem C15_tx_status_violates (cfg : Cfg) (o : Op.TxStatusOperation) (b : U8) (t : List U8)
    (h : (Action.txStatus o).toBytes cfg = .ok (b :: t)) : b.toNat % 64 ≠ 38 := by
  unfold Action.toBytes at h
  cases hw : (Action.txStatus o).write cfg with
  | error e => rw [hw] at h; cases h
  | ok bs =>
    rw [hw] at h
    simp only [Action.write, Op.TxStatusOperation.write] at hw
    obtain ⟨x, y, hx, hy, rfl⟩ := W.seq_cons_ok.1 hw
    obtain ⟨x', l, hx', -, rfl⟩ := W.seq_cons_ok.1 hy
    cases hx
    cases hx'
    simp only [W.toBytes, Except.ok.injEq] at h
    rw [← List.append_assoc, packBits_append _ _ (by decide)] at h
    have h64 : packBits (natBits 2 (1#8).toNat ++ List.replicate 6 false) = [64#8] := by decide
    rw [h64] at h
    cases h
    decide

example : ∃ b t, query.toBytes spec = .ok (b :: t) ∧ b = 8 ∧
    (Spec.withOpcode ⟨99⟩ query).toBytes spec = .ok (b :: t) :=
  ⟨8, [89, 2, 255, 15, 18, 52, 67, 5], by decide +kernel⟩
example : ∃ t, txStatus.toBytes wizzilab = .ok (64 :: t) := ⟨[152, 64, 0], by decide +kernel⟩

end Dash7

#print axioms Dash7.C04_command_total
#print axioms Dash7.C04_action_total
#print axioms Dash7.C04_reader_total
#print axioms Dash7.C14_kind
#print axioms Dash7.C14_unknown_opcode
#print axioms Dash7.C14_top_bits
#print axioms Dash7.C15_opcode_on_wire_partial
#print axioms Dash7.C15_field_ignored
#print axioms Dash7.C15_tx_status_violates
