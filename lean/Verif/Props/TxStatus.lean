import Verif.Props.Layout
import Verif.Props.Decoder

/-!
# C41: TX status (wizzilab build)
-/

namespace Dash7
open Sample

theorem nop_decode (cfg : Cfg) (rest : List Bool) :
    Action.decode cfg (natBits 8 0x40 ++ rest) = .ok (.nop ⟨⟨false, true⟩, ⟨0⟩⟩, rest) := by
  obtain ⟨bs, hw, -, -, hd⟩ := Action.decode_write (cfg := cfg) (a := .nop ⟨⟨false, true⟩, ⟨0⟩⟩)
    ⟨rfl, trivial⟩
  have : (Action.nop ⟨⟨false, true⟩, ⟨0⟩⟩).write cfg = .ok (natBits 8 0x40) := by
    show Op.Nop.write _ _ = _
    decide
  rw [this] at hw
  cases hw
  exact hd rest

/-- The bits of an encoded TX status. -/
theorem tx_write {cfg : Cfg} {o : Op.TxStatusOperation} {bs : List Bool}
    (h : (Action.txStatus o).write cfg = .ok bs) :
    ∃ t, bs = natBits 8 0x40 ++ (natBits 6 38 ++ t) ∧ 8 ≤ t.length := by
  simp only [Action.write, Op.TxStatusOperation.write] at h
  obtain ⟨x, y, hx, hy, rfl⟩ := W.seq_cons_ok.1 h
  obtain ⟨x', l, hx', hy', rfl⟩ := W.seq_cons_ok.1 hy
  obtain ⟨x2, l2, hx2, hy2, rfl⟩ := W.seq_cons_ok.1 hy'
  obtain ⟨x3, l3, hx3, hy3, rfl⟩ := W.seq_cons_ok.1 hy2
  cases hx
  cases hx'
  cases hy3
  have e : OpCode.write ⟨38⟩ = .ok (natBits 6 38) := by decide
  have hx2 : OpCode.write ⟨38⟩ = .ok x2 := hx2
  rw [e] at hx2
  cases hx2
  refine ⟨x3, by rw [List.append_nil, ← List.append_assoc]; rfl, ?_⟩
  simp only [Op.InterfaceTxStatusOperation.write] at hx3
  obtain ⟨x4, y4, hx4, -, rfl⟩ := W.seq_cons_ok.1 hx3
  cases hx4
  simp

/-- Packing bits into bytes only adds padding behind them. -/
theorem bytesBits_packBits_padded (l : List Bool) : ∃ p, bytesBits (packBits l) = l ++ p := by
  have h1 : 8 ∣ (l.take (8 * (l.length / 8))).length := by simp; omega
  have hl := (List.take_append_drop (8 * (l.length / 8)) l)
  have h2 : (l.drop (8 * (l.length / 8))).length < 8 := by simp; omega
  rw [← hl, packBits_append _ _ h1, bytesBits_append, bytesBits_packBits _ h1]
  generalize l.take (8 * (l.length / 8)) = a at *
  generalize l.drop (8 * (l.length / 8)) = b at *
  suffices ∃ p, bytesBits (packBits b) = b ++ p by
    obtain ⟨p, hp⟩ := this
    exact ⟨p, by rw [hp, List.append_assoc]⟩
  clear hl
  match b, h2 with
  | [], _ => exact ⟨[], rfl⟩
  | [a], _ => exact ⟨List.replicate 7 false, by clear h2; revert a; decide⟩
  | [a, b], _ => exact ⟨List.replicate 6 false, by clear h2; revert a b; decide⟩
  | [a, b, c], _ => exact ⟨List.replicate 5 false, by clear h2; revert a b c; decide⟩
  | [a, b, c, d], _ => exact ⟨List.replicate 4 false, by clear h2; revert a b c d; decide⟩
  | [a, b, c, d, e], _ => exact ⟨List.replicate 3 false, by clear h2; revert a b c d e; decide⟩
  | [a, b, c, d, e, f], _ => exact ⟨List.replicate 2 false, by clear h2; revert a b c d e f; decide⟩
  | [a, b, c, d, e, f, g], _ => exact ⟨List.replicate 1 false, by clear h2; revert a b c d e f g; decide⟩

/-! ## What fails -/

/-- **C41** fails for every TX status: the first byte of its encoding is `0x40`, that is, the opcode of a
nop; `Action::try_from` refuses the encoding. -/
theorem C41_action_violates (cfg : Cfg) (o : Op.TxStatusOperation) (bytes : List U8)
    (h : (Action.txStatus o).toBytes cfg = .ok bytes) :
    bytes.head? = some 0x40 ∧ Action.tryFrom cfg bytes = .error (.fault .parse) := by
  unfold Action.toBytes at h
  cases hw : (Action.txStatus o).write cfg with
  | error e => rw [hw] at h; cases h
  | ok bs =>
    rw [hw] at h
    simp only [W.toBytes, Except.ok.injEq] at h
    subst h
    obtain ⟨t, rfl, ht⟩ := tx_write hw
    obtain ⟨p, hp⟩ := bytesBits_packBits_padded (natBits 8 0x40 ++ (natBits 6 38 ++ t))
    constructor
    · rw [packBits_append8 _ _ (natBits_length _ _)]
      have e : BitVec.ofNat 8 (bitsNat (natBits 8 0x40)) = 0x40 := by decide
      rw [e]
      rfl
    · rw [List.append_assoc] at hp
      rw [Action.tryFrom_ok (by rw [hp]; exact nop_decode cfg _) rfl, if_neg]
      simp; omega

theorem tx_tail_decode (cfg : Cfg) (a b : Bool) (t : List Bool) :
    Action.decode cfg (natBits 6 38 ++ a :: b :: t) = .error (.fault .invalidParam) := by
  unfold Action.decode
  rw [if_pos (by simp; omega)]
  have : (opAt 2 (natBits 6 38 ++ a :: b :: t)).code.toNat ∉ Spec.knownOpcodes cfg := by
    have e : natBits 6 38 = [true, false, false, true, true, false] := by decide
    have e2 : opAt 2 (natBits 6 38 ++ a :: b :: t) = opAt 2 (natBits 6 38 ++ [a, b]) := by
      rw [e]; rfl
    rw [e2]
    clear e2
    unfold Spec.knownOpcodes
    split <;> revert a b <;> decide
  rw [(dispatch_fail_iff cfg _).2 this]
  rfl

/-- **C41** fails within commands as well: behind actions that are read back, a TX status is taken for a
nop, its second byte is no opcode, and the command is refused. -/
theorem C41_command_violates (cfg : Cfg) (as bs : List Action) (o : Op.TxStatusOperation) (bytes : List U8)
    (hwf : ∀ a ∈ as, a.WF cfg) (hi : ∀ a ∈ as, a.isIndirectForward = false)
    (h : (Command.mk (as ++ .txStatus o :: bs)).toBytes cfg = .ok bytes) :
    Command.tryFrom cfg bytes = .error (.fault .invalidParam) := by
  obtain ⟨x, hx, -, hR⟩ := Reads.write hwf
  obtain ⟨a, b, t, ht⟩ : ∃ a b t, bytesBits bytes = x ++ (natBits 8 0x40 ++ (natBits 6 38 ++ a :: b :: t)) := by
    unfold Command.toBytes Command.write at h
    cases hw : W.list (Action.write cfg) (as ++ .txStatus o :: bs) with
    | error e => rw [hw] at h; cases h
    | ok l =>
      rw [hw] at h
      simp only [W.toBytes, Except.ok.injEq] at h
      subst h
      unfold W.list at hx hw
      rw [List.map_append, W.seq_append, hx] at hw
      cases hy : W.seq ((Action.txStatus o :: bs).map (Action.write cfg)) with
      | error e => rw [hy] at hw; cases hw
      | ok y =>
        rw [hy] at hw
        cases hw
        rw [List.map_cons] at hy
        obtain ⟨y1, y2, hy1, -, rfl⟩ := W.seq_cons_ok.1 hy
        obtain ⟨t, rfl, ht⟩ := tx_write hy1
        obtain ⟨p, hp⟩ := bytesBits_packBits_padded
          (x ++ (natBits 8 0x40 ++ (natBits 6 38 ++ t) ++ y2 ++ []))
        match t, ht with
        | a :: b :: t, _ => exact ⟨a, b, t ++ y2 ++ [] ++ p, by rw [hp]; simp⟩
  have hr := hR (natBits 8 0x40 ++ (natBits 6 38 ++ a :: b :: t))
  rw [← ht] at hr
  exact (Command.fromBytes_err (hr.append (.cons (nop_decode cfg _) rfl (.nil _)))
    (by simpa [or_imp, forall_and] using ⟨hi, rfl⟩) (by simp) (tx_tail_decode cfg a b t)).2

theorem Rd.rem_mod8 {r : Rd} (h : r.left = []) : 8 ∣ r.rem.length := by
  rw [Rd.rem_length, h]; simp only [List.length_nil]; omega

/-- Having read a TX status, the reader is left in the middle of a byte. -/
theorem Action.read_tx_left {cfg : Cfg} (hs : cfg.seekClears = true) {r r' : Rd} {a : Action} (h : r.OK)
    (hr : Action.read cfg r = .ok (a, r')) (ha : a.isTx = true) : r'.OK ∧ r'.rem ≠ [] := by
  simp only [Action.read, R.bind_eq, R.bind] at hr
  split at hr
  · rename_i u r0 h0
    obtain ⟨-, n0, st0, -⟩ := P.run_ok' _ h h0
    split at hr
    · rename_i code r1 h1
      obtain ⟨-, n1, st1, -⟩ := P.run_ok' _ st0.ok h1
      simp only [R.seekBack, hs, if_true] at hr
      have hok : Rd.OK { r1 with pos := r1.pos - 1, left := [] } :=
        ⟨by have := st1.ok.pos_le; dsimp only; omega, by simp, by simp⟩
      obtain ⟨he, n, st, hn⟩ := P.run_ok' _ hok hr
      obtain ⟨c, hc, -⟩ := P.eval_ok _ he
      have hp := (Action.dispatch_post cfg code c r'.rem a (by rw [← hc]; exact he)).2.dvd' ha
      refine ⟨st.ok, fun h0 => ?_⟩
      have h8 := Rd.rem_mod8 (r := { r1 with pos := r1.pos - 1, left := [] }) rfl
      rw [hc, h0, List.append_nil] at h8
      omega
    · cases hr
  · cases hr

theorem Command.loop_tx_last {cfg : Cfg} (hs : cfg.seekClears = true) {fuel : Nat} {acc as : List Action}
    {r r' : Rd} (h : r.OK) (hacc : ∀ a, acc.getLast? = some a → a.isTx = true → r.rem ≠ [])
    (hl : Command.loop cfg 0 fuel acc r = .ok (as, r')) : ∀ a, as.getLast? = some a → a.isTx = false := by
  induction fuel generalizing acc r with
  | zero => cases hl
  | succ fuel ih =>
    rw [Command.loop_zero] at hl
    split at hl
    · cases hl
    · rename_i stop r1 hE
      cases stop with
      | true =>
        cases hl
        intro a ha
        cases ht : a.isTx with
        | false => rfl
        | true =>
          obtain ⟨b, hb⟩ := R.atEnd_rem (cfg := cfg) h
          rw [hE] at hb
          simp only [Except.ok.injEq, Prod.mk.injEq] at hb
          have := hacc a ha ht
          cases hrem : r.rem with
          | nil => exact absurd hrem this
          | cons x l => rw [hrem] at hb; cases hb.1
      | false =>
        obtain ⟨hok1, -⟩ := R.atEnd_false h hE
        simp only [Bool.false_eq_true, if_false] at hl
        split at hl
        · rename_i hi
          cases hl
          obtain ⟨x, hx, hxi⟩ := (Command.endsIndirect_iff _).1 hi
          intro a ha
          rw [hx] at ha
          cases ha
          cases x <;> first | rfl | cases hxi
        · split at hl
          · cases hl
          · rename_i a r2 hr2
            obtain ⟨n, hok2, -⟩ := Action.read_ok hok1 hr2
            refine ih hok2 (fun b hb ht => ?_) hl
            rw [List.getLast?_concat] at hb
            cases hb
            exact (Action.read_tx_left hs hok1 hr2 ht).2

/-- **C41** No byte string at all is read as a command with a TX status in the last place (given a reader
that forgets the rest of a byte when it seeks). -/
theorem C41_last_violates (cfg : Cfg) (hs : cfg.seekClears = true) (bytes : List U8) (c : Command)
    (hc : Command.tryFrom cfg bytes = .ok c) : ∀ o, c.actions.getLast? ≠ some (.txStatus o) := by
  intro o ho
  obtain ⟨n, hfb⟩ := Command.tryFrom_fromBytes hc
  obtain ⟨r', hread, -⟩ := Command.fromBytes_read hfb
  have := Command.loop_tx_last hs (Rd.new_fresh bytes).toOK (by simp) (Command.read_ok hread) _ ho
  cases this

/-! ## What holds -/

/-- A TX status as it should be: the opcode field is 38, the interface id is `0xD7` exactly for DASH7
statuses, and the length fits its field. -/
def Spec.TxStatusWF (cfg : Cfg) (o : Op.TxStatusOperation) : Prop :=
  o.opcode.code = 38 ∧
    match o.status.status with
    | .dash7 s => o.status.interfaceId = 0xD7 ∧ s.addressee.WF cfg
    | .other b => o.status.interfaceId ≠ 0xD7 ∧ b.length < 2 ^ 30

/-- The bits a TX status operation writes are read back, whatever follows. -/
theorem Op.TxStatusOperation.rt {cfg : Cfg} {o : Op.TxStatusOperation} (h : Spec.TxStatusWF cfg o) :
    RT (Op.TxStatusOperation.read cfg) (o.write cfg ⟨38⟩) o := by
  obtain ⟨⟨c⟩, i, s⟩ := o
  obtain ⟨hc, h⟩ := h
  dsimp only at hc h
  subst hc
  unfold Op.TxStatusOperation.read Op.TxStatusOperation.write
  refine RT.cons (RT.enum (e := ()) rfl (by decide) (by decide)) ?_
  refine RT.cons (RT.pad 6) ?_
  refine RT.cons (OpCode.rt (by decide)) ?_
  rw [W.seq_singleton]
  refine RT.map (a := (⟨i, s⟩ : Op.InterfaceTxStatusOperation)) ?_ rfl
  unfold Op.InterfaceTxStatusOperation.read Op.InterfaceTxStatusOperation.write
  refine RT.cons (RT.u8 i) ?_
  rw [W.seq_singleton]
  cases s with
  | dash7 c =>
    obtain ⟨rfl, h2⟩ := h
    obtain ⟨bs, hw, hd⟩ := Dash7InterfaceTxStatus.rt (cfg := cfg) (s := c) h2
    have hp := (Dash7InterfaceTxStatus.post cfg bs [] c (hd [])).2
    have := c.addressee.bits_dvd
    have : c.addressee.bits ≤ 1000 := by
      unfold Addressee.bits Address.bitsOf
      split <;> split <;> omega
    refine lengthPrefixed_rt (k := fun l =>
      (InterfaceTxStatus.read cfg 0xD7 l).bind fun s =>
        .pure (Op.InterfaceTxStatusOperation.mk 0xD7 s)) (bs := bs) hw
      (by omega) (by omega) fun l _ rest => ?_
    simp only [InterfaceTxStatus.read, if_true, P.bind_eq]
    rw [P.eval_bind, P.eval_bind, hd rest]
    rfl
  | other b =>
    obtain ⟨h1, h2⟩ := h
    refine lengthPrefixed_rt (k := fun l =>
      (InterfaceTxStatus.read cfg i l).bind fun s =>
        .pure (Op.InterfaceTxStatusOperation.mk i s)) (bs := bytesBits b) (W.list_u8 b)
      (by rw [bytesBits_length]; omega)
      (by rw [bytesBits_length]; omega) fun l hl rest => ?_
    rw [bytesBits_length] at hl
    obtain ⟨y, hy, hdy⟩ := RT.bytes (l := b) (n := l.toNat) (by omega)
    rw [W.list_u8] at hy; cases hy
    simp only [InterfaceTxStatus.read, if_neg h1, P.bind_eq]
    rw [P.eval_bind, P.eval_bind, hdy rest]
    rfl

/-- **C41**, the part that holds: the operation on its own, outside of an action, is read back from the
bits it writes, and these end two bits short of a whole byte. -/
theorem C41_operation_partial (cfg : Cfg) (o : Op.TxStatusOperation) (h : Spec.TxStatusWF cfg o) :
    ∃ bits, o.write cfg ⟨38⟩ = .ok bits ∧ bits.length % 8 = 6 ∧
      ∀ rest, (Op.TxStatusOperation.read cfg).eval (bits ++ rest) = .ok (o, rest) := by
  obtain ⟨bs, hw, hd⟩ := Op.TxStatusOperation.rt h
  exact ⟨bs, hw, Action.tx_mod8 cfg o bs hw, hd⟩

theorem tx_type_eval (b : U8) (rest : List Bool) (hb : b.toNat / 64 ≠ 1) :
    (P.enum 2 Op.txStatusTypeOfId).eval (natBits 8 b.toNat ++ rest) = .error (.fault .parse) := by
  have h1 : ∀ b : U8, b.toNat / 64 ≠ 1 →
      Op.txStatusTypeOfId (BitVec.ofNat 8 (bitsNat ((natBits 8 b.toNat).take 2))) = none := by decide +kernel
  unfold P.enum P.uint
  simp only [P.eval_bind]
  rw [if_neg (by decide), P.eval_bits, if_pos (by simp; omega), List.take_append_of_le_length (by simp)]
  simp only [P.eval, h1 b hb]

/-- **C41** A byte string read as a TX status begins with `0x66`, so that it is never the encoding of one. -/
theorem C41_first_byte_violates (cfg : Cfg) (bytes : List U8) (o : Op.TxStatusOperation)
    (h : Action.tryFrom cfg bytes = .ok (.txStatus o)) :
    cfg.variant = .wizzilab ∧ bytes.head? = some 0x66 ∧ ∀ o', (Action.txStatus o').toBytes cfg ≠ .ok bytes := by
  have hne : ∀ o', (Action.txStatus o').toBytes cfg ≠ .ok bytes := fun o' ho => by
    rw [(C41_action_violates cfg o' bytes ho).2] at h
    cases h
  obtain ⟨s', hd⟩ := Action.tryFrom_decode h
  obtain ⟨c, hc, hdec, hop, -, hev, -⟩ := Action.decode_ok hd
  have hv := hdec.variant rfl
  refine ⟨hv, ?_, hne⟩
  have h38 : opAt 2 (bytesBits bytes) = ⟨38⟩ := by
    have hop : (38 : Nat) = (opAt 2 (bytesBits bytes)).code.toNat := hop
    generalize opAt 2 (bytesBits bytes) = x at hop
    obtain ⟨x⟩ := x
    congr 1
    exact BitVec.eq_of_toNat_eq hop.symm
  cases bytes with
  | nil => exact absurd hc (by intro h0; have := congrArg List.length h0; have := hdec.pos; simp at *; omega)
  | cons b t =>
    have hlow : (38 : Nat) = (opAt 2 (bytesBits (b :: t))).code.toNat := hop
    rw [opAt_byte] at hlow
    rw [h38] at hev
    unfold Action.dispatch at hev
    simp only [hv, P.bind_eq, Op.TxStatusOperation.read] at hev
    have htop : b.toNat / 64 = 1 := by
      rcases Nat.decEq (b.toNat / 64) 1 with hb | hb
      · exfalso
        have hev : (P.bind (P.bind (P.enum 2 Op.txStatusTypeOfId) _) _).eval (natBits 8 b.toNat ++ bytesBits t)
          = _ := hev
        rw [P.eval_bind, P.eval_bind, tx_type_eval b _ hb] at hev
        cases hev
      · exact hb
    have : b = 0x66 := BitVec.eq_of_toNat_eq (by show b.toNat = 102; omega)
    rw [this]
    rfl

/-! ## Samples -/

/-- A TX status of the DASH7 interface. -/
def Sample.txDash7 : Op.TxStatusOperation :=
  ⟨⟨38⟩, 0xD7, .dash7 ⟨Sample.channel, 80, ⟨0, by decide⟩, 0x11223344, Sample.addressee⟩⟩

instance (cfg : Cfg) (o : Op.TxStatusOperation) : Decidable (Spec.TxStatusWF cfg o) := by
  unfold Spec.TxStatusWF
  cases o.status.status <;> exact inferInstance

example : Spec.TxStatusWF wizzilab Sample.txDash7 := by decide +kernel
example : (Action.txStatus Sample.txDash7).toBytes wizzilab = .ok [0x40, 0x9b, 0x5c, 0x6c, 0xe8, 0x04, 0x8d,
    0x40, 0, 0, 0, 0x01, 0x10, 0xcc, 0x88, 0x44, 0x9c, 0x84, 0, 0x44, 0x88, 0xcd, 0x11, 0x55, 0x99, 0xdc,
    0x04, 0x08, 0x0c, 0x10, 0x14] := by decide +kernel
example : Action.tryFrom wizzilab [0x66, 0x00, 0x40, 0x00] = .ok (.txStatus ⟨⟨0⟩, ⟨0x10, .other []⟩⟩) := by
  decide +kernel
example : tag.WF wizzilab ∧ tag.isIndirectForward = false ∧
    (Command.mk ([tag] ++ .txStatus Sample.txDash7 :: [tag])).toBytes wizzilab = .ok ([0xB4, 7, 0x40, 0x9b,
      0x5c, 0x6c, 0xe8, 0x04, 0x8d, 0x40, 0, 0, 0, 0x01, 0x10, 0xcc, 0x88, 0x44, 0x9c, 0x84, 0, 0x44, 0x88,
      0xcd, 0x11, 0x55, 0x99, 0xdc, 0x04, 0x08, 0x0c, 0x10, 0x16, 0xD0, 0x1C]) := by decide +kernel
/-- A command in which a TX status is read, though not in the last place. -/
example : wizzilab.seekClears = true ∧ Command.tryFrom wizzilab [0x66, 0, 0x40, 0, 0] =
    .ok ⟨[.txStatus ⟨⟨0⟩, ⟨0x10, .other []⟩⟩, .nop ⟨⟨false, false⟩, ⟨0⟩⟩]⟩ := by decide +kernel

#print axioms C41_action_violates
#print axioms C41_command_violates
#print axioms C41_last_violates
#print axioms C41_operation_partial
#print axioms C41_first_byte_violates

end Dash7
