import Verif.Lemmas.Layout2
import Verif.Props.Roundtrip

/-!
# C51, C20, C32, C48: what is on the wire
-/

namespace Dash7

theorem isTx_false {a : Action} (h : a.isTx = false) (o : Op.TxStatusOperation) : a ≠ .txStatus o := by
  rintro rfl
  cases h

/-! ## C51 -/

/-- The bytes of a TX status: a first byte `0x40` and then, shifted left by two bits, the byte 38 and the
interface id, length and status; the last byte ends in six padding bits. -/
def Wire.txStatus (v : Variant) (big : Bool) (o : Op.TxStatusOperation) : Option (List U8) :=
  match Wire.join [Wire.raw [o.status.interfaceId], Wire.prefixed (Wire.interfaceTxStatus v big o.status.status)] with
  | none => none
  | some b => some (0x40 :: Spec.bigEndian (b.length + 1) ((38 * 256 ^ b.length + Spec.bigEndianValue b) * 4))

/-- **C51.** Every action (but the TX status of the wizzilab build) is encoded byte for byte as the wire
format says, and refused exactly where the wire format has no encoding for it. -/
theorem C51_action_layout (cfg : Cfg) (a : Action) (h : a.isTx = false) :
    a.toBytes cfg = Wire.result (Wire.action cfg.variant cfg.bigEndianHost a) :=
  (Action.lay cfg a (isTx_false h)).toBytes

/-- **C51** for commands. -/
theorem C51_command_layout (cfg : Cfg) (c : Command) (h : ∀ a ∈ c.actions, a.isTx = false) :
    c.toBytes cfg = Wire.result (Wire.command cfg.variant cfg.bigEndianHost c) :=
  (Command.lay cfg c fun o ho => isTx_false (h _ ho) o rfl).toBytes

theorem packBits_fill (l : List Bool) (h : l.length % 8 = 6) : packBits (l ++ [false, false]) = packBits l := by
  obtain ⟨k, hk⟩ : ∃ k, l.length = 8 * k + 6 := ⟨l.length / 8, by omega⟩
  have hl := (List.take_append_drop (8 * k) l).symm
  have h8 : 8 ∣ (l.take (8 * k)).length := ⟨k, by simp; omega⟩
  rw [hl, List.append_assoc, packBits_append _ _ h8, packBits_append _ _ h8]
  congr 1
  have : (l.drop (8 * k)).length = 6 := by simp; omega
  match l.drop (8 * k), this with
  | [a, b, c, d, e, f], _ => rfl

/-- **C51** for TX status actions (wizzilab build), which are the only ones not made of whole bytes: the
format found is not the one intended, see C41. -/
theorem C51_tx_layout (cfg : Cfg) (o : Op.TxStatusOperation) :
    (Action.txStatus o).toBytes cfg = Wire.result (Wire.txStatus cfg.variant cfg.bigEndianHost o) := by
  have hb : Lay (o.status.write cfg) _ := Lay.cons Lay.u8
    (Lay.last (writeLengthPrefixed_lay (InterfaceTxStatus.lay cfg o.status.status)))
  unfold Wire.txStatus
  revert hb
  generalize Wire.join [Wire.raw [o.status.interfaceId],
    Wire.prefixed (Wire.interfaceTxStatus cfg.variant cfg.bigEndianHost o.status.status)] = j
  intro hb
  unfold Lay at hb
  cases j with
  | none =>
    simp only [Action.toBytes, Action.write, Op.TxStatusOperation.write, W.seq, hb]
    rfl
  | some b =>
    have hv := natBits_bitsNat (bytesBits b)
    rw [bytesBits_length, bitsNat_bytesBits] at hv
    have hn := Wire.natBits_bits [(6, 38), (8 * b.length, Spec.bigEndianValue b), (2, 0)]
    have hlt : Spec.bigEndianValue b < 2 ^ (8 * b.length) := by
      have := bitsNat_lt (bytesBits b)
      rwa [bytesBits_length, bitsNat_bytesBits] at this
    simp only [Wire.width, Wire.bits, Wire.fieldBits, hv, List.append_nil, Nat.zero_mod, Nat.zero_mul,
      Nat.add_zero, Nat.mod_eq_of_lt hlt] at hn
    have hw : (Action.txStatus o).write cfg
        = .ok (natBits 8 0x40 ++ (natBits 6 38 ++ bytesBits b)) := by
      have e : W.seq [W.uint 2 1#8, W.pad 6, OpCode.write ⟨38⟩]
          = .ok (natBits 8 0x40 ++ natBits 6 38) := by decide
      show W.seq ([W.uint 2 1#8, W.pad 6, OpCode.write ⟨38⟩] ++ [o.status.write cfg]) = _
      rw [W.seq_append, e]
      simp only [W.seq, hb, List.append_nil, List.append_assoc]
    have hp : packBits (natBits 8 0x40 ++ (natBits 6 38 ++ bytesBits b))
        = 0x40 :: packBits (natBits 6 38 ++ bytesBits b) :=
      packBits_append8 _ _ rfl
    rw [Action.toBytes, hw, Wire.result]
    simp only [W.toBytes]
    rw [hp, ← packBits_fill _ (by simp [bytesBits_length]), List.append_assoc,
      show [false, false] = natBits 2 0 from rfl, ← hn, ← packBits_natBits]
    congr 4
    · omega
    · rw [Nat.pow_add, Nat.pow_mul, Nat.add_mul, show (2 : Nat) ^ 8 = 256 from rfl]; omega

example : Sample.tag.toBytes Sample.spec = .ok [0xB4, 7] := by decide +kernel
example : Wire.action .spec false Sample.tag = some [0xB4, 7] := by decide +kernel
example : Wire.action .spec false Sample.readData = some [0x81, 0x41, 0x43, 0xE8, 0x41, 0x2C] := by
  decide +kernel
example : Wire.action .spec false Sample.query
    = some [0x08, 0x59, 2, 0xFF, 0x0F, 0x12, 0x34, 0x43, 5] := by decide +kernel
example : Wire.action .wizzilab false Sample.dash7Status = some [0x62, 0xD7, 25, 0x3A, 0x01, 0x23, 70, 80,
    90, 0xB0, 0xAB, 0xCD, 0x5F, 0x27, 0x21, 0x00, 0x11, 0x22, 0x33, 0x44, 0x55, 0x66, 0x77, 1, 2, 3, 4, 5] := by
  decide +kernel
example : Sample.command.actions.all (fun a => !a.isTx) ∧
    (Wire.command .spec false Sample.command).isSome := by decide +kernel
/-- Refused: a length operand of 2^30. -/
example : Wire.action .spec false (.readFileData ⟨⟨true, false⟩, ⟨1⟩, ⟨0x41, ⟨1000⟩⟩, ⟨2 ^ 30⟩⟩) = none := by
  decide +kernel


/-! ## C20 -/

/-- The actions with file data. -/
def Spec.withFileData (a : Action) (o : Op.FileData) : Prop :=
  a = .writeFileData o ∨ a = .writeFileDataFlush o ∨ a = .returnFileData o

theorem Wire.join_cons {o : Option (List U8)} {os : List (Option (List U8))} {b : List U8}
    (h : Wire.join (o :: os) = some b) : ∃ x y, o = some x ∧ Wire.join os = some y ∧ b = x ++ y := by
  cases o with
  | none => cases h
  | some x =>
    simp only [Wire.join] at h
    cases hj : Wire.join os with
    | none => rw [hj] at h; cases h
    | some y => rw [hj] at h; cases h; exact ⟨x, y, rfl, rfl, rfl⟩

theorem Wire.join_one {o : Option (List U8)} {b : List U8} (h : Wire.join [o] = some b) : o = some b := by
  obtain ⟨x, y, h1, h2, h3⟩ := Wire.join_cons h
  cases h2
  rw [h1, h3, List.append_nil]

theorem Wire.length_some {n : Nat} {b : List U8} (h : Wire.length n = some b) : n < 2 ^ 30 ∧ b = Spec.length n := by
  unfold Wire.length at h
  split at h
  · rename_i hn; cases h; exact ⟨hn, rfl⟩
  · cases h

theorem Wire.result_ok {o : Option (List U8)} {b : List U8} (h : Wire.result o = .ok b) : o = some b := by
  cases o <;> cases h
  rfl

theorem File.toBytes_layout (cfg : Cfg) (f : File) :
    (f.write cfg).toBytes = Wire.result (Wire.file cfg.bigEndianHost f) := (File.lay cfg f).toBytes

theorem fileData_bytes {cfg : Cfg} {a : Action} {o : Op.FileData} (ha : Spec.withFileData a o) {bytes : List U8}
    (h : a.toBytes cfg = .ok bytes) : ∃ payload, (o.data.write cfg).toBytes = .ok payload ∧
      o.offset.offset.val.toNat < 2 ^ 30 ∧ payload.length % 2 ^ 32 < 2 ^ 30 ∧
      bytes = BitVec.ofNat 8 (o.header.group.toNat * 128 + o.header.response.toNat * 64 + Spec.opcodeOf a) ::
        o.offset.fileId :: Spec.length o.offset.offset.val.toNat ++
        Spec.length (payload.length % 2 ^ 32) ++ payload := by
  obtain ⟨hc, h⟩ : Spec.opcodeOf a < 64 ∧ Wire.fileData cfg.bigEndianHost (Spec.opcodeOf a) o = some bytes := by
    rcases ha with rfl | rfl | rfl <;> rw [C51_action_layout _ _ rfl] at h <;>
      exact ⟨by simp [Spec.opcodeOf], Wire.result_ok h⟩
  generalize Spec.opcodeOf a = code at hc h ⊢
  obtain ⟨h1, _, e1, h', rfl⟩ := Wire.join_cons h
  obtain ⟨h2, h3, e2, h3', rfl⟩ := Wire.join_cons h'
  have e3 := Wire.join_one h3'
  cases hf : Wire.file cfg.bigEndianHost o.data with
  | none => rw [hf] at e3; cases e3
  | some payload =>
    rw [hf] at e3
    refine ⟨payload, by rw [File.toBytes_layout, hf]; rfl, ?_⟩
    have e1' : h1 = [BitVec.ofNat 8 (o.header.group.toNat * 128 + o.header.response.toNat * 64 + code)] := by
      injection e1 with e1
      subst e1
      have hg : o.header.group.toNat < 2 := by cases o.header.group <;> decide
      have hr : o.header.response.toNat < 2 := by cases o.header.response <;> decide
      simp only [Spec.bigEndian, Wire.bits, Wire.width]
      congr 2
      rw [Nat.mod_eq_of_lt (a := code) (by omega)]
      omega
    obtain ⟨x1, x2, f1, f2, rfl⟩ := Wire.join_cons e2
    obtain ⟨x3, x4, f3, f4, rfl⟩ := Wire.join_cons e3
    obtain ⟨k1, rfl⟩ := Wire.length_some (Wire.join_one f2)
    obtain ⟨k2, rfl⟩ := Wire.length_some f3
    cases f1
    have f4 := Wire.join_one f4
    injection f4 with f4
    subst f4
    exact ⟨k1, k2, by simp [e1']⟩

/-- **C20** below 2^32 bytes: the action is a first byte with the opcode, the file id, the offset, and then
the payload preceded by its length. Where it is encoded at all, the length operand is the number of bytes
following it. Missing: payloads of 2^32 bytes and more, see `C20_huge_violates`. -/
theorem C20_length_operand_partial (cfg : Cfg) (a : Action) (o : Op.FileData) (ha : Spec.withFileData a o)
    (bytes payload : List U8) (h : a.toBytes cfg = .ok bytes)
    (hp : (o.data.write cfg).toBytes = .ok payload) (hlt : payload.length < 2 ^ 32) :
    payload.length < 2 ^ 30 ∧
    bytes = BitVec.ofNat 8 (o.header.group.toNat * 128 + o.header.response.toNat * 64 + Spec.opcodeOf a) ::
      o.offset.fileId :: Spec.length o.offset.offset.val.toNat ++ Spec.length payload.length ++ payload := by
  obtain ⟨p, h1, -, h3, h4⟩ := fileData_bytes ha h
  rw [hp] at h1
  cases h1
  rw [Nat.mod_eq_of_lt hlt] at h3 h4
  exact ⟨h3, h4⟩

/-- **C20** seen from the decoder: the length operand behind the file offset decodes to the number of bytes
that follow it. -/
theorem C20_length_decodes_partial (cfg : Cfg) (a : Action) (o : Op.FileData) (ha : Spec.withFileData a o)
    (bytes payload : List U8) (h : a.toBytes cfg = .ok bytes)
    (hp : (o.data.write cfg).toBytes = .ok payload) (hlt : payload.length < 2 ^ 32) :
    ∃ first rest, bytes = first :: rest ∧ ∃ rest', derivedFromBytes FileOffset.read.run (rest, 0)
        = .ok ((rest', 0), o.offset) ∧ ∃ l, derivedFromBytes Length.read.run (rest', 0) = .ok ((payload, 0), l) ∧
      l.val.toNat = payload.length := by
  obtain ⟨h3, h4⟩ := C20_length_operand_partial cfg a o ha bytes payload h hp hlt
  obtain ⟨-, -, ho, -, -⟩ := fileData_bytes ha h
  refine ⟨_, _, h4, ?_⟩
  obtain ⟨ob, e1, -, e2⟩ := (FileOffset.rt (f := o.offset) ho).derived (FileOffset.mod8 _)
  have e1' := e1.symm.trans (FileOffset.lay o.offset).toBytes
  rw [Wire.fileOffset, Wire.length, if_pos ho] at e1'
  cases e1'
  have hl : (BitVec.ofNat 32 payload.length).toNat = payload.length := by
    rw [BitVec.toNat_ofNat, Nat.mod_eq_of_lt hlt]
  obtain ⟨lb, l1, -, l2⟩ := C09_inverts ⟨BitVec.ofNat 32 payload.length⟩ (by rw [hl]; exact h3) payload
  have l1' := l1.symm.trans (Length.lay _).toBytes
  rw [Wire.length, hl, if_pos h3] at l1'
  cases l1'
  refine ⟨_, ?_, _, l2, hl⟩
  rw [← e2]
  simp

/-- **C20** fails from 2^32 bytes on: such a payload is written behind the length operand 0. -/
theorem C20_huge_violates (cfg : Cfg) (b : List U8) (hb : b.length = 2 ^ 32) :
    (Action.writeFileData ⟨⟨false, false⟩, ⟨4⟩, ⟨0x42, ⟨0⟩⟩, .other b⟩).toBytes cfg
      = .ok ([0x04, 0x42, 0, 0] ++ b) := by
  rw [C51_action_layout _ _ rfl]
  have h1 : Wire.header ⟨false, false⟩ 4 = some [0x04] := by decide
  have h2 : Wire.fileOffset ⟨0x42, ⟨0⟩⟩ = some [0x42, 0] := by decide +kernel
  have h3 : Wire.prefixed (some b) = some (0 :: b) := by
    have : Wire.length (2 ^ 32 % 2 ^ 32) = some [0] := by decide +kernel
    simp only [Wire.prefixed, hb, this, Wire.join, List.append_nil, List.cons_append, List.nil_append]
  simp only [Wire.action, Wire.fileData, Wire.file, Wire.raw, h1, h2, h3, Wire.join, Wire.result,
    List.append_nil, List.cons_append, List.nil_append]


example : ∃ o payload, Spec.withFileData Sample.writeData o ∧ (o.data.write Sample.spec).toBytes = .ok payload ∧
    payload.length = 3 ∧ Sample.writeData.toBytes Sample.spec = .ok ([0x44, 0x42, 0, 3] ++ payload) :=
  ⟨_, [0xAA, 0xBB, 0xCC], Or.inl rfl, by decide +kernel⟩
example : ∃ b : List U8, b.length = 2 ^ 32 := ⟨List.replicate (2 ^ 32) 0, List.length_replicate⟩

end Dash7

#print axioms Dash7.C51_action_layout
#print axioms Dash7.C51_command_layout
#print axioms Dash7.C51_tx_layout
#print axioms Dash7.C20_length_operand_partial
#print axioms Dash7.C20_length_decodes_partial
#print axioms Dash7.C20_huge_violates
