import Verif.Props.Reserved
import Verif.Model.Frame

/-!
# C48: sub-byte fields
-/

namespace Dash7

/-- A value cut down to `n` bits. -/
def Spec.cut {w : Nat} (n : Nat) (v : BitVec w) : BitVec w := BitVec.ofNat w (v.toNat % 2 ^ n)

theorem Spec.cut_toNat {w : Nat} (n : Nat) (v : BitVec w) : (Spec.cut n v).toNat = v.toNat % 2 ^ n := by
  unfold Spec.cut
  rw [BitVec.toNat_ofNat, Nat.mod_eq_of_lt (Nat.lt_of_le_of_lt (Nat.mod_le _ _) v.isLt)]

theorem Spec.cut_lt {w : Nat} (n : Nat) (v : BitVec w) : (Spec.cut n v).toNat < 2 ^ n := by
  rw [Spec.cut_toNat]; exact Nat.mod_lt _ (Nat.two_pow_pos n)

theorem W.uint_cut {w : Nat} (n : Nat) (v : BitVec w) : W.uint n (Spec.cut n v) = W.uint n v := by
  unfold W.uint
  rw [Spec.cut_toNat, ← natBits_eq_mod]

/-- **C48** access class: two nibbles, cut down each on its own. -/
theorem C48_access_class (a : AccessClass) :
    a.write.toBytes = .ok [BitVec.ofNat 8 (a.specifier.toNat % 16 * 16 + a.mask.toNat % 16)] ∧
    derivedTryFrom AccessClass.read.run [BitVec.ofNat 8 (a.specifier.toNat % 16 * 16 + a.mask.toNat % 16)]
      = .ok ⟨Spec.cut 4 a.specifier, Spec.cut 4 a.mask⟩ := by
  have h1 : a.write.toBytes = .ok [BitVec.ofNat 8 (a.specifier.toNat % 16 * 16 + a.mask.toNat % 16)] := by
    rw [(AccessClass.lay a).toBytes]
    simp [Wire.accessClass, Wire.byte, Wire.packed, Wire.bits, Wire.width, Wire.result, Spec.bigEndian]
  refine ⟨h1, ?_⟩
  have hw : AccessClass.WF ⟨Spec.cut 4 a.specifier, Spec.cut 4 a.mask⟩ := ⟨Spec.cut_lt 4 _, Spec.cut_lt 4 _⟩
  obtain ⟨bytes, hb, hd, -⟩ := (AccessClass.rt hw).derived (AccessClass.mod8 _)
  have he : AccessClass.write ⟨Spec.cut 4 a.specifier, Spec.cut 4 a.mask⟩ = a.write := by
    unfold AccessClass.write
    rw [W.uint_cut, W.uint_cut]
  rw [he, h1] at hb
  injection hb with hb
  rw [hb]
  exact hd

/-- **C48** channel status: an 11-bit channel index behind band and bandwidth. -/
theorem C48_channel_index (c : ChannelStatus) :
    c.write.toBytes = .ok (Spec.bigEndian 2 (Wire.channelBand c.identifier.band * 2 ^ 13 +
      Wire.bandwidth c.identifier.bandwidth * 2 ^ 11 + c.identifier.index.toNat % 2 ^ 11) ++ [c.noiseFloor]) ∧
    ∀ bytes, c.write.toBytes = .ok bytes → derivedTryFrom ChannelStatus.read.run bytes
      = .ok ⟨⟨c.identifier.band, c.identifier.bandwidth, Spec.cut 11 c.identifier.index⟩, c.noiseFloor⟩ := by
  constructor
  · rw [(ChannelStatus.lay c).toBytes]
    have e : Wire.bits [(3, Wire.channelBand c.identifier.band), (2, Wire.bandwidth c.identifier.bandwidth),
        (11, c.identifier.index.toNat)] = Wire.channelBand c.identifier.band * 2 ^ 13 +
      Wire.bandwidth c.identifier.bandwidth * 2 ^ 11 + c.identifier.index.toNat % 2 ^ 11 := by
      simp only [Wire.bits, Wire.width]
      cases c.identifier.band <;> cases c.identifier.bandwidth <;> simp [Wire.channelBand, Wire.bandwidth] <;> omega
    unfold Wire.channelStatus Wire.packed
    rw [e]
    rfl
  · intro bytes hb
    have hw : ChannelStatus.WF ⟨⟨c.identifier.band, c.identifier.bandwidth, Spec.cut 11 c.identifier.index⟩,
        c.noiseFloor⟩ := Spec.cut_lt 11 _
    obtain ⟨bytes', hb', hd, -⟩ := (ChannelStatus.rt hw).derived (ChannelStatus.mod8 _)
    have he : ChannelStatus.write ⟨⟨c.identifier.band, c.identifier.bandwidth, Spec.cut 11 c.identifier.index⟩,
        c.noiseFloor⟩ = c.write := by
      unfold ChannelStatus.write ChannelStatusIdentifier.write
      rw [W.uint_cut]
    rw [he, hb] at hb'
    injection hb' with hb'
    rw [hb']
    exact hd

/-- **C48** link control bytes: a six-bit tag id respectively EIRP index behind the address type. -/
theorem C48_tag_id (c : BackgroundFrameControl) :
    c.write.toBytes = .ok [BitVec.ofNat 8 (Wire.addressType c.addressType * 64 + c.tagId.toNat % 64)] ∧
    ∀ bytes, c.write.toBytes = .ok bytes →
      derivedTryFrom BackgroundFrameControl.read.run bytes = .ok ⟨c.addressType, Spec.cut 6 c.tagId⟩ := by
  have hl : ∀ c : BackgroundFrameControl, Lay c.write (Wire.byte [(2, Wire.addressType c.addressType),
      (6, c.tagId.toNat)]) := fun c =>
    Lay.fld (Fld.cons (AddressType.fld _) (Fld.cons (Fld.uint (by omega)) Fld.nil)) rfl
  constructor
  · rw [(hl c).toBytes]
    cases c.addressType <;>
      simp [Wire.byte, Wire.packed, Wire.bits, Wire.width, Wire.result, Spec.bigEndian, Wire.addressType]
  · intro bytes hb
    have hrt : RT BackgroundFrameControl.read (BackgroundFrameControl.write ⟨c.addressType, Spec.cut 6 c.tagId⟩)
        ⟨c.addressType, Spec.cut 6 c.tagId⟩ :=
      RT.cons (AddressType.rt _) (RT.cons (RT.uint (by omega) (Spec.cut_lt 6 _)) (RT.pure _))
    obtain ⟨bytes', hb', hd, -⟩ := hrt.derived (by
      intro bs hbs
      rw [hl] at hbs
      injection hbs with hbs
      rw [← hbs, bytesBits_length]; simp)
    have he : BackgroundFrameControl.write ⟨c.addressType, Spec.cut 6 c.tagId⟩ = c.write := by
      unfold BackgroundFrameControl.write
      rw [W.uint_cut]
    rw [he, hb] at hb'
    injection hb' with hb'
    rw [hb']
    exact hd

/-- **C48** the EIRP index of a foreground frame. -/
theorem C48_eirp_index (c : ForegroundFrameControl) :
    c.write.toBytes = .ok [BitVec.ofNat 8 (Wire.addressType c.addressType * 64 + c.eirpIndex.toNat % 64)] ∧
    ∀ bytes, c.write.toBytes = .ok bytes →
      derivedTryFrom ForegroundFrameControl.read.run bytes = .ok ⟨c.addressType, Spec.cut 6 c.eirpIndex⟩ := by
  have hl : ∀ c : ForegroundFrameControl, Lay c.write (Wire.byte [(2, Wire.addressType c.addressType),
      (6, c.eirpIndex.toNat)]) := fun c =>
    Lay.fld (Fld.cons (AddressType.fld _) (Fld.cons (Fld.uint (by omega)) Fld.nil)) rfl
  constructor
  · rw [(hl c).toBytes]
    cases c.addressType <;>
      simp [Wire.byte, Wire.packed, Wire.bits, Wire.width, Wire.result, Spec.bigEndian, Wire.addressType]
  · intro bytes hb
    have hrt : RT ForegroundFrameControl.read (ForegroundFrameControl.write ⟨c.addressType, Spec.cut 6 c.eirpIndex⟩)
        ⟨c.addressType, Spec.cut 6 c.eirpIndex⟩ :=
      RT.cons (AddressType.rt _) (RT.cons (RT.uint (by omega) (Spec.cut_lt 6 _)) (RT.pure _))
    obtain ⟨bytes', hb', hd, -⟩ := hrt.derived (by
      intro bs hbs
      rw [hl] at hbs
      injection hbs with hbs
      rw [← hbs, bytesBits_length]; simp)
    have he : ForegroundFrameControl.write ⟨c.addressType, Spec.cut 6 c.eirpIndex⟩ = c.write := by
      unfold ForegroundFrameControl.write
      rw [W.uint_cut]
    rw [he, hb] at hb'
    injection hb' with hb'
    rw [hb']
    exact hd

/-- **C48** frames: cutting the field down changes nothing. -/
theorem C48_frames (cfg : Cfg) (b : BackgroundFrame) (f : ForegroundFrame) :
    b.toBytes cfg = BackgroundFrame.toBytes cfg
      { b with control := { b.control with tagId := Spec.cut 6 b.control.tagId } } ∧
    f.toBytes cfg = ForegroundFrame.toBytes cfg { f with header := { f.header with
      control := { f.header.control with eirpIndex := Spec.cut 6 f.header.control.eirpIndex } } } := by
  constructor
  · unfold BackgroundFrame.toBytes BackgroundFrame.write BackgroundFrameControl.write
    rw [W.uint_cut]
  · unfold ForegroundFrame.toBytes ForegroundFrame.write ForegroundHeader.write ForegroundFrameControl.write
    rw [W.uint_cut]

/-- **C48** string token search: three bits of `max_errors` behind the query type and the mask flag. -/
theorem C48_max_errors (q : StringTokenSearch) (bytes : List U8)
    (h : (Query.stringTokenSearch q).write.toBytes = .ok bytes) :
    (Query.stringTokenSearch { q with maxErrors := Spec.cut 3 q.maxErrors }).write.toBytes = .ok bytes ∧
    (∃ t, bytes = BitVec.ofNat 8 (0xE0 + 16 * q.maskPresent.toNat + q.maxErrors.toNat % 8) :: t) ∧
    ((Query.stringTokenSearch { q with maxErrors := Spec.cut 3 q.maxErrors }).WF →
      derivedTryFrom Query.read.run bytes = .ok (.stringTokenSearch { q with maxErrors := Spec.cut 3 q.maxErrors })) := by
  have he : (Query.stringTokenSearch { q with maxErrors := Spec.cut 3 q.maxErrors }).write
      = (Query.stringTokenSearch q).write := by
    unfold Query.write StringTokenSearch.write
    dsimp only
    rw [W.uint_cut]
  refine ⟨by rw [he, h], ?_, fun hw => ?_⟩
  · rw [(Query.lay _).toBytes] at h
    have h : Wire.join _ = some bytes := Wire.result_ok h
    obtain ⟨t, -, ht⟩ := Wire.byte_cons h
    refine ⟨t, ?_⟩
    rw [ht]
    congr 2
    cases q.maskPresent <;> simp [Wire.bits, Wire.width] <;> omega
  · rw [← he] at h
    obtain ⟨bytes', hb', hd, -⟩ := (Query.rt hw).derived (Query.mod8 _)
    rw [h] at hb'
    injection hb' with hb'
    rw [hb']
    exact hd

/-- The opcode cut down to its six bits. -/
def Spec.cutOp (o : OpCode) : OpCode := ⟨Spec.cut 6 o.code⟩

theorem OpCode.write_cut (o : OpCode) : (Spec.cutOp o).write = o.write := W.uint_cut 6 _

/-- **C48** opcode: an operand without content, byte by byte and read back. -/
theorem C48_opcode (op : OpCode) (a : Op.Nop) :
    (a.write op).toBytes = .ok [BitVec.ofNat 8
      (128 * a.header.group.toNat + 64 * a.header.response.toNat + op.code.toNat % 64)] ∧
    ∀ bytes, (a.write op).toBytes = .ok bytes →
      derivedTryFrom Op.Nop.read.run bytes = .ok ⟨a.header, Spec.cutOp op⟩ := by
  have hl : ∀ (op : OpCode) (a : Op.Nop), Lay (a.write op) (Wire.byte [(1, a.header.group.toNat),
      (1, a.header.response.toNat), (6, op.code.toNat)]) := fun op a => by
    unfold Op.Nop.write
    exact Lay.fld (Fld.cons (ActionHeader.fld _) (Fld.cons (Fld.uint (by omega)) Fld.nil)) rfl
  constructor
  · rw [(hl op a).toBytes]
    rcases a with ⟨⟨g, r⟩, o⟩
    cases g <;> cases r <;> simp [Wire.byte, Wire.packed, Wire.bits, Wire.width, Wire.result, Spec.bigEndian] <;>
      congr 1 <;> omega
  · intro bytes hb
    have hrt : RT Op.Nop.read (Op.Nop.write (Spec.cutOp op) a) ⟨a.header, Spec.cutOp op⟩ :=
      RT.cons (ActionHeader.rt _) (RT.cons (RT.map (RT.uint (by omega) (Spec.cut_lt 6 _)) rfl) (RT.pure _))
    obtain ⟨bytes', hb', hd, -⟩ := hrt.derived (by
      intro bs hbs
      rw [hl] at hbs
      injection hbs with hbs
      rw [← hbs, bytesBits_length]; simp)
    have he : Op.Nop.write (Spec.cutOp op) a = a.write op := by
      unfold Op.Nop.write; rw [OpCode.write_cut]
    rw [he, hb] at hb'
    injection hb' with hb'
    rw [hb']
    exact hd

/-- **C48** opcode: every other operand is encoded as with the opcode cut down to six bits. -/
theorem C48_opcode_operands (cfg : Cfg) (op : OpCode) :
    (∀ a : Op.FileId, a.write op = a.write (Spec.cutOp op)) ∧
    (∀ a : Op.FileData, a.write cfg op = a.write cfg (Spec.cutOp op)) ∧
    (∀ a : Op.FileProperties, a.write op = a.write (Spec.cutOp op)) ∧
    (∀ a : Op.ReadFileData, a.write op = a.write (Spec.cutOp op)) ∧
    (∀ a : Op.ActionQuery, a.write op = a.write (Spec.cutOp op)) ∧
    (∀ a : Op.PermissionRequest, a.write op = a.write (Spec.cutOp op)) ∧
    (∀ a : Op.CopyFile, a.write op = a.write (Spec.cutOp op)) ∧
    (∀ a : Op.StatusOperand, a.write cfg op = a.write cfg (Spec.cutOp op)) ∧
    (∀ a : Op.ResponseTag, a.write op = a.write (Spec.cutOp op)) ∧
    (∀ a : Op.Chunk, a.write op = a.write (Spec.cutOp op)) ∧
    (∀ a : Op.Logic, a.write op = a.write (Spec.cutOp op)) ∧
    (∀ a : Op.Forward, a.write cfg op = a.write cfg (Spec.cutOp op)) ∧
    (∀ a : Op.IndirectForward, a.write cfg op = a.write cfg (Spec.cutOp op)) ∧
    (∀ a : Op.RequestTag, a.write op = a.write (Spec.cutOp op)) ∧
    (∀ a : Op.Extension, a.write op = a.write (Spec.cutOp op)) ∧
    (∀ a : Op.TxStatusOperation, a.write cfg op = a.write cfg (Spec.cutOp op)) := by
  have h := (OpCode.write_cut op).symm
  refine ⟨?_, ?_, ?_, ?_, ?_, ?_, ?_, ?_, ?_, ?_, ?_, ?_, ?_, ?_, ?_, ?_⟩ <;> intro a
  · unfold Op.FileId.write; rw [h]
  · unfold Op.FileData.write; rw [h]
  · unfold Op.FileProperties.write; rw [h]
  · unfold Op.ReadFileData.write; rw [h]
  · unfold Op.ActionQuery.write; rw [h]
  · unfold Op.PermissionRequest.write; rw [h]
  · unfold Op.CopyFile.write; rw [h]
  · unfold Op.StatusOperand.write; rw [h]
  · unfold Op.ResponseTag.write; rw [h]
  · unfold Op.Chunk.write; rw [h]
  · unfold Op.Logic.write; rw [h]
  · unfold Op.Forward.write; rw [h]
  · unfold Op.IndirectForward.write; rw [h]
  · unfold Op.RequestTag.write; rw [h]
  · unfold Op.Extension.write; rw [h]
  · unfold Op.TxStatusOperation.write; rw [h]

/-! ## Cases with fields that are too large -/

example : (AccessClass.write ⟨0xF3, 0x25⟩).toBytes = .ok [0x35] := by decide +kernel
example : derivedTryFrom AccessClass.read.run [0x35] = .ok ⟨3, 5⟩ := by decide +kernel
example : (ChannelStatus.write ⟨⟨.band433, .khz25, 0xF812⟩, 0x44⟩).toBytes = .ok [0x48, 0x12, 0x44] := by
  decide +kernel
example : (BackgroundFrameControl.write ⟨.uId, 0xFF⟩).toBytes = .ok [0xBF] := by decide +kernel
example : (ForegroundFrameControl.write ⟨.uId, 0xC1⟩).toBytes = .ok [0x81] := by decide +kernel
example : (Query.stringTokenSearch ⟨true, 0xFD, ⟨1⟩, [0xAA], [0xBB], ⟨⟨1⟩, ⟨2⟩⟩⟩).write.toBytes
    = .ok [0xF5, 1, 0xAA, 0xBB, 1, 2] := by decide +kernel
example : (Query.stringTokenSearch ⟨true, 0x05, ⟨1⟩, [0xAA], [0xBB], ⟨⟨1⟩, ⟨2⟩⟩⟩).WF := by
  refine ⟨?_, ?_, ?_, ?_, ?_⟩ <;> decide
example : (Op.Nop.write ⟨0xE3⟩ ⟨⟨false, true⟩, ⟨0⟩⟩).toBytes = .ok [0x63] := by decide +kernel

#print axioms C48_access_class
#print axioms C48_channel_index
#print axioms C48_tag_id
#print axioms C48_eirp_index
#print axioms C48_frames
#print axioms C48_max_errors
#print axioms C48_opcode
#print axioms C48_opcode_operands

end Dash7
