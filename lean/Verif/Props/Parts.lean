import Verif.Props.Build
import Verif.Props.Numbers
import Verif.Props.Roundtrip
import Verif.Lemmas.Default

/-!
# C71: numbers and small parts
-/

namespace Dash7
open Sample

/-! ## Specification -/

/-- A flag as a number. -/
def Spec.one (b : Bool) : Nat := if b then 1 else 0

/-- Two flags at the top of a byte. -/
def Spec.topFlags (a b : Bool) : U8 := BitVec.ofNat 8 (128 * Spec.one a + 64 * Spec.one b)

/-- The numbers of the channel bands, classes and codings on the wire. -/
def Spec.bandCode : ChannelBand → Nat
  | .rfu0 => 0 | .rfu1 => 1 | .band433 => 2 | .band868 => 3 | .band915 => 4
def Spec.classCode : ChannelClass → Nat
  | .loRate => 0 | .lora => 1 | .normalRate => 2 | .hiRate => 3
def Spec.codingCode : ChannelCoding → Nat
  | .pn9 => 0 | .rfu => 1 | .fecPn9 => 2 | .cw => 3

/-! ## Lengths -/

/-- **C71** A number handed to `Length::from` as a `u32` is the one handed out again; it comes back from its own
encoding if it is below 2^30, and the encoder refuses it otherwise. -/
theorem C71_length (n : U32) :
    (Length.ofU32 n).toU32 = n ∧ (Length.ofU32 n).toNat = n.toNat ∧
    (n.toNat < 2 ^ 30 → ∃ bytes l, (Length.ofU32 n).write.toBytes = .ok bytes ∧
      derivedTryFrom Length.read.run bytes = .ok l ∧ l.toU32 = n ∧ l.toNat = n.toNat) ∧
    (2 ^ 30 ≤ n.toNat → (Length.ofU32 n).write.toBytes = .error (.fault .invalidParam)) := by
  refine ⟨rfl, rfl, fun h => ?_, fun h => ?_⟩
  · obtain ⟨bytes, h1, h2, -⟩ := C09_inverts (Length.ofU32 n) h []
    exact ⟨bytes, _, h1, h2, rfl, rfl⟩
  · rw [C08_wire_format, if_neg (by show ¬ n.toNat < 2 ^ 30; omega)]

/-- **C71** A number handed to `Length::from` as a `usize` is the one handed out again exactly if it is below 2^32. -/
theorem C71_usize_partial (n : Nat) :
    (Length.ofUsize n).toNat = n % 2 ^ 32 ∧ ((Length.ofUsize n).toNat = n ↔ n < 2 ^ 32) ∧
    (n < 2 ^ 30 → ∃ bytes l, (Length.ofUsize n).write.toBytes = .ok bytes ∧
      derivedTryFrom Length.read.run bytes = .ok l ∧ l.toNat = n) ∧
    (2 ^ 30 ≤ n → n < 2 ^ 32 → (Length.ofUsize n).write.toBytes = .error (.fault .invalidParam)) := by
  have e : (Length.ofUsize n).toNat = n % 2 ^ 32 := BitVec.toNat_ofNat ..
  have e' : (Length.ofUsize n).val.toNat = n % 2 ^ 32 := e
  refine ⟨e, by rw [e]; omega, fun h => ?_, fun h h' => ?_⟩
  · obtain ⟨bytes, h1, h2, -⟩ := C09_inverts (Length.ofUsize n) (by rw [e']; omega) []
    exact ⟨bytes, _, h1, h2, by rw [e]; omega⟩
  · rw [C08_wire_format, if_neg (by rw [e']; omega)]

/-- **C71** fails for a `usize` of 2^32 and more: another number takes its place without notice, and is written. -/
theorem C71_usize_violates :
    (∀ n, 2 ^ 32 ≤ n → (Length.ofUsize n).toNat ≠ n) ∧
    ∃ n bytes l, n < 2 ^ 64 ∧ 2 ^ 32 ≤ n ∧ (Length.ofUsize n).write.toBytes = .ok bytes ∧
      derivedTryFrom Length.read.run bytes = .ok l ∧ l.toNat ≠ n :=
  ⟨fun n h h' => by have := (C71_usize_partial n).2.1.1 h'; omega,
    2 ^ 32 + 5, [5], ⟨5⟩, by decide +kernel⟩

/-! ## Compressed integers -/

theorem VarInt.tryFrom_byte (b : U8) :
    derivedTryFrom VarInt.read.run [b] = .ok ⟨BitVec.ofNat 32 (Spec.varIntValue b), false⟩ := by
  revert b
  exact U8.forall (by decide +kernel)

/-- **C71** A number handed to `VarInt::from` or `VarInt::new_unchecked` is the one handed out again; the encoder takes
it exactly up to 507904; it comes back exactly if some mantissa and exponent give it, and otherwise as a smaller number,
or as a larger one if rounding up was asked for. -/
theorem C71_var_int_partial (n : U32) (ceil : Bool) :
    VarInt.ofU32 n = VarInt.newUnchecked n false ∧ (VarInt.newUnchecked n ceil).toU32 = n ∧
    (507904 < n.toNat → (VarInt.newUnchecked n ceil).write.toBytes = .error (.fault .invalidParam)) ∧
    (n.toNat ≤ 507904 → ∃ b v, (VarInt.newUnchecked n ceil).write.toBytes = .ok [b] ∧
      derivedTryFrom VarInt.read.run [b] = .ok v ∧ (v.toU32 = n ↔ Spec.Compressible n.toNat) ∧
      if ceil then n.toNat ≤ v.toU32.toNat else v.toU32.toNat ≤ n.toNat) := by
  refine ⟨rfl, rfl, fun h => ?_, fun h => ?_⟩
  · have := ((C12_range n ceil).2 h).2
    show (VarInt.write ⟨n, ceil⟩).toBytes = _
    rw [VarInt.write]
    dsimp only
    rw [this]; rfl
  · obtain ⟨i, m, d, hi, hm, hmin, hle, hmeq, hc, hi8, hm8, hd, hdn⟩ := VarInt.compress_spec n ceil h
    have hb := VarInt.write_byte n h _ _ ceil hc
    rw [hi8, hm8] at hb
    have hpos : 0 < 4 ^ i := Nat.pow_pos (by omega)
    have hval : Spec.varIntValue (Spec.varIntByte i m) = m * 4 ^ i := by
      have hbyte : (Spec.varIntByte i m).toNat = i * 32 + m := by
        rw [Spec.varIntByte, BitVec.toNat_ofNat]
        omega
      rw [Spec.varIntValue, hbyte, show (i * 32 + m) / 32 = i by omega, show (i * 32 + m) % 32 = m by omega]
    have hdiv := Nat.div_add_mod n.toNat (4 ^ i)
    rw [Nat.mul_comm] at hdiv
    have hcd : Spec.Compressible n.toNat → n.toNat % 4 ^ i = 0 := by
      rintro ⟨e, he, m', hm', heq⟩
      rcases Nat.lt_or_ge e i with h' | h'
      · have := hmin e h'
        have := Nat.mul_le_mul_right (4 ^ e) (show m' ≤ 31 by omega)
        omega
      · obtain ⟨c, hc⟩ := Nat.pow_dvd_pow 4 h'
        rw [heq, hc, Nat.mul_comm, Nat.mul_assoc]
        exact Nat.mul_mod_right _ _
    have hto : (VarInt.mk (BitVec.ofNat 32 (Spec.varIntValue (Spec.varIntByte i m))) false).toU32.toNat = m * 4 ^ i := by
      rw [VarInt.toU32, hval, BitVec.toNat_ofNat, ← hdn, Nat.mod_eq_of_lt d.isLt]
    refine ⟨_, _, hb, VarInt.tryFrom_byte _, ?_, ?_⟩
    · rw [← BitVec.toNat_inj, hto]
      constructor
      · intro he
        exact ⟨i, hi, m, hm, he.symm⟩
      · intro hcomp
        have h0 := hcd hcomp
        rw [if_neg (by omega), Nat.add_zero] at hmeq
        rw [h0, ← hmeq] at hdiv
        exact hdiv
    · rw [hto]
      have h3 := Nat.mod_lt n.toNat hpos
      cases ceil with
      | true =>
        rw [if_pos rfl, hmeq, Nat.add_mul]
        split
        · omega
        · rename_i h0
          have : n.toNat % 4 ^ i = 0 := by
            have : ¬ n.toNat % 4 ^ i > 0 := fun hx => h0 ⟨rfl, hx⟩
            omega
          omega
      | false =>
        rw [if_neg (by simp), hmeq, if_neg (by simp), Nat.add_zero]
        omega

/-- **C71** fails for a number no mantissa and exponent give: another one comes back, without notice. -/
theorem C71_var_int_violates :
    ∃ n b v, (VarInt.ofU32 n).write.toBytes = .ok [b] ∧ derivedTryFrom VarInt.read.run [b] = .ok v ∧ v.toU32 ≠ n :=
  ⟨33, 0x28, ⟨32, false⟩, by decide +kernel⟩

/-! ## Access classes -/

/-- **C71** The byte of an access class made by `AccessClass::new`; it comes back exactly if both parts are below 16. -/
theorem C71_access_class_partial (s m : U8) :
    (AccessClass.new s m).write.toBytes = .ok [BitVec.ofNat 8 (s.toNat % 16 * 16 + m.toNat % 16)] ∧
    derivedTryFrom AccessClass.read.run [BitVec.ofNat 8 (s.toNat % 16 * 16 + m.toNat % 16)] =
      .ok (AccessClass.new (BitVec.ofNat 8 (s.toNat % 16)) (BitVec.ofNat 8 (m.toNat % 16))) := by
  have key : ∀ x y : Fin 16,
      (W.seq [.ok (natBits 4 x.val), .ok (natBits 4 y.val)]).toBytes = .ok [BitVec.ofNat 8 (x.val * 16 + y.val)] ∧
      derivedTryFrom AccessClass.read.run [BitVec.ofNat 8 (x.val * 16 + y.val)] =
        .ok (AccessClass.new (BitVec.ofNat 8 x.val) (BitVec.ofNat 8 y.val)) := by decide +kernel
  obtain ⟨h1, h2⟩ := key ⟨s.toNat % 16, Nat.mod_lt _ (by omega)⟩ ⟨m.toNat % 16, Nat.mod_lt _ (by omega)⟩
  refine ⟨?_, h2⟩
  rw [← h1]
  simp only [AccessClass.write, AccessClass.new, W.uint, if_neg (show ¬ 8 < 4 by decide)]
  rw [natBits_eq_mod 4 s.toNat, natBits_eq_mod 4 m.toNat]

/-- **C71** The access class made by `AccessClass::unavailable` is written as 0xFF. -/
theorem C71_access_class_unavailable :
    AccessClass.unavailable.write.toBytes = .ok [0xFF] ∧
      derivedTryFrom AccessClass.read.run [0xFF] = .ok AccessClass.unavailable := by decide +kernel

/-- **C71** fails for an access class with a part of 16 or more: another one comes back, without notice. -/
theorem C71_access_class_violates (s m : U8) (h : 16 ≤ s.toNat ∨ 16 ≤ m.toNat) :
    ∃ bytes c, (AccessClass.new s m).write.toBytes = .ok bytes ∧ derivedTryFrom AccessClass.read.run bytes = .ok c ∧
      c ≠ AccessClass.new s m := by
  refine ⟨_, _, (C71_access_class_partial s m).1, (C71_access_class_partial s m).2, ?_⟩
  intro hc
  simp only [AccessClass.new, AccessClass.mk.injEq] at hc
  have h1 := congrArg BitVec.toNat hc.1
  have h2 := congrArg BitVec.toNat hc.2
  rw [BitVec.toNat_ofNat] at h1 h2
  omega

/-! ## Offsets and headers -/

/-- **C71** `FileOffset::no_offset` is the beginning of the file named. -/
theorem C71_no_offset (id : U8) :
    (FileOffset.noOffset id).write.toBytes = .ok [id, 0] ∧
      derivedTryFrom FileOffset.read.run [id, 0] = .ok (.noOffset id) ∧
      (FileOffset.noOffset id).fileId = id ∧ (FileOffset.noOffset id).offset.toNat = 0 := by
  revert id
  exact U8.forall (by decide +kernel)

/-- **C71** `ActionHeader::new` keeps its arguments in their places. -/
theorem C71_action_header (cfg : Cfg) (g r : Bool) :
    Action.toBytes cfg (.nop ⟨.new g r, ⟨0⟩⟩) = .ok [Spec.topFlags g r] ∧
      Action.tryFrom cfg [Spec.topFlags g r] = .ok (.nop ⟨.new g r, ⟨0⟩⟩) ∧
      (ActionHeader.new g r).group = g ∧ (ActionHeader.new g r).response = r := by
  revert cfg
  refine Cfg.forall ?_
  cases g <;> cases r <;> decide +kernel

/-- **C71** `IndirectForwardHeader::new` keeps its arguments in their places. -/
theorem C71_indirect_header (o r : Bool) :
    (Op.IndirectForwardHeader.new o r).write.toBytes = .ok [Spec.topFlags o r] ∧
      (Op.IndirectForwardHeader.new o r).overloaded = o ∧ (Op.IndirectForwardHeader.new o r).response = r := by
  revert o r
  decide +kernel

/-- **C71** The byte of a channel header made by `ChannelHeader::new`, which comes back. -/
theorem C71_channel_header (b : ChannelBand) (c : ChannelClass) (d : ChannelCoding) :
    (ChannelHeader.new b c d).write.toBytes =
      .ok [BitVec.ofNat 8 (16 * Spec.bandCode b + 4 * Spec.classCode c + Spec.codingCode d)] ∧
    derivedTryFrom ChannelHeader.read.run
      [BitVec.ofNat 8 (16 * Spec.bandCode b + 4 * Spec.classCode c + Spec.codingCode d)] = .ok (.new b c d) ∧
    (ChannelHeader.new b c d).band = b ∧ (ChannelHeader.new b c d).cls = c ∧ (ChannelHeader.new b c d).coding = d := by
  cases b <;> cases c <;> cases d <;> decide +kernel

/-! ## Statuses and commands -/

/-- **C71** The status of an interface, made an operation and then a status by `into`, carries the interface's id and
comes back in an action exactly if it is well-formed. -/
theorem C71_into_status (cfg : Cfg) (s : InterfaceStatus) :
    Spec.comesBack cfg (.status (.ofStatus (Op.InterfaceStatusOperation.ofStatus s).intoStatus)) ↔ s.WF cfg :=
  C63_interface_status cfg s

/-- **C71** Likewise the final status of a dash7 interface, in the builds that have it. -/
theorem C71_into_final_status (cfg : Cfg) (hv : cfg.variant = .wizzilab) (c : InterfaceFinalStatusCode) :
    ∃ o, Op.InterfaceFinalStatusOperation.ofStatus (.dash7 c) = .ok o ∧ o.interfaceId = 0xD7 ∧ o.status = .dash7 c ∧
      Spec.comesBack cfg (.status (.ofStatus o.intoStatus)) := by
  obtain ⟨o, h1, h2, h3⟩ := C63_final_status_partial cfg hv c
  refine ⟨o, h1, ?_, h2, h3⟩
  cases h1; rfl

/-- **C71** A command made by `Command::new` has the actions given, and its encoding is theirs, one after the other. -/
theorem C71_command (cfg : Cfg) (as : List Action) (h : ∀ a ∈ as, a.WF cfg) :
    (Command.new as).actions = as ∧
    ∃ parts : List (List U8), as.map (Action.toBytes cfg) = parts.map .ok ∧
      (Command.new as).toBytes cfg = .ok parts.flatten := by
  obtain ⟨parts, h1, h2, h3⟩ := C05_encode_concat cfg as h
  refine ⟨rfl, parts, ?_, h3⟩
  refine List.ext_getElem (by simp [h1]) fun i hi hj => ?_
  simp only [List.getElem_map]
  exact h2 i (by simpa using hi) (by simpa using hj)

example : (Length.ofU32 300).write.toBytes = .ok [0x41, 0x2C] ∧ (Length.ofU32 300).toU32 = 300 := by decide +kernel
example : (VarInt.ofU32 32).write.toBytes = .ok [0x28] ∧ Spec.Compressible 32 ∧ ¬ Spec.Compressible 33 := by
  decide +kernel
example : (AccessClass.new 1 3).write.toBytes = .ok [0x13] ∧ (AccessClass.new 0x11 3).write.toBytes = .ok [0x13] := by
  decide +kernel
example : InterfaceStatus.WF spec (.dash7
    ⟨channel, 70, 80, 90, true, false, true, true, 0xAB, 0xCD, ⟨496, false⟩, addressee⟩) := by decide +kernel
example : wizzilab.variant = .wizzilab ∧ ∀ a ∈ command.actions, a.WF spec := by decide +kernel

end Dash7

#print axioms Dash7.C71_length
#print axioms Dash7.C71_usize_partial
#print axioms Dash7.C71_usize_violates
#print axioms Dash7.C71_var_int_partial
#print axioms Dash7.C71_var_int_violates
#print axioms Dash7.C71_access_class_partial
#print axioms Dash7.C71_access_class_unavailable
#print axioms Dash7.C71_access_class_violates
#print axioms Dash7.C71_no_offset
#print axioms Dash7.C71_action_header
#print axioms Dash7.C71_indirect_header
#print axioms Dash7.C71_channel_header
#print axioms Dash7.C71_into_status
#print axioms Dash7.C71_into_final_status
#print axioms Dash7.C71_command
