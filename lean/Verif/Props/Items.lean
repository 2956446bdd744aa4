import Verif.Lemmas.Items
import Verif.Props.Samples

/-!
# C59, C60: types read and written on their own
-/

namespace Dash7
open Sample Spec

/-! ## C59 -/

/-- **C59** `T::try_from(data)` gives `v` exactly if the bytes, all of them, stand for `v`. -/
theorem C59_try_from (cfg : Cfg) (i : Item) (data : List U8) (v : i.Val) :
    i.tryFrom cfg data = .ok v ↔ Form.item cfg i v (Form.ofBytes data) :=
  Item.tryFrom_iff cfg i data v

/-- **C59** `T::from_bytes((data, off))` gives `v` exactly if the bits from `off` on begin with a form of `v`; what
it hands back starts right behind that form: the bytes from the one holding the next bit on, and the place of the
next bit in its byte. -/
theorem C59_from_bytes (cfg : Cfg) (i : Item) (data : List U8) (off : Nat) (rest : Rest) (v : i.Val) :
    i.fromBytes cfg (data, off) = .ok (rest, v) ↔ off ≤ 8 * data.length ∧
      ∃ form more, (Form.ofBytes data).drop off = form ++ more ∧ Form.item cfg i v form ∧
        rest = (data.drop ((off + form.length) / 8), (off + form.length) % 8) :=
  Item.fromBytes_iff cfg i data off rest v

/-- **C59** Every form of a type exceeds whole bytes by the same number of bits. -/
theorem C59_width (cfg : Cfg) (i : Item) (v : i.Val) (form : List Bool) (h : Form.item cfg i v form) :
    form.length % 8 = bitsOver cfg i :=
  Item.width h

/-- **C59** A type that ends within a byte is never taken by its own `try_from`, whatever the bytes. -/
theorem C59_part_of_a_byte (cfg : Cfg) (i : Item) (h : bitsOver cfg i ≠ 0) (data : List U8) (v : i.Val) :
    i.tryFrom cfg data ≠ .ok v := by
  intro hv
  have := Item.width ((C59_try_from cfg i data v).1 hv)
  rw [Form.ofBytes_length] at this
  omega

/-- **C59** No two values have a form in common, nor does one value have a form that goes on after a form of
another one. -/
theorem C59_unambiguous (cfg : Cfg) (i : Item) (v w : i.Val) (a b more : List Bool) (ha : Form.item cfg i v a)
    (hb : Form.item cfg i w b) (h : b = a ++ more) : v = w ∧ more = [] := by
  have h1 := (Item.fits cfg i v a more).2 ha
  have h2 := (Item.fits cfg i w b []).2 hb
  rw [List.append_nil, h, h1] at h2
  simp only [Except.ok.injEq, Prod.mk.injEq] at h2
  exact h2

example : Item.channel.tryFrom spec [0x32, 0x01, 0x02] = .ok ⟨⟨.band868, .loRate, .fecPn9⟩, 0x0102⟩ := by
  decide +kernel
example : Item.length.tryFrom spec [0x41, 0x02] = .ok ⟨0x102⟩ := by decide +kernel
example : Item.length.fromBytes spec ([0xF4, 0x10, 0x2F], 4) = .ok (([0x2F], 4), ⟨0x102⟩) := by decide +kernel
example : Item.opCode.fromBytes spec ([0xE4, 0x0F], 2) = .ok (([0x0F], 0), ⟨0x24⟩) := by decide +kernel
example : Item.opCode.tryFrom spec [0x24] = .error (.fault .parse) := by decide +kernel
example : Item.file.tryFrom spec [] = .ok (.other []) := by decide +kernel
example : bitsOver spec .netControl = 1 ∧ Item.netControl.fromBytes spec ([0x80, 0x80], 0) =
    .ok (([0x80], 1), ⟨true, false, .nbId, .aesCtr⟩) := by decide +kernel

/-! ## C60 -/

/-- **C60** Any value that has a form at all, other than the status of an unknown interface, can be written; what
is written is one of its forms, filled up with zero bits to a whole byte; and `from_bytes` reads it back, up to the
zero bits. -/
theorem C60_from_bytes_partial (cfg : Cfg) (i : Item) (v : i.Val) (form : List Bool) (h : Form.item cfg i v form)
    (hu : ¬ unknownInterface i v) :
    ∃ bytes written zeros, i.toBytes cfg v = .ok bytes ∧ Form.ofBytes bytes = written ++ zeros ∧
      Form.item cfg i v written ∧ zeros = List.replicate ((8 - bitsOver cfg i) % 8) false ∧
      i.fromBytes cfg (bytes, 0) = .ok ((bytes.drop (written.length / 8), bitsOver cfg i), v) := by
  obtain ⟨c, hw, hF⟩ := Item.written (Item.rt h hu)
  have hwd := Item.width hF
  have hb : Form.ofBytes (packBits c) = c ++ List.replicate ((8 - bitsOver cfg i) % 8) false := by
    rw [Form.ofBytes_eq, packBits_zeros, hwd, bytesBits_packBits]
    rw [List.length_append, List.length_replicate]
    omega
  refine ⟨packBits c, c, _, ?_, hb, hF, rfl, ?_⟩
  · unfold Item.toBytes
    rw [hw]; rfl
  · rw [C59_from_bytes]
    refine ⟨by omega, c, _, hb, hF, ?_⟩
    rw [Nat.zero_add, hwd]

/-- **C60** For a type of whole bytes, `T::try_from(v.to_bytes())` gives `v` back exactly if `v` has a form, the status
of an unknown interface aside. -/
theorem C60_try_from_partial (cfg : Cfg) (i : Item) (v : i.Val) (hw : bitsOver cfg i = 0)
    (hu : ¬ unknownInterface i v) :
    (∃ bytes, i.toBytes cfg v = .ok bytes ∧ i.tryFrom cfg bytes = .ok v) ↔ ∃ form, Form.item cfg i v form := by
  constructor
  · rintro ⟨bytes, -, h⟩
    exact ⟨_, (C59_try_from cfg i bytes v).1 h⟩
  · rintro ⟨form, h⟩
    obtain ⟨bytes, written, zeros, h1, h2, h3, h4, -⟩ := C60_from_bytes_partial cfg i v form h hu
    refine ⟨bytes, h1, (C59_try_from cfg i bytes v).2 ?_⟩
    rw [hw] at h4
    rw [h2, h4, show (8 - 0) % 8 = 0 from rfl, List.replicate_zero, List.append_nil]
    exact h3

/-- **C60** fails for every type that ends within a byte: no value of it comes back. -/
theorem C60_part_of_a_byte_violates (cfg : Cfg) (i : Item) (h : bitsOver cfg i ≠ 0) (v : i.Val) :
    ¬ ∃ bytes, i.toBytes cfg v = .ok bytes ∧ i.tryFrom cfg bytes = .ok v :=
  fun ⟨bytes, _, ht⟩ => C59_part_of_a_byte cfg i h bytes v ht

/-- **C60** fails for the status of an unknown interface, in every build: a status that was read is written, and does
not come back. -/
theorem C60_unknown_interface_violates (cfg : Cfg) :
    ∃ data o bytes, Item.interfaceStatusOperation.tryFrom cfg data = .ok o ∧
      Item.interfaceStatusOperation.toBytes cfg o = .ok bytes ∧
      ∃ e, Item.interfaceStatusOperation.tryFrom cfg bytes = .error e := by
  cases hu : cfg.unitPatConsumes with
  | false =>
    refine ⟨[0x40, 0x02, 0x01, 0xBB], ⟨.unknown, .other [0x01, 0xBB]⟩, [0x02, 0x01, 0xBB], ?_⟩
    rcases cfg with ⟨v, a, b, c, d⟩
    cases hu
    cases v <;> cases a <;> cases b <;> cases c <;>
      exact ⟨by decide +kernel, by decide +kernel, .fault .parse, by decide +kernel⟩
  | true =>
    refine ⟨[0x10, 0x02, 0x01, 0xBB], ⟨.unknown, .other [0x01, 0xBB]⟩, [0x02, 0x01, 0xBB], ?_⟩
    rcases cfg with ⟨v, a, b, c, d⟩
    cases hu
    cases v <;> cases a <;> cases b <;> cases c <;>
      exact ⟨by decide +kernel, by decide +kernel, .fault .parse, by decide +kernel⟩

example : Form.item spec .channel ⟨⟨.band868, .loRate, .fecPn9⟩, 0x0102⟩ (Form.ofBytes [0x32, 0x01, 0x02]) ∧
    bitsOver spec .channel = 0 ∧ ¬ unknownInterface .channel ⟨⟨.band868, .loRate, .fecPn9⟩, 0x0102⟩ :=
  ⟨(C59_try_from spec .channel _ _).1 (by decide +kernel), rfl, fun h => h⟩
example : bitsOver spec .opCode = 6 ∧ Item.opCode.toBytes spec ⟨0x24⟩ = .ok [0x90] ∧
    Item.opCode.fromBytes spec ([0x90], 0) = .ok (([0x90], 6), ⟨0x24⟩) ∧
    Item.opCode.tryFrom spec [0x90] = .error (.fault .parse) := by decide +kernel
example : Item.netControl.toBytes spec ⟨true, false, .nbId, .aesCtr⟩ = .ok [0x80, 0x80] ∧
    bitsOver spec .netControl = 1 := by decide +kernel

end Dash7

#print axioms Dash7.C59_try_from
#print axioms Dash7.C59_from_bytes
#print axioms Dash7.C59_width
#print axioms Dash7.C59_part_of_a_byte
#print axioms Dash7.C59_unambiguous
#print axioms Dash7.C60_from_bytes_partial
#print axioms Dash7.C60_try_from_partial
#print axioms Dash7.C60_part_of_a_byte_violates
#print axioms Dash7.C60_unknown_interface_violates
