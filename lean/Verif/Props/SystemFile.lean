import Verif.Model.SystemFile
import Verif.Lemmas.Enough
import Verif.Props.Files

/-!
# C65, C66, C67: files read under a given id, the ids and sizes published for them, types read on their own
-/

namespace Dash7
open Sample Spec

/-! ## C65 -/

/-- **C65** `File::from_bytes((data, off), id, n)` gives `f` exactly if the bits from `off` on begin with a form of the
content of that file; what it hands back starts right behind that form. -/
theorem C65_from_bytes (cfg : Cfg) (id : U8) (n : U32) (data : List U8) (off : Nat) (rest : Rest) (f : File) :
    Cli.fileFromBytes cfg (data, off) (FileId.ofId id) n = .ok (rest, f) ↔ off ≤ 8 * data.length ∧
      ∃ form more, (Form.ofBytes data).drop off = form ++ more ∧
        Form.file cfg.bigEndianHost id.toNat n.toNat f form ∧
        rest = (data.drop ((off + form.length) / 8), (off + form.length) % 8) := by
  unfold Cli.fileFromBytes
  rw [(File.fits cfg id n).takes.fromBytes]
  have key : ∀ form more, off ≤ 8 * data.length → (Form.ofBytes data).drop off = form ++ more →
      off + form.length ≤ 8 * data.length := by
    intro form more h hc
    have := congrArg List.length hc
    rw [List.length_drop, Form.ofBytes_length, List.length_append] at this
    omega
  have back : ∀ k, off + k ≤ 8 * data.length → ¬ cutsTooFar data off (off + k) ∧
      handedBack data off (off + k) = (data.drop ((off + k) / 8), (off + k) % 8) := by
    intro k hk
    unfold cutsTooFar handedBack
    refine ⟨by omega, ?_⟩
    split
    · rw [show off + k = 8 * data.length by omega]
      simp
    · rfl
  constructor
  · rintro ⟨h, left, m, ⟨c, hc, hF, rfl⟩, -, hr⟩
    exact ⟨h, c, left, hc, hF, hr.trans (back _ (key c left h hc)).2⟩
  · rintro ⟨h, c, left, hc, hF, hr⟩
    have := back _ (key c left h hc)
    exact ⟨h, left, _, ⟨c, hc, hF, rfl⟩, this.1, hr.trans this.2.symm⟩

/-- **C65** A form of a file has as many bytes as its kind. -/
theorem C65_size (cfg : Cfg) (id : U8) (n : U32) (f : File) (form : List Bool)
    (h : Form.file cfg.bigEndianHost id.toNat n.toNat f form) : form.length = 8 * Spec.fileBytes f := by
  have := File.post_bits cfg _ n form [] f ((File.fits cfg id n f form []).2 h)
  have h8 := File.bits_dvd f
  rw [← File.bits_eq]
  omega

/-- **C65** `File::from_bytes` never panics, at whatever offset: it returns a file, `Incomplete` or `Parse`. -/
theorem C65_total (cfg : Cfg) (fid : FileId) (n : U32) (data : List U8) (off : Nat) :
    (∃ v, Cli.fileFromBytes cfg (data, off) fid n = .ok v) ∨
      Cli.fileFromBytes cfg (data, off) fid n = .error .incomplete ∨
      Cli.fileFromBytes cfg (data, off) fid n = .error (.fault .parse) := by
  unfold Cli.fileFromBytes
  rw [P.fromBytes_eq]
  exact P.entry_total (File.safe cfg fid n) data off

/-- **C65** What a file is read as does not depend on the bytes behind it, which are handed back; a refusal is
final; the input cut anywhere before the end of the file is `Incomplete`. -/
theorem C65_more_input (cfg : Cfg) (fid : FileId) (n : U32) (data : List U8) (off : Nat) :
    (∀ rest f more, Cli.fileFromBytes cfg (data, off) fid n = .ok (rest, f) →
      Cli.fileFromBytes cfg (data ++ more, off) fid n = .ok ((rest.1 ++ more, rest.2), f)) ∧
    (∀ e more, e ≠ .incomplete → Cli.fileFromBytes cfg (data, off) fid n = .error e →
      Cli.fileFromBytes cfg (data ++ more, off) fid n = .error e) ∧
    (∀ rest f k, Cli.fileFromBytes cfg (data, off) fid n = .ok (rest, f) →
      8 * k < 8 * (data.length - rest.1.length) + rest.2 →
      Cli.fileFromBytes cfg (data.take k, off) fid n = .error .incomplete) := by
  unfold Cli.fileFromBytes
  simp only [P.fromBytes_eq]
  refine ⟨fun rest f more h => P.entry_extend h more, fun e more hi h => ?_, fun rest f k h hk => P.entry_cut h hk⟩
  cases e with
  | incomplete => exact absurd rfl hi
  | fault e => exact P.entry_fault h more

/-- The number of bytes of file `id`, declared as `n` bytes, where it does not depend on the content. -/
def Spec.sizeOf (id n : Nat) : Option Nat :=
  match id with
  | 0x00 => some 8
  | 0x01 => some 56
  | 0x02 => some 15
  | 0x05 => some 7
  | 0x06 => some 2
  | 0x09 => none
  | 0x0A => some 7
  | 0x0B => some 16
  | 0x0E => some 16
  | id => if 0x20 ≤ id ∧ id ≤ 0x2E then some 65 else some n

/-- **C65** That many bytes are never `Incomplete`. -/
theorem C65_enough (cfg : Cfg) (id : U8) (n : U32) (k : Nat) (hk : Spec.sizeOf id.toNat n.toNat = some k)
    (data : List U8) (off : Nat) (h : off + 8 * k ≤ 8 * data.length) :
    Cli.fileFromBytes cfg (data, off) (FileId.ofId id) n ≠ .error .incomplete := by
  unfold Cli.fileFromBytes
  rw [P.fromBytes_eq]
  refine P.entry_enough (k := 8 * k) ?_ h
  have one : ∀ {α : Type} {j : Nat} {p : P α} {g : α → File}, Enough (8 * j) p →
      Enough (8 * j) (p.bind fun a => P.pure (g a)) := fun h => h.bind fun _ => Enough.pure
  obtain ⟨h0, h1, h2, h5, h6, h9, ha, hb, he⟩ := FileId.ofId_iff id
  have hp := FileId.ofId_accessProfile
  have hs := FileId.ofId_structured id
  unfold Spec.sizeOf at hk
  split at hk
  · rw [h0.2 ‹_›]; cases hk; exact one (j := 8) (Enough.bind (k := 0) Enough.uint fun _ => Enough.pure)
  · rw [h1.2 ‹_›]; cases hk; exact one (j := 56) FactorySettings.enough
  · rw [h2.2 ‹_›]; cases hk; exact one (j := 15) FirmwareVersion.enough
  · rw [h5.2 ‹_›]; cases hk; exact one (j := 7) EngineeringMode.enough
  · rw [h6.2 ‹_›]; cases hk; exact one (j := 2) (Enough.bind (k := 0) Enough.uint fun _ => Enough.pure)
  · cases hk
  · rw [ha.2 ‹_›]; cases hk; exact one (j := 7) DllConfig.enough
  · rw [hb.2 ‹_›]; cases hk; exact one (j := 16) DllStatus.enough
  · rw [he.2 ‹_›]; cases hk; exact one (j := 16) (SecurityKey.enough cfg)
  · split at hk
    · rename_i hr
      rw [(FileId.ofId_accessProfile ⟨id.toNat - 0x20, by omega⟩ id).2
        (show id.toNat = 0x20 + (id.toNat - 0x20) by omega)]
      cases hk; exact one (j := 65) AccessProfile.enough
    · have hs : ¬ Form.structured id.toNat := by
        unfold Form.structured
        simp only [List.mem_cons, List.not_mem_nil, or_false]
        rintro ((h | h | h | h | h | h | h | h | h) | h) <;> contradiction
      rw [← FileId.ofId_structured] at hs
      cases hk
      have hr : File.read cfg (FileId.ofId id) n = (P.count P.u8 n.toNat).bind fun b => P.pure (.other b) := by
        revert hs
        generalize FileId.ofId id = fid
        intro hs
        cases fid <;> first | rfl | cases hs
      rw [hr]
      exact one (j := n.toNat) ((Enough.count Enough.u8 _).mono (by omega))

/-- **C65** A file with representable content, written and followed by anything, is read under its id as it was,
with what follows handed back: a system file whatever the declared length, any other with its own length. -/
theorem C65_roundtrip (cfg : Cfg) (fid : FileId) (f : File) (h : f.WF fid) (n : U32)
    (hn : Spec.structuredFile fid = true ∨ n.toNat = Spec.fileBytes f) :
    ∃ bytes, (f.write cfg).toBytes = .ok bytes ∧
      ∀ more, Cli.fileFromBytes cfg (bytes ++ more, 0) fid n = .ok ((more, 0), f) := by
  have conv : ∀ data, Cli.fileFromBytes cfg (data, 0) fid n = derivedFromBytes (File.read cfg fid n).run (data, 0) := by
    intro data
    unfold Cli.fileFromBytes
    rw [P.fromBytes_eq, P.derivedFromBytes_eq]
  simp only [conv]
  rcases hn with hn | hn
  · obtain ⟨bytes, hb, -, -, hd⟩ := C21_roundtrip cfg fid f h hn n
    exact ⟨bytes, hb, hd⟩
  · obtain ⟨bytes, hb, -, hd⟩ := (File.rt (cfg := cfg) (l := n) h (by rw [File.bits_eq, hn])).derived (File.mod8 cfg f)
    exact ⟨bytes, hb, hd⟩

example : Cli.fileFromBytes spec ([1, 2, 3, 4, 5, 6, 7, 8, 9], 0) .uId 0 =
    .ok (([9], 0), .uId (.uId 0x0102030405060708)) := by decide +kernel
example : Cli.fileFromBytes spec ([0xF1, 0x23, 0x45], 4) (FileId.ofId 0x42) 2 =
    .ok (([0x45], 4), .other [0x12, 0x34]) := by decide +kernel
example : Cli.fileFromBytes spec ([1, 2, 3, 4, 5, 6, 7], 0) .uId 0 = .error .incomplete := by decide +kernel
example : Cli.fileFromBytes spec ([2, 2, 2, 2, 2, 2, 2, 0xFF, 0, 0, 0, 0, 0, 0, 0], 0) .firmwareVersion 0 =
    .error (.fault .parse) := by decide +kernel
example : File.WF (FileId.ofId 0x42) (.other [1, 2]) ∧ (2 : U32).toNat = Spec.fileBytes (.other [1, 2]) :=
  ⟨⟨rfl, by decide⟩, rfl⟩

/-! ## C66 -/

/-- **C66** The published id of a firmware version is the one id under which firmware versions are read. -/
theorem C66_firmware_id (cfg : Cfg) (id : U8) :
    (∃ input n rest v, Cli.fileFromBytes cfg input (FileId.ofId id) n = .ok (rest, .firmwareVersion v)) ↔
      id = FirmwareVersion.systemFile.id := by
  constructor
  · rintro ⟨⟨data, off⟩, n, rest, v, h⟩
    obtain ⟨-, form, more, -, hF, -⟩ := (C65_from_bytes cfg id n data off rest _).1 h
    simp only [Form.file, Form.all_given] at hF
    exact BitVec.eq_of_toNat_eq hF.1
  · rintro rfl
    refine ⟨(List.replicate 15 0x41, 0), 0, ([], 0), ⟨0x41, 0x41, "AAAAAA", "AAAAAAA"⟩, ?_⟩
    have : File.read cfg (FileId.ofId FirmwareVersion.systemFile.id) 0 = File.read spec .firmwareVersion 0 := rfl
    unfold Cli.fileFromBytes
    rw [this]
    decide +kernel

/-- **C66** The published id of access profile `s` is the one id under which it is read. -/
theorem C66_profile_id_partial (cfg : Cfg) (s : U8) (hs : s.toNat < 15) :
    ∃ c, AccessProfile.systemFile s = some c ∧ ∀ id,
      (∃ input n rest p, Cli.fileFromBytes cfg input (FileId.ofId id) n =
          .ok (rest, .accessProfile ⟨s.toNat, hs⟩ p) ∧ AccessProfile.specifier s p = s) ↔ id = c.id := by
  refine ⟨⟨0x20 + s, 0⟩, by unfold AccessProfile.systemFile; rw [if_pos (by omega)], fun id => ?_⟩
  constructor
  · rintro ⟨⟨data, off⟩, n, rest, p, h, -⟩
    obtain ⟨-, form, more, -, hF, -⟩ := (C65_from_bytes cfg id n data off rest _).1 h
    simp only [Form.file, Form.all_given] at hF
    refine BitVec.eq_of_toNat_eq ?_
    rw [hF.1, BitVec.toNat_add]
    simp
    omega
  · rintro rfl
    have hid : FileId.ofId (0x20 + s) = .accessProfile ⟨s.toNat, hs⟩ := by
      rw [FileId.ofId_accessProfile, BitVec.toNat_add]
      simp
      omega
    obtain ⟨bytes, -, hd⟩ := C65_roundtrip cfg (.accessProfile ⟨s.toNat, hs⟩) (.accessProfile ⟨s.toNat, hs⟩
      ⟨⟨.band868, .loRate, .pn9⟩, Vector.replicate 4 ⟨1, ⟨112, false⟩⟩, Vector.replicate 8 ⟨0, 1, 2, 3, 4⟩⟩)
      ⟨rfl, by intro s hs; rw [Vector.mem_replicate] at hs; rw [hs.2]; decide⟩ 0 (.inl rfl)
    rw [hid]
    exact ⟨_, _, _, _, hd [], rfl⟩

/-- **C66** Nothing else is read under the published ids. -/
theorem C66_nothing_else (cfg : Cfg) (input rest : Rest) (n : U32) (f : File) :
    (Cli.fileFromBytes cfg input (FileId.ofId FirmwareVersion.systemFile.id) n = .ok (rest, f) →
      ∃ v, f = .firmwareVersion v) ∧
    (∀ s c, s.toNat < 15 → AccessProfile.systemFile s = some c →
      Cli.fileFromBytes cfg input (FileId.ofId c.id) n = .ok (rest, f) →
      ∃ i p, f = .accessProfile i p ∧ i.val = s.toNat) := by
  obtain ⟨data, off⟩ := input
  constructor
  · intro h
    obtain ⟨-, form, more, -, hF, -⟩ := (C65_from_bytes cfg _ n data off rest _).1 h
    cases f <;> simp [Form.file, Form.all_given, FirmwareVersion.systemFile, Form.structured] at hF ⊢
    omega
  · intro s c hs hc h
    unfold AccessProfile.systemFile at hc
    rw [if_pos (by omega)] at hc
    cases hc
    obtain ⟨-, form, more, -, hF, -⟩ := (C65_from_bytes cfg _ n data off rest _).1 h
    have hid : (0x20 + s).toNat = 0x20 + s.toNat := by rw [BitVec.toNat_add]; simp; omega
    dsimp only at hF
    rw [hid] at hF
    cases f <;> simp [Form.file, Form.all_given, Form.structured] at hF ⊢ <;> omega

/-- **C66** fails for the sizes: no firmware version and no access profile is ever encoded in the published number of
bytes. -/
theorem C66_size_violates (cfg : Cfg) :
    (∀ v bytes, ((File.firmwareVersion v).write cfg).toBytes = .ok bytes →
      bytes.length ≠ FirmwareVersion.systemFile.size.toNat) ∧
    (∀ s c i p bytes, AccessProfile.systemFile s = some c →
      ((File.accessProfile i p).write cfg).toBytes = .ok bytes → bytes.length ≠ c.size.toNat) := by
  constructor
  · intro v bytes h
    rw [C21_size cfg _ rfl bytes h]
    exact (by decide : (15 : Nat) ≠ 17)
  · intro s c i p bytes hc h
    rw [C21_size cfg _ rfl bytes h]
    unfold AccessProfile.systemFile at hc
    split at hc
    · cases hc
      exact (by decide : (65 : Nat) ≠ 0)
    · cases hc

/-- **C66** fails for the ids from specifier 15 on: one is published, yet what is read under it is no access
profile. -/
theorem C66_profile_id_violates (cfg : Cfg) :
    ∃ s c, AccessProfile.systemFile s = some c ∧ ∀ input n rest f,
      Cli.fileFromBytes cfg input (FileId.ofId c.id) n = .ok (rest, f) → ∃ b, f = .other b := by
  refine ⟨15, ⟨0x2F, 0⟩, rfl, fun input n rest f h => ?_⟩
  obtain ⟨data, off⟩ := input
  obtain ⟨-, form, more, -, hF, -⟩ := (C65_from_bytes cfg _ n data off rest _).1 h
  cases f <;> simp [Form.file, Form.all_given] at hF ⊢
  omega

/-- **C66** The published size of a firmware version is enough to read it: that many bytes are never too few. -/
theorem C66_size_partial (cfg : Cfg) (n : U32) (data : List U8)
    (h : data.length = FirmwareVersion.systemFile.size.toNat) :
    Cli.fileFromBytes cfg (data, 0) (FileId.ofId FirmwareVersion.systemFile.id) n ≠ .error .incomplete := by
  rw [Ne]
  exact C65_enough cfg _ n 15 (by simp [Spec.sizeOf, FirmwareVersion.systemFile]) data 0
    (by rw [h]; decide)

example : ((File.firmwareVersion ⟨1, 2, "abcdef", "1234567"⟩).write spec).toBytes =
    .ok [1, 2, 97, 98, 99, 100, 101, 102, 49, 50, 51, 52, 53, 54, 55] := by decide +kernel
example : AccessProfile.systemFile 3 = some ⟨0x23, 0⟩ ∧ AccessProfile.systemFile 0xE0 = none := by decide

/-! ## C67 -/

/-- **C67** Neither `T::from_bytes` nor `T::try_from` ever panics, at whatever offset: the outcome is a value,
`Incomplete` or `Parse`. -/
theorem C67_total (cfg : Cfg) (i : Item) (data : List U8) (off : Nat) :
    ((∃ v, i.fromBytes cfg (data, off) = .ok v) ∨ i.fromBytes cfg (data, off) = .error .incomplete ∨
      i.fromBytes cfg (data, off) = .error (.fault .parse)) ∧
    ((∃ v, i.tryFrom cfg data = .ok v) ∨ i.tryFrom cfg data = .error .incomplete ∨
      i.tryFrom cfg data = .error (.fault .parse)) := by
  unfold Item.fromBytes Item.tryFrom
  rw [P.derivedFromBytes_eq]
  exact ⟨P.entry_total (Item.safe cfg i) data off, P.try_total (Item.safe cfg i) data⟩

/-- **C67** What `T::from_bytes` gives does not depend on the bytes behind it, which are handed back; `T::try_from`
accepts none. -/
theorem C67_more_input (cfg : Cfg) (i : Item) (data more : List U8) (off : Nat) (v : i.Val) :
    (∀ rest, i.fromBytes cfg (data, off) = .ok (rest, v) →
      i.fromBytes cfg (data ++ more, off) = .ok ((rest.1 ++ more, rest.2), v)) ∧
    (i.tryFrom cfg data = .ok v → more ≠ [] → i.tryFrom cfg (data ++ more) = .error (.fault .parse)) := by
  unfold Item.fromBytes Item.tryFrom
  simp only [P.derivedFromBytes_eq]
  exact ⟨fun rest h => P.entry_extend h more, fun h hm => P.try_extend h more hm⟩

/-- **C67** A refusal is final: no more input changes it. -/
theorem C67_refusal (cfg : Cfg) (i : Item) (data more : List U8) (off : Nat) (e : Err) (he : e ≠ .incomplete) :
    (i.fromBytes cfg (data, off) = .error e → i.fromBytes cfg (data ++ more, off) = .error e) ∧
    (i.tryFrom cfg data = .error e → i.tryFrom cfg (data ++ more) = .error e) := by
  unfold Item.fromBytes Item.tryFrom
  simp only [P.derivedFromBytes_eq]
  cases e with
  | incomplete => exact absurd rfl he
  | fault e => exact ⟨fun h => P.entry_fault h more, fun h => P.try_fault h more⟩

/-- **C67** Input cut anywhere before the end of a value is `Incomplete`: never a refusal, never another value. -/
theorem C67_cut (cfg : Cfg) (i : Item) (data : List U8) (off k : Nat) (v : i.Val) :
    (∀ rest, i.fromBytes cfg (data, off) = .ok (rest, v) → 8 * k < 8 * (data.length - rest.1.length) + rest.2 →
      i.fromBytes cfg (data.take k, off) = .error .incomplete) ∧
    (i.tryFrom cfg data = .ok v → k < data.length → i.tryFrom cfg (data.take k) = .error .incomplete) := by
  unfold Item.fromBytes Item.tryFrom
  simp only [P.derivedFromBytes_eq]
  exact ⟨fun rest h hk => P.entry_cut h hk, fun h hk => P.try_cut h hk⟩

example : Item.channel.fromBytes spec ([0xF3, 0x20, 0x10, 0x2F], 4) =
    .ok (([0x2F], 4), ⟨⟨.band868, .loRate, .fecPn9⟩, 0x0102⟩) ∧
    Item.channel.fromBytes spec ([0xF3, 0x20, 0x10], 4) = .error .incomplete ∧
    Item.channel.fromBytes spec ([0xF7, 0x20, 0x10, 0x2F], 4) = .error (.fault .parse) ∧
    Item.channel.fromBytes spec ([0xF0, 0x20, 0x10, 0x2F], 40) = .error .incomplete := by decide +kernel
example : Item.channel.tryFrom spec [0x32, 0x01, 0x02] = .ok ⟨⟨.band868, .loRate, .fecPn9⟩, 0x0102⟩ ∧
    Item.channel.tryFrom spec [0x32, 0x01] = .error .incomplete ∧
    Item.channel.tryFrom spec [0x32, 0x01, 0x02, 0x03] = .error (.fault .parse) := by decide +kernel

example : Spec.sizeOf 0x23 0 = some 65 ∧ Spec.sizeOf 0x42 7 = some 7 ∧ Spec.sizeOf 9 7 = none := by decide

#print axioms C65_from_bytes
#print axioms C65_size
#print axioms C65_total
#print axioms C65_more_input
#print axioms C65_enough
#print axioms C65_roundtrip
#print axioms C66_firmware_id
#print axioms C66_profile_id_partial
#print axioms C66_nothing_else
#print axioms C66_size_violates
#print axioms C66_profile_id_violates
#print axioms C66_size_partial
#print axioms C67_total
#print axioms C67_more_input
#print axioms C67_refusal
#print axioms C67_cut

end Dash7
