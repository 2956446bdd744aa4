import Verif.Lemmas.Ids
import Verif.Props.Files
import Verif.Props.Samples

/-!
# C70: identifiers and the noise floor, on their own
-/

namespace Dash7
open Sample

/-! ## Specification -/

/-- The interface ids with a name of their own. -/
def Spec.namedInterface (b : U8) : Bool := b.toNat ≤ 3 ∨ b.toNat = 0xD7

/-- What `from_bytes` hands back when it has read up to bit `pos`. -/
def Spec.restFrom (data : List U8) (pos : Nat) : Rest := (data.drop (pos / 8), pos % 8)

/-! ## Lemmas -/

theorem bytesBits_single (b : U8) : bytesBits [b] = natBits 8 b.toNat := by simp [bytesBits]

theorem W.u8_toBytes (b : U8) : (W.u8 b).toBytes = .ok [b] := by
  revert b
  exact U8.forall (by decide +kernel)

theorem P.tagged_id {α : Type} (cfg : Cfg) (unit : U8 → Bool) (f : U8 → α) (s t : List Bool) (a : α) :
    P.tagged cfg 8 unit (fun i => P.pure (f i)) s = .ok (a, t) ↔
      ∃ i c more, s = c ++ more ∧ Form.field 8 i.toNat c ∧ a = f i ∧
        t = if unit i && !cfg.unitPatConsumes then s else more := by
  unfold P.tagged
  constructor
  · intro h
    split at h
    · cases h
    · rename_i i s' he
      rw [P.eval_pure] at h
      simp only [Except.ok.injEq, Prod.mk.injEq] at h
      obtain ⟨c, rfl, -⟩ := P.eval_ok _ he
      exact ⟨i, c, s', rfl, (Fits.u8 _ _ _).1 he, h.1.symm, h.2.symm⟩
  · rintro ⟨i, c, more, rfl, hc, rfl, rfl⟩
    have : (P.uint 8 8).eval (c ++ more) = .ok (i, more) := (Fits.u8 _ _ _).2 hc
    rw [this]
    dsimp only
    rw [P.eval_pure]

theorem P.tagged_id_short {α : Type} (cfg : Cfg) (unit : U8 → Bool) (f : U8 → α) (s : List Bool) (h : s.length < 8) :
    P.tagged cfg 8 unit (fun i => P.pure (f i)) s = .error .incomplete := by
  unfold P.tagged
  rw [P.uint, if_neg (by omega), P.eval_bits, if_neg (by omega)]

theorem tagged_from_bytes {α : Type} (cfg : Cfg) (unit : U8 → Bool) (f : U8 → α) (data : List U8) (off : Nat) (rest : Rest)
    (a : α) :
    derivedFromBytes (readTagged cfg 8 unit fun i => P.pure (f i)) (data, off) = .ok (rest, a) ↔
      ∃ b form more, off ≤ 8 * data.length ∧ (Form.ofBytes data).drop off = form ++ more ∧ Form.field 8 b.toNat form ∧
        a = f b ∧ rest = Spec.restFrom data (if unit b && !cfg.unitPatConsumes then off else off + 8) := by
  rw [readTagged_fromBytes, Form.ofBytes_eq]
  have key : ∀ (i : U8) (c more : List Bool), off ≤ 8 * data.length → (bytesBits data).drop off = c ++ more →
      Form.field 8 i.toNat c →
      8 * data.length - (if (unit i && !cfg.unitPatConsumes) = true then (bytesBits data).drop off else more).length =
        if unit i && !cfg.unitPatConsumes then off else off + 8 := by
    intro i c more h hs hc
    have hl := congrArg List.length hs
    rw [List.length_drop, bytesBits_length, List.length_append, hc.1] at hl
    split
    · rw [List.length_drop, bytesBits_length]; omega
    · omega
  constructor
  · intro h
    split at h
    · rename_i hoff
      split at h
      · cases h
      · rename_i a' s' ht
        obtain ⟨i, c, more, hs, hc, rfl, rfl⟩ := (P.tagged_id cfg unit f _ _ _).1 ht
        rw [key i c more hoff hs hc] at h
        simp only [Except.ok.injEq, Prod.mk.injEq] at h
        exact ⟨i, c, more, hoff, hs, hc, h.2.symm, h.1.symm⟩
    · cases h
  · rintro ⟨i, c, more, hoff, hs, hc, rfl, rfl⟩
    rw [if_pos hoff, (P.tagged_id cfg unit f _ _ _).2 ⟨i, c, more, hs, hc, rfl, rfl⟩]
    dsimp only
    rw [key i c more hoff hs hc]
    rfl

theorem tagged_from_bytes_error {α : Type} (cfg : Cfg) (unit : U8 → Bool) (f : U8 → α) (data : List U8) (off : Nat) (e : Err) :
    derivedFromBytes (readTagged cfg 8 unit fun i => P.pure (f i)) (data, off) = .error e ↔
      e = .incomplete ∧ 8 * data.length < off + 8 := by
  rw [readTagged_fromBytes]
  by_cases hoff : off ≤ 8 * data.length
  · rw [if_pos hoff]
    by_cases h8 : 8 * data.length < off + 8
    · rw [P.tagged_id_short _ _ _ _ (by rw [List.length_drop, bytesBits_length]; omega)]
      simp only [Except.error.injEq]
      exact ⟨fun h => ⟨h.symm, h8⟩, fun h => h.1.symm⟩
    · constructor
      · intro h
        split at h
        · rename_i e' ht
          unfold P.tagged at ht
          rw [P.uint, if_neg (by omega), P.eval_bits, if_pos (by rw [List.length_drop, bytesBits_length]; omega),
            P.eval_pure] at ht
          dsimp only at ht
          rw [P.eval_pure] at ht
          cases ht
        · cases h
      · rintro ⟨-, h⟩; omega
  · rw [if_neg hoff]
    simp only [Except.error.injEq]
    exact ⟨fun h => ⟨h.symm, by omega⟩, fun h => h.1.symm⟩

theorem tagged_try_from {α : Type} (cfg : Cfg) (unit : U8 → Bool) (f : U8 → α) (data : List U8) (a : α) :
    derivedTryFrom (readTagged cfg 8 unit fun i => P.pure (f i)) data = .ok a ↔
      ∃ b, data = [b] ∧ a = f b ∧ (unit b && !cfg.unitPatConsumes) = false := by
  rw [readTagged_tryFrom]
  constructor
  · intro h
    split at h
    · cases h
    · rename_i a' s' ht
      obtain ⟨i, c, more, hs, hc, rfl, rfl⟩ := (P.tagged_id cfg unit f _ _ _).1 ht
      have hn : (if (unit i && !cfg.unitPatConsumes) = true then bytesBits data else more) = [] ∧ f i = a := by
        by_cases hn : (if (unit i && !cfg.unitPatConsumes) = true then bytesBits data else more) = []
        · rw [if_neg (by simpa using hn)] at h
          cases h
          exact ⟨hn, rfl⟩
        · rw [if_pos hn] at h
          cases h
      obtain ⟨hn, rfl⟩ := hn
      · have hne : (unit i && !cfg.unitPatConsumes) = false := by
          cases hb : unit i && !cfg.unitPatConsumes with
          | false => rfl
          | true =>
            rw [if_pos hb] at hn
            have := congrArg List.length hn
            rw [hs, List.length_append, hc.1] at this
            simp at this
        rw [hne] at hn
        simp only [Bool.false_eq_true, if_false] at hn
        subst hn
        rw [List.append_nil] at hs
        have hl := congrArg List.length hs
        rw [bytesBits_length, hc.1] at hl
        match data, hl with
        | [b], _ =>
          refine ⟨b, rfl, ?_, hne.symm ▸ ?_⟩ <;>
          · have hv := hc.2
            rw [← hs, Form.value_eq] at hv
            have : bitsNat (bytesBits [b]) = b.toNat := by
              rw [bytesBits_single]; exact bitsNat_natBits_of_lt b.isLt
            have : b = i := BitVec.eq_of_toNat_eq (by omega)
            subst this
            first | rfl | exact hne
  · rintro ⟨b, rfl, rfl, hne⟩
    have hc : Form.field 8 b.toNat (bytesBits [b]) := by
      refine ⟨by simp, ?_⟩
      rw [Form.value_eq, bytesBits_single]
      exact bitsNat_natBits_of_lt b.isLt
    rw [(P.tagged_id cfg unit f _ _ _).2 ⟨b, _, [], (List.append_nil _).symm, hc, rfl, rfl⟩, hne]
    rfl

/-! ## File ids -/

theorem FileId.unit_iff (b : U8) : (FileId.ofId b).id?.isNone = !Spec.namedFileId b := by
  revert b
  refine U8.forall ?_
  decide +kernel

theorem FileId.id_of (b : U8) : (FileId.ofId b).id? = if Spec.namedFileId b then some b else none := by
  revert b
  refine U8.forall ?_
  decide +kernel

/-- **C70** `FileId::from_bytes` reads the eight bits at any offset as the conversion from a byte does. It hands back what
follows; for an id without a name it may hand back the id as well. -/
theorem C70_file_id_read (cfg : Cfg) (data : List U8) (off : Nat) (rest : Rest) (f : FileId) :
    FileId.fromBytes cfg (data, off) = .ok (rest, f) ↔
      ∃ b form more, off ≤ 8 * data.length ∧ (Form.ofBytes data).drop off = form ++ more ∧ Form.field 8 b.toNat form ∧
        FileId.tryFrom b = .ok f ∧
        rest = Spec.restFrom data (if Spec.namedFileId b ∨ cfg.unitPatConsumes then off + 8 else off) := by
  unfold FileId.fromBytes FileId.read
  rw [tagged_from_bytes]
  have h : ∀ b, (if ((FileId.ofId b).id?.isNone && !cfg.unitPatConsumes) = true then off else off + 8) =
      if Spec.namedFileId b ∨ cfg.unitPatConsumes then off + 8 else off := by
    intro b
    rw [FileId.unit_iff]
    cases Spec.namedFileId b <;> cases cfg.unitPatConsumes <;> simp
  simp only [h, FileId.tryFrom, Except.ok.injEq, eq_comm (a := f)]

/-- **C70** It fails only for lack of bits. -/
theorem C70_file_id_error (cfg : Cfg) (data : List U8) (off : Nat) (e : Err) :
    FileId.fromBytes cfg (data, off) = .error e ↔ e = .incomplete ∧ 8 * data.length < off + 8 := by
  unfold FileId.fromBytes FileId.read
  rw [tagged_from_bytes_error]

/-- **C70** A file id with a name is written as its byte; that byte, and no other input, is read as that file id. -/
theorem C70_file_id_partial (cfg : Cfg) (b : U8) (h : Spec.namedFileId b = true) :
    ∃ f, FileId.tryFrom b = .ok f ∧ f.toBytes = .ok [b] ∧
      ∀ data, FileId.tryFromBytes cfg data = .ok f ↔ data = [b] := by
  have hi := FileId.id_of b
  rw [if_pos h] at hi
  refine ⟨_, rfl, ?_, fun data => ?_⟩
  · unfold FileId.toBytes FileId.write
    rw [hi]
    exact W.u8_toBytes b
  · unfold FileId.tryFromBytes FileId.read
    rw [tagged_try_from]
    constructor
    · rintro ⟨c, rfl, hc, -⟩
      have := FileId.id_of c
      rw [← hc, hi] at this
      split at this <;> cases this
      rfl
    · rintro rfl
      exact ⟨b, rfl, rfl, by rw [hi]; rfl⟩

/-- **C70** fails for every other id: it is written as nothing at all, which is not read back. By itself the byte is taken for
the id only if such an id counts as consumed. -/
theorem C70_file_id_violates (cfg : Cfg) (b : U8) (h : Spec.namedFileId b = false) :
    ∃ f, FileId.tryFrom b = .ok f ∧ f.toBytes = .ok [] ∧ FileId.tryFromBytes cfg [] = .error .incomplete ∧
      (FileId.tryFromBytes cfg [b] = .ok f ↔ cfg.unitPatConsumes = true) := by
  have hi := FileId.id_of b
  rw [h] at hi
  simp only [Bool.false_eq_true, if_false] at hi
  refine ⟨_, rfl, ?_, ?_, ?_⟩
  · unfold FileId.toBytes FileId.write
    rw [hi]
    rfl
  · unfold FileId.tryFromBytes FileId.read
    rw [readTagged_tryFrom, P.tagged_id_short _ _ _ _ (by simp)]
  · unfold FileId.tryFromBytes FileId.read
    rw [tagged_try_from]
    constructor
    · rintro ⟨c, hc, -, hn⟩
      cases hc
      rw [hi] at hn
      simpa using hn
    · intro hc
      exact ⟨b, rfl, rfl, by rw [hc]; simp⟩

/-! ## Interface ids -/

theorem InterfaceType.unit_iff (b : U8) : (InterfaceType.ofId b).id?.isNone = !Spec.namedInterface b := by
  revert b
  refine U8.forall ?_
  decide +kernel

theorem InterfaceType.id_of (b : U8) : (InterfaceType.ofId b).id? = if Spec.namedInterface b then some b else none := by
  revert b
  refine U8.forall ?_
  decide +kernel

/-- **C70** `InterfaceType::from_bytes` reads the eight bits at any offset as the conversion from a byte does. It hands back what
follows; for an id without a name it may hand back the id as well. -/
theorem C70_interface_id_read (cfg : Cfg) (data : List U8) (off : Nat) (rest : Rest) (f : InterfaceType) :
    InterfaceType.fromBytes cfg (data, off) = .ok (rest, f) ↔
      ∃ b form more, off ≤ 8 * data.length ∧ (Form.ofBytes data).drop off = form ++ more ∧ Form.field 8 b.toNat form ∧
        InterfaceType.tryFrom b = .ok f ∧
        rest = Spec.restFrom data (if Spec.namedInterface b ∨ cfg.unitPatConsumes then off + 8 else off) := by
  unfold InterfaceType.fromBytes InterfaceType.read
  rw [tagged_from_bytes]
  have h : ∀ b, (if ((InterfaceType.ofId b).id?.isNone && !cfg.unitPatConsumes) = true then off else off + 8) =
      if Spec.namedInterface b ∨ cfg.unitPatConsumes then off + 8 else off := by
    intro b
    rw [InterfaceType.unit_iff]
    cases Spec.namedInterface b <;> cases cfg.unitPatConsumes <;> simp
  simp only [h, InterfaceType.tryFrom, Except.ok.injEq, eq_comm (a := f)]

/-- **C70** It fails only for lack of bits. -/
theorem C70_interface_id_error (cfg : Cfg) (data : List U8) (off : Nat) (e : Err) :
    InterfaceType.fromBytes cfg (data, off) = .error e ↔ e = .incomplete ∧ 8 * data.length < off + 8 := by
  unfold InterfaceType.fromBytes InterfaceType.read
  rw [tagged_from_bytes_error]

/-- **C70** An interface id with a name is written as its byte; that byte, and no other input, is read as that interface id. -/
theorem C70_interface_id_partial (cfg : Cfg) (b : U8) (h : Spec.namedInterface b = true) :
    ∃ f, InterfaceType.tryFrom b = .ok f ∧ f.toBytes = .ok [b] ∧
      ∀ data, InterfaceType.tryFromBytes cfg data = .ok f ↔ data = [b] := by
  have hi := InterfaceType.id_of b
  rw [if_pos h] at hi
  refine ⟨_, rfl, ?_, fun data => ?_⟩
  · unfold InterfaceType.toBytes InterfaceType.write
    rw [hi]
    exact W.u8_toBytes b
  · unfold InterfaceType.tryFromBytes InterfaceType.read
    rw [tagged_try_from]
    constructor
    · rintro ⟨c, rfl, hc, -⟩
      have := InterfaceType.id_of c
      rw [← hc, hi] at this
      split at this <;> cases this
      rfl
    · rintro rfl
      exact ⟨b, rfl, rfl, by rw [hi]; rfl⟩

/-- **C70** fails for every other id: it is written as nothing at all, which is not read back. By itself the byte is taken for
the id only if such an id counts as consumed. -/
theorem C70_interface_id_violates (cfg : Cfg) (b : U8) (h : Spec.namedInterface b = false) :
    ∃ f, InterfaceType.tryFrom b = .ok f ∧ f.toBytes = .ok [] ∧ InterfaceType.tryFromBytes cfg [] = .error .incomplete ∧
      (InterfaceType.tryFromBytes cfg [b] = .ok f ↔ cfg.unitPatConsumes = true) := by
  have hi := InterfaceType.id_of b
  rw [h] at hi
  simp only [Bool.false_eq_true, if_false] at hi
  refine ⟨_, rfl, ?_, ?_, ?_⟩
  · unfold InterfaceType.toBytes InterfaceType.write
    rw [hi]
    rfl
  · unfold InterfaceType.tryFromBytes InterfaceType.read
    rw [readTagged_tryFrom, P.tagged_id_short _ _ _ _ (by simp)]
  · unfold InterfaceType.tryFromBytes InterfaceType.read
    rw [tagged_try_from]
    constructor
    · rintro ⟨c, hc, -, hn⟩
      cases hc
      rw [hi] at hn
      simpa using hn
    · intro hc
      exact ⟨b, rfl, rfl, by rw [hc]; simp⟩

/-- **C70** Converting an interface type to a byte (`Into<u8>`) gives the byte it was converted from, if that is an id with
a name. -/
theorem C70_interface_into_partial (b : U8) (h : Spec.namedInterface b = true) :
    ∃ f, InterfaceType.tryFrom b = .ok f ∧ f.into = .ok b := by
  have hi := InterfaceType.id_of b
  rw [if_pos h] at hi
  exact ⟨_, rfl, by unfold InterfaceType.into; rw [hi]⟩

/-- **C70** What an interface type converts to converts back. -/
theorem C70_interface_into_back (f : InterfaceType) (b : U8) (h : f.into = .ok b) : InterfaceType.tryFrom b = .ok f := by
  unfold InterfaceType.into at h
  cases f <;> simp only [InterfaceType.id?, reduceCtorEq, Except.ok.injEq] at h <;> subst h <;> rfl

/-- **C70** The conversion to a byte panics for every other id. -/
theorem C70_interface_into_violates (b : U8) (h : Spec.namedInterface b = false) :
    ∃ f, InterfaceType.tryFrom b = .ok f ∧ f.into = .error (.fault .panic) := by
  have hi := InterfaceType.id_of b
  rw [h] at hi
  simp only [Bool.false_eq_true, if_false] at hi
  exact ⟨_, rfl, by unfold InterfaceType.into; rw [hi]⟩

example : InterfaceType.tryFrom 0xD7 = .ok .dash7 ∧ InterfaceType.dash7.into = .ok 0xD7 ∧
    InterfaceType.tryFrom 0x42 = .ok .unknown ∧ InterfaceType.unknown.into = .error (.fault .panic) := by decide

/-! ## The noise floor -/

/-- The bits of a noise floor. The id of `Other` may be any but 0 and 1, and is not part of the form if it is not consumed. -/
def Form.noiseFloor : NoiseFloor → Form
  | .fixed n => all [field 4 0, field 8 n.toNat]
  | .forgetFactor n => all [field 4 1, field 8 n.toNat]
  | .other => fun c => ∃ i, 2 ≤ i ∧ field 4 i c

theorem NoiseFloor.tagged_iff (cfg : Cfg) (s t : List Bool) (n : NoiseFloor) :
    P.tagged cfg 4 (fun i => i.toNat != 0 && i.toNat != 1) NoiseFloor.fields s = .ok (n, t) ↔
      ∃ c more, s = c ++ more ∧ Form.noiseFloor n c ∧
        t = if n = .other ∧ cfg.unitPatConsumes = false then s else more := by
  have hu : Fits (P.uint 8 4) (fun v => Form.field 4 v.toNat) := Fits.uint (by decide)
  have byte : ∀ (g : U8 → NoiseFloor) (s t : List Bool) (n : NoiseFloor),
      (do let n ← P.u8; P.pure (g n) : P NoiseFloor).eval s = .ok (n, t) ↔
        ∃ b c, s = c ++ t ∧ Form.field 8 b.toNat c ∧ n = g b := by
    intro g s t n
    constructor
    · intro h
      obtain ⟨b, s1, h1, h2⟩ := P.bind_inv h
      rw [P.eval_pure] at h2
      cases h2
      obtain ⟨c, rfl, -⟩ := P.eval_ok _ h1
      exact ⟨b, c, rfl, (Fits.u8 _ _ _).1 h1, rfl⟩
    · rintro ⟨b, c, rfl, hc, rfl⟩
      show (P.bind _ _).eval _ = _
      rw [P.eval_bind, (Fits.u8 _ _ _).2 hc]
      rfl
  unfold P.tagged NoiseFloor.fields
  constructor
  · intro h
    split at h
    · cases h
    · rename_i i s' he
      obtain ⟨c, rfl, -⟩ := P.eval_ok _ he
      have hc := (hu _ _ _).1 he
      by_cases h0 : i.toNat = 0
      · simp only [h0] at h
        obtain ⟨b, d, rfl, hd, rfl⟩ := (byte _ _ _ _).1 h
        exact ⟨c ++ d, t, by simp, ⟨c, d, rfl, h0 ▸ hc, d, [], by simp, hd, rfl⟩, by simp⟩
      · by_cases h1 : i.toNat = 1
        · simp only [h1] at h
          obtain ⟨b, d, rfl, hd, rfl⟩ := (byte _ _ _ _).1 h
          exact ⟨c ++ d, t, by simp, ⟨c, d, rfl, h1 ▸ hc, d, [], by simp, hd, rfl⟩, by simp⟩
        · obtain ⟨k, hk⟩ : ∃ k, i.toNat = k + 2 := ⟨i.toNat - 2, by omega⟩
          simp only [hk, P.eval_pure] at h
          simp only [Except.ok.injEq, Prod.mk.injEq] at h
          obtain ⟨rfl, rfl⟩ := h
          refine ⟨c, s', rfl, ⟨i.toNat, by omega, hc⟩, ?_⟩
          cases cfg.unitPatConsumes <;> simp
  · rintro ⟨c, more, rfl, hn, rfl⟩
    cases n with
    | fixed b =>
      obtain ⟨c1, c2, rfl, h1, c3, c4, rfl, h3, rfl⟩ := hn
      have := (hu 0 c1 (c3 ++ [] ++ more)).2 h1
      rw [List.append_assoc, this]
      simp only [List.append_nil]
      exact (byte _ _ _ _).2 ⟨b, c3, by simp, h3, rfl⟩
    | forgetFactor b =>
      obtain ⟨c1, c2, rfl, h1, c3, c4, rfl, h3, rfl⟩ := hn
      have := (hu 1 c1 (c3 ++ [] ++ more)).2 h1
      rw [List.append_assoc, this]
      simp only [List.append_nil]
      exact (byte _ _ _ _).2 ⟨b, c3, by simp, h3, rfl⟩
    | other =>
      obtain ⟨k, hk, hc⟩ := hn
      have hlt : k < 16 := by
        have := bitsNat_lt c
        rw [← Form.value_eq, hc.1, hc.2] at this
        exact this
      have he := (hu (BitVec.ofNat 8 k) c more).2 (by
        show Form.field 4 (BitVec.ofNat 8 k).toNat c
        rw [BitVec.toNat_ofNat, Nat.mod_eq_of_lt (by omega)]; exact hc)
      rw [he]
      have hk' : (BitVec.ofNat 8 k).toNat = (k - 2) + 2 := by
        rw [BitVec.toNat_ofNat, Nat.mod_eq_of_lt (by omega)]; omega
      simp only [hk', P.eval_pure]
      cases cfg.unitPatConsumes <;> simp

/-- **C70** What `NoiseFloor::from_bytes` reads, from any offset on, and what it hands back. -/
theorem C70_noise_floor_read (cfg : Cfg) (data : List U8) (off : Nat) (rest : Rest) (n : NoiseFloor) :
    NoiseFloor.fromBytes cfg (data, off) = .ok (rest, n) ↔
      ∃ form more, off ≤ 8 * data.length ∧ (Form.ofBytes data).drop off = form ++ more ∧ Form.noiseFloor n form ∧
        rest = Spec.restFrom data (if n = .other ∧ cfg.unitPatConsumes = false then off else off + form.length) := by
  unfold NoiseFloor.fromBytes NoiseFloor.read
  rw [readTagged_fromBytes, Form.ofBytes_eq]
  have key : ∀ (c more : List Bool), off ≤ 8 * data.length → (bytesBits data).drop off = c ++ more →
      8 * data.length - (if n = .other ∧ cfg.unitPatConsumes = false then (bytesBits data).drop off else more).length =
        if n = .other ∧ cfg.unitPatConsumes = false then off else off + c.length := by
    intro c more h hs
    have hl := congrArg List.length hs
    rw [List.length_drop, bytesBits_length, List.length_append] at hl
    split
    · rw [List.length_drop, bytesBits_length]; omega
    · omega
  constructor
  · intro h
    split at h
    · rename_i hoff
      split at h
      · cases h
      · rename_i n' t ht
        simp only [Except.ok.injEq, Prod.mk.injEq] at h
        obtain ⟨h1, rfl⟩ := h
        obtain ⟨c, more, hs, hc, rfl⟩ := (NoiseFloor.tagged_iff cfg _ _ _).1 ht
        rw [key c more hoff hs] at h1
        exact ⟨c, more, hoff, hs, hc, h1.symm⟩
    · cases h
  · rintro ⟨c, more, hoff, hs, hc, rfl⟩
    rw [if_pos hoff, (NoiseFloor.tagged_iff cfg _ _ _).2 ⟨c, more, hs, hc, rfl⟩]
    dsimp only
    rw [key c more hoff hs]
    rfl

/-- **C70** A noise floor with a number, written by itself, is read back by `from_bytes`: twelve bits, so that half of the second
byte is left. -/
theorem C70_noise_floor_partial (cfg : Cfg) (n : NoiseFloor) (hn : n ≠ .other) :
    ∃ a b, n.toBytes = .ok [a, b] ∧ NoiseFloor.fromBytes cfg ([a, b], 0) = .ok (([b], 4), n) := by
  have hb : ∀ c : List Bool, c.length = 12 → ∃ a b, packBits c = [a, b] ∧
      Form.ofBytes [a, b] = c ++ List.replicate 4 false := by
    intro c hc
    have h2 : bytesBits (packBits c) = c ++ List.replicate 4 false := by
      rw [packBits_zeros, hc, bytesBits_packBits]
      rw [List.length_append, List.length_replicate, hc]
      decide
    have hl := congrArg List.length h2
    rw [bytesBits_length, List.length_append, List.length_replicate, hc] at hl
    match hp : packBits c with
    | [a, b] => exact ⟨a, b, rfl, by rw [Form.ofBytes_eq, ← hp]; exact h2⟩
    | [] => rw [hp] at hl; simp at hl
    | [_] => rw [hp] at hl; simp at hl
    | _ :: _ :: _ :: _ => rw [hp] at hl; simp at hl; omega
  have key : ∀ (k : U8) (v : U8), k.toNat < 16 → W.seq [W.uint 4 k, W.u8 v] = .ok (natBits 4 k.toNat ++ natBits 8 v.toNat) := by
    intro k v hk
    simp [W.seq, W.uint, W.u8]
  have form : ∀ (k : Nat) (v : U8), k < 16 →
      Form.all [Form.field 4 k, Form.field 8 v.toNat] (natBits 4 k ++ natBits 8 v.toNat) := by
    intro k v hk
    refine ⟨_, _, rfl, ⟨by simp, ?_⟩, natBits 8 v.toNat, [], by simp, ⟨by simp, ?_⟩, rfl⟩
    · rw [Form.value_eq]; exact bitsNat_natBits_of_lt hk
    · rw [Form.value_eq]; exact bitsNat_natBits_of_lt v.isLt
  cases n with
  | other => exact absurd rfl hn
  | fixed v =>
    obtain ⟨a, b, h1, h2⟩ := hb (natBits 4 0 ++ natBits 8 v.toNat) (by simp)
    refine ⟨a, b, ?_, (C70_noise_floor_read ..).2 ⟨_, _, by simp, h2, form 0 v (by decide), ?_⟩⟩
    · unfold NoiseFloor.toBytes NoiseFloor.write
      dsimp only
      rw [key 0#8 _ (by decide)]
      simp only [W.toBytes]
      exact congrArg _ h1
    · simp [Spec.restFrom]
  | forgetFactor v =>
    obtain ⟨a, b, h1, h2⟩ := hb (natBits 4 1 ++ natBits 8 v.toNat) (by simp)
    refine ⟨a, b, ?_, (C70_noise_floor_read ..).2 ⟨_, _, by simp, h2, form 1 v (by decide), ?_⟩⟩
    · unfold NoiseFloor.toBytes NoiseFloor.write
      dsimp only
      rw [key 1#8 _ (by decide)]
      simp only [W.toBytes]
      exact congrArg _ h1
    · simp [Spec.restFrom]

/-- **C70** fails for noise floors: no input whatever is taken by `try_from`, and `Other` is written as nothing. -/
theorem C70_noise_floor_violates (cfg : Cfg) :
    (∀ data n, NoiseFloor.tryFrom cfg data ≠ .ok n) ∧ NoiseFloor.other.toBytes = .ok [] ∧
      NoiseFloor.fromBytes cfg ([], 0) = .error .incomplete := by
  refine ⟨fun data n h => ?_, rfl, ?_⟩
  · unfold NoiseFloor.tryFrom NoiseFloor.read at h
    rw [readTagged_tryFrom] at h
    split at h
    · cases h
    · rename_i n' t ht
      obtain ⟨c, more, hs, hc, rfl⟩ := (NoiseFloor.tagged_iff cfg _ _ _).1 ht
      have hl := congrArg List.length hs
      rw [bytesBits_length, List.length_append] at hl
      have hlen : c.length % 8 = 4 := by
        cases n' with
        | fixed b =>
          obtain ⟨c1, c2, rfl, h1, c3, c4, rfl, h3, rfl⟩ := hc
          simp [h1.1, h3.1]
        | forgetFactor b =>
          obtain ⟨c1, c2, rfl, h1, c3, c4, rfl, h3, rfl⟩ := hc
          simp [h1.1, h3.1]
        | other =>
          obtain ⟨k, -, h1⟩ := hc
          rw [h1.1]
      rw [if_pos] at h
      · cases h
      · split
        · intro h0
          have := congrArg List.length h0
          rw [bytesBits_length] at this
          simp at this
          omega
        · intro h0
          subst h0
          simp at hl
          omega
  · unfold NoiseFloor.fromBytes NoiseFloor.read
    rw [readTagged_fromBytes]
    rfl

/-! The theorems apply. -/

example : Spec.namedFileId 0x0E = true ∧ FileId.tryFromBytes spec [0x0E] = .ok .networkSecurityKey := by decide +kernel
example : Spec.namedFileId 0x07 = false ∧ FileId.tryFromBytes spec [0x07] = .error (.fault .parse) := by decide +kernel
example : FileId.fromBytes spec ([0xF0, 0xE1], 4) = .ok (([0xE1], 4), .networkSecurityKey) := by decide +kernel
example : Spec.namedInterface 0xD7 = true ∧ Spec.namedInterface 4 = false ∧
    InterfaceType.fromBytes spec ([0xD7, 1], 0) = .ok (([1], 0), .dash7) := by decide +kernel
example : NoiseFloor.fromBytes spec ([0x0A, 0xBC], 0) = .ok (([0xBC], 4), .fixed 0xAB) ∧
    (NoiseFloor.forgetFactor 0xAB).toBytes = .ok [0x1A, 0xB0] := by decide +kernel

end Dash7

#print axioms Dash7.C70_interface_into_partial
#print axioms Dash7.C70_interface_into_back
#print axioms Dash7.C70_interface_into_violates
#print axioms Dash7.C70_file_id_read
#print axioms Dash7.C70_file_id_error
#print axioms Dash7.C70_file_id_partial
#print axioms Dash7.C70_file_id_violates
#print axioms Dash7.C70_interface_id_read
#print axioms Dash7.C70_interface_id_error
#print axioms Dash7.C70_interface_id_partial
#print axioms Dash7.C70_interface_id_violates
#print axioms Dash7.C70_noise_floor_read
#print axioms Dash7.C70_noise_floor_partial
#print axioms Dash7.C70_noise_floor_violates
