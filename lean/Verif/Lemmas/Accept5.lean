import Verif.Lemmas.Accept4

/-!
# Readers and the forms they take: status operands
-/

namespace Dash7

open Op

/-! ## Interface status -/

/-- What stands behind the length. -/
def statusBody (v : Variant) (t : InterfaceType) (n : Nat) : InterfaceStatus → Form
  | .host => fun c => t = .host ∧ c = []
  | .serial => fun c => t = .serial ∧ c = []
  | .dash7 s => fun c => t = .dash7 ∧ Form.dash7InterfaceStatus v s c
  | .other b => fun c => t = .unknown ∧ Form.sized n b c

theorem InterfaceStatus.fits (cfg : Cfg) (t : InterfaceType) (n : U32) :
    Fits (InterfaceStatus.read cfg t n) (statusBody cfg.variant t n.toNat) := by
  cases t <;> simp only [InterfaceStatus.read, P.bind_eq]
  · refine Fits.pure fun b c => ?_
    cases b <;> simp [statusBody]
  · refine Fits.pure fun b c => ?_
    cases b <;> simp [statusBody]
  · refine Fits.fail fun b c => ?_
    cases b <;> simp [statusBody]
  · refine Fits.fail fun b c => ?_
    cases b <;> simp [statusBody]
  · refine Fits.map (Dash7InterfaceStatus.fits cfg) fun b c => ?_
    cases b <;> simp [statusBody]
  · refine Fits.map (Fits.bytes n.toNat) fun b c => ?_
    cases b <;> simp [statusBody]

/-- The rest of a length whose first byte is `b`. -/
def lengthRest (b : U8) (n : Nat) : Form := fun c =>
  c.length = b.toNat / 64 * 8 ∧ n = b.toNat % 64 * 2 ^ (b.toNat / 64 * 8) + Form.value c

theorem lengthAfter_fits (b : U8) : Fits (lengthAfter b) (fun l => lengthRest b l.val.toNat) := by
  have hb : b.toNat / 64 < 4 := by have := b.isLt; omega
  unfold lengthAfter
  intro l c s'
  simp only [P.bind_eq]
  rw [(Fits.uint (show b.toNat / 64 * 8 ≤ 32 by omega)).bind_iff]
  have key : ∀ c : List Bool, c.length = b.toNat / 64 * 8 →
      b.toNat % 64 * 2 ^ (b.toNat / 64 * 8) + Form.value c < 2 ^ 32 := by
    intro c hc
    have h1 := bitsNat_lt c
    rw [← Form.value_eq, hc] at h1
    have h2 : (b.toNat % 64 + 1) * 2 ^ (b.toNat / 64 * 8) ≤ 64 * 2 ^ (b.toNat / 64 * 8) :=
      Nat.mul_le_mul_right _ (by omega)
    have h3 : 2 ^ (b.toNat / 64 * 8) ≤ 2 ^ 24 := Nat.pow_le_pow_right (by decide) (by omega)
    rw [Nat.add_mul] at h2
    omega
  constructor
  · rintro ⟨v, x, y, rfl, ⟨hx, hv⟩, hy⟩
    simp only [P.eval_pure, Except.ok.injEq, Prod.mk.injEq] at hy
    obtain ⟨rfl, hy⟩ := hy
    have : y = [] := by simpa using hy
    subst this
    rw [List.append_nil]
    refine ⟨hx, ?_⟩
    dsimp only
    rw [BitVec.toNat_ofNat, ← hv, Nat.mod_eq_of_lt (key x hx)]
  · rintro ⟨hc, hn⟩
    have hv : Form.value c < 2 ^ 32 := by have := key c hc; omega
    have h1 : (BitVec.ofNat 32 (Form.value c)).toNat = Form.value c := by
      rw [BitVec.toNat_ofNat, Nat.mod_eq_of_lt hv]
    refine ⟨BitVec.ofNat 32 (Form.value c), c, [], by simp, ⟨hc, h1.symm⟩, ?_⟩
    rw [h1, ← hn]
    simp

/-- A length and its first byte. -/
theorem lengthRest_iff (n : Nat) (c : List Bool) :
    Form.length n c ↔ ∃ (b : U8) (x y : List Bool), c = x ++ y ∧ Form.field 8 b.toNat x ∧ lengthRest b n y := by
  constructor
  · rintro ⟨k, hk, p, q, rfl, ⟨hp, hpv⟩, hq⟩
    rw [Form.all_one] at hq
    obtain ⟨hq, hqv⟩ := hq
    have hx : (p ++ q.take 6).length = 8 := by simp; omega
    have hlt := bitsNat_lt (p ++ q.take 6)
    rw [hx] at hlt
    have h8 : (BitVec.ofNat 8 (bitsNat (p ++ q.take 6))).toNat = bitsNat (p ++ q.take 6) := by
      rw [BitVec.toNat_ofNat, Nat.mod_eq_of_lt hlt]
    refine ⟨BitVec.ofNat 8 (bitsNat (p ++ q.take 6)), p ++ q.take 6, q.drop 6, by simp, ⟨hx, ?_⟩, ?_⟩
    · rw [h8, Form.value_eq]
    · have h6 := bitsNat_lt (q.take 6)
      have hl6 : (q.take 6).length = 6 := by simp; omega
      rw [hl6] at h6
      have hd : bitsNat (p ++ q.take 6) / 64 = k ∧ bitsNat (p ++ q.take 6) % 64 = bitsNat (q.take 6) := by
        rw [bitsNat_append, hl6, ← Form.value_eq p, hpv]
        omega
      have hl : (q.drop 6).length = k * 8 := by simp; omega
      refine ⟨by rw [h8, hd.1, hl], ?_⟩
      rw [h8, hd.1, hd.2, ← hqv, Form.value_eq, Form.value_eq, ← hl, ← bitsNat_append, List.take_append_drop]
  · rintro ⟨b, x, y, rfl, ⟨hx, hv⟩, hy, hn⟩
    have hb : b.toNat / 64 < 4 := by have := b.isLt; omega
    have h2 : (x.take 2).length = 2 := by simp; omega
    have h6 : (x.drop 2).length = 6 := by simp; omega
    have hlt := bitsNat_lt (x.drop 2)
    rw [h6] at hlt
    have hs : bitsNat x = bitsNat (x.take 2) * 2 ^ 6 + bitsNat (x.drop 2) := by
      rw [← h6, ← bitsNat_append, List.take_append_drop]
    rw [Form.value_eq, hs] at hv
    refine ⟨b.toNat / 64, hb, x.take 2, x.drop 2 ++ y, ?_, ⟨h2, ?_⟩, ?_⟩
    · rw [← List.append_assoc, List.take_append_drop]
    · rw [Form.value_eq]; omega
    · rw [Form.all_one]
      refine ⟨by simp; omega, ?_⟩
      rw [Form.value_eq, bitsNat_append, hn, Form.value_eq, hy]
      congr 2
      omega

theorem InterfaceType.ofId_iff (i : U8) :
    (InterfaceType.ofId i = .host ↔ i.toNat = 0x00) ∧ (InterfaceType.ofId i = .serial ↔ i.toNat = 0x01) ∧
    (InterfaceType.ofId i = .loRaWanABP ↔ i.toNat = 0x02) ∧
    (InterfaceType.ofId i = .loRaWanOTAA ↔ i.toNat = 0x03) ∧
    (InterfaceType.ofId i = .dash7 ↔ i.toNat = 0xD7) ∧
    (InterfaceType.ofId i = .unknown ↔ ¬ Form.knownInterface i.toNat) := by
  unfold Form.knownInterface
  revert i
  exact U8.forall (by decide +kernel)

/-- The length behind an id. -/
def statusLengthForm (cfg : Cfg) (b : U8) (n : Nat) : Form :=
  if InterfaceType.ofId b = .unknown ∧ cfg.unitPatConsumes = false then lengthRest b n else Form.length n

theorem statusLength_fits (cfg : Cfg) (b : U8) :
    Fits (statusLength cfg b) (fun l => statusLengthForm cfg b l.val.toNat) := by
  unfold statusLength statusLengthForm
  split
  · exact lengthAfter_fits b
  · exact Length.fits

theorem Form.length_lt {n : Nat} {c : List Bool} (h : Form.length n c) : n < 2 ^ 32 := by
  obtain ⟨k, hk, x, y, rfl, -, h⟩ := h
  rw [Form.all_one] at h
  obtain ⟨hl, rfl⟩ := h
  rw [Form.value_eq]
  refine Nat.lt_of_lt_of_le (bitsNat_lt y) (Nat.pow_le_pow_right (by decide) (by omega))

theorem Form.length_ex {n : Nat} {c : List Bool} (h : Form.length n c) :
    ∃ l : Length, l.val.toNat = n :=
  ⟨⟨BitVec.ofNat 32 n⟩, by
    dsimp only
    rw [BitVec.toNat_ofNat, Nat.mod_eq_of_lt (Form.length_lt h)]⟩

theorem InterfaceStatusOperation.raw (cfg : Cfg) (o : InterfaceStatusOperation) (c s' : List Bool) :
    (InterfaceStatusOperation.read cfg).eval (c ++ s') = .ok (o, s') ↔
      ∃ (b : U8) (l : Length) (x y z : List Bool), c = x ++ (y ++ z) ∧ Form.field 8 b.toNat x ∧
        statusLengthForm cfg b l.val.toNat y ∧
        statusBody cfg.variant (InterfaceType.ofId b) l.val.toNat o.status z ∧
        o.interfaceType = InterfaceType.ofId b := by
  unfold InterfaceStatusOperation.read
  simp only [P.bind_eq, Fits.u8.bind_iff, (statusLength_fits cfg _).bind_iff,
    (InterfaceStatus.fits cfg _ _).bind_iff, P.eval_pure, Except.ok.injEq, Prod.mk.injEq]
  constructor
  · rintro ⟨b, x, _, rfl, hx, l, y, _, rfl, hy, s, z, w, rfl, hz, rfl, hw⟩
    have : w = [] := by simpa using hw
    subst this
    exact ⟨b, l, x, y, z, by simp, hx, hy, hz, rfl⟩
  · rintro ⟨b, l, x, y, z, rfl, hx, hy, hz, ht⟩
    obtain ⟨t, s⟩ := o
    cases ht
    exact ⟨b, x, _, rfl, hx, l, y, _, rfl, hy, s, z, [], by simp, hz, rfl, rfl⟩

theorem statusLengthForm_known {cfg : Cfg} {b : U8} (h : InterfaceType.ofId b ≠ .unknown) (n : Nat) :
    statusLengthForm cfg b n = Form.length n := by
  unfold statusLengthForm
  rw [if_neg (fun hx => h hx.1)]

theorem InterfaceStatusOperation.fits (cfg : Cfg) : Fits (InterfaceStatusOperation.read cfg)
    (Form.interfaceStatus cfg.variant cfg.unitPatConsumes) := by
  intro o c s'
  rw [InterfaceStatusOperation.raw]
  have three : ∀ (v : Nat) (K : Form), v < 256 →
      ((∃ (b : U8) (l : Length) (x y z : List Bool), c = x ++ (y ++ z) ∧ Form.field 8 b.toNat x ∧
        Form.length l.val.toNat y ∧ K z ∧ b.toNat = v) ↔ Form.all [Form.field 8 v, Form.anyLength, K] c) := by
    intro v K hv
    constructor
    · rintro ⟨b, l, x, y, z, rfl, hx, hy, hz, rfl⟩
      exact ⟨x, _, rfl, hx, y, _, rfl, ⟨_, hy⟩, z, [], by simp, hz, rfl⟩
    · rintro ⟨x, _, rfl, hx, y, _, rfl, ⟨n, hy⟩, hz⟩
      rw [Form.all_one] at hz
      obtain ⟨l, hl⟩ := Form.length_ex hy
      have hb : (BitVec.ofNat 8 v).toNat = v := by rw [BitVec.toNat_ofNat, Nat.mod_eq_of_lt hv]
      exact ⟨BitVec.ofNat 8 v, l, x, y, _, rfl, by rwa [hb], by rwa [hl], hz, hb⟩
  have two : ∀ (v : Nat), Form.all [Form.field 8 v, Form.anyLength, fun c => c = []] c ↔
      Form.all [Form.field 8 v, Form.anyLength] c := by
    intro v
    have := Form.all_append [Form.field 8 v, Form.anyLength] [fun c => c = []] c
    simp only [List.cons_append, List.nil_append] at this
    rw [this]
    constructor
    · rintro ⟨x, y, rfl, h, hy⟩
      rw [Form.all_one] at hy
      subst hy
      simpa using h
    · intro h
      exact ⟨c, [], by simp, h, (Form.all_one _ _).2 rfl⟩
  obtain ⟨t, s⟩ := o
  cases s with
  | host =>
    simp only [statusBody]
    cases t
    case host =>
      simp only [Form.interfaceStatus]
      rw [← two, ← three 0 (fun c => c = []) (by decide)]
      constructor
      · rintro ⟨b, l, x, y, z, hc, hx, hy, ⟨hz, rfl⟩, ht⟩
        rw [statusLengthForm_known (by rw [← ht]; decide)] at hy
        exact ⟨b, l, x, y, [], hc, hx, hy, rfl, (InterfaceType.ofId_iff b).1.1 ht.symm⟩
      · rintro ⟨b, l, x, y, z, hc, hx, hy, rfl, hb⟩
        have ht := (InterfaceType.ofId_iff b).1.2 hb
        exact ⟨b, l, x, y, [], hc, hx, by rwa [statusLengthForm_known (by rw [ht]; decide)], ⟨ht, rfl⟩, ht.symm⟩
    all_goals
      simp only [Form.interfaceStatus, Form.given, and_false, iff_false]
      rintro ⟨b, l, x, y, z, -, -, -, ⟨h1, -⟩, h2⟩
      rw [← h2] at h1
      cases h1
  | serial =>
    simp only [statusBody]
    cases t
    case serial =>
      simp only [Form.interfaceStatus]
      rw [← two, ← three 1 (fun c => c = []) (by decide)]
      constructor
      · rintro ⟨b, l, x, y, z, hc, hx, hy, ⟨hz, rfl⟩, ht⟩
        rw [statusLengthForm_known (by rw [← ht]; decide)] at hy
        exact ⟨b, l, x, y, [], hc, hx, hy, rfl, (InterfaceType.ofId_iff b).2.1.1 ht.symm⟩
      · rintro ⟨b, l, x, y, z, hc, hx, hy, rfl, hb⟩
        have ht := (InterfaceType.ofId_iff b).2.1.2 hb
        exact ⟨b, l, x, y, [], hc, hx, by rwa [statusLengthForm_known (by rw [ht]; decide)], ⟨ht, rfl⟩, ht.symm⟩
    all_goals
      simp only [Form.interfaceStatus, Form.given, and_false, iff_false]
      rintro ⟨b, l, x, y, z, -, -, -, ⟨h1, -⟩, h2⟩
      rw [← h2] at h1
      cases h1
  | dash7 s =>
    simp only [statusBody]
    cases t
    case dash7 =>
      simp only [Form.interfaceStatus]
      rw [← three 0xD7 (Form.dash7InterfaceStatus cfg.variant s) (by decide)]
      constructor
      · rintro ⟨b, l, x, y, z, hc, hx, hy, ⟨-, hz⟩, ht⟩
        rw [statusLengthForm_known (by rw [← ht]; decide)] at hy
        exact ⟨b, l, x, y, z, hc, hx, hy, hz, (InterfaceType.ofId_iff b).2.2.2.2.1.1 ht.symm⟩
      · rintro ⟨b, l, x, y, z, hc, hx, hy, hz, hb⟩
        have ht := (InterfaceType.ofId_iff b).2.2.2.2.1.2 hb
        exact ⟨b, l, x, y, z, hc, hx, by rwa [statusLengthForm_known (by rw [ht]; decide)], ⟨ht, hz⟩, ht.symm⟩
    all_goals
      simp only [Form.interfaceStatus, Form.given, and_false, iff_false]
      rintro ⟨b, l, x, y, z, -, -, -, ⟨h1, -⟩, h2⟩
      rw [← h2] at h1
      cases h1
  | other bs =>
    simp only [statusBody]
    cases t
    case unknown =>
      simp only [Form.interfaceStatus]
      have hu := fun b => (InterfaceType.ofId_iff b).2.2.2.2.2
      cases hcfg : cfg.unitPatConsumes with
      | true =>
        have hl : ∀ b n, statusLengthForm cfg b n = Form.length n := by
          intro b n
          unfold statusLengthForm
          rw [if_neg (by rw [hcfg]; simp)]
        simp only [hl, if_true]
        constructor
        · rintro ⟨b, l, x, y, z, rfl, hx, hy, ⟨hi, hz⟩, -⟩
          rw [Form.sized, Form.all_given, Form.all_one] at hz
          exact ⟨b.toNat, (hu b).1 hi, x, _, rfl, hx, y, z, rfl, by rw [hz.1]; exact hy,
            (Form.all_one _ _).2 hz.2⟩
        · rintro ⟨i, hi, x, _, rfl, hx, y, z, rfl, hy, hz⟩
          rw [Form.all_one] at hz
          obtain ⟨l, hl⟩ := Form.length_ex hy
          have hlt : i < 256 := by
            obtain ⟨h8, hv⟩ := hx
            have := bitsNat_lt x
            rw [h8, ← Form.value_eq, hv] at this; exact this
          have hb : (BitVec.ofNat 8 i).toNat = i := by rw [BitVec.toNat_ofNat, Nat.mod_eq_of_lt hlt]
          have ht := (hu (BitVec.ofNat 8 i)).2 (by rwa [hb])
          refine ⟨BitVec.ofNat 8 i, l, x, y, z, rfl, by rwa [hb], by rwa [hl], ⟨ht, ?_⟩, ht.symm⟩
          rw [Form.sized, Form.all_given, Form.all_one]
          exact ⟨hl.symm, hz⟩
      | false =>
        simp only [Bool.false_eq_true, if_false]
        constructor
        · rintro ⟨b, l, x, y, z, rfl, hx, hy, ⟨hi, hz⟩, -⟩
          rw [Form.sized, Form.all_given, Form.all_one] at hz
          rw [statusLengthForm, if_pos ⟨hi, hcfg⟩] at hy
          refine ⟨x ++ y, z, by simp, ⟨?_, ?_⟩, (Form.all_one _ _).2 hz.2⟩
          · rw [hz.1, lengthRest_iff]
            exact ⟨b, x, y, rfl, hx, hy⟩
          · rw [List.take_left' hx.1, hx.2]
            exact (hu b).1 hi
        · rintro ⟨w, z, rfl, ⟨hw, hi⟩, hz⟩
          rw [Form.all_one] at hz
          obtain ⟨l, hl⟩ := Form.length_ex hw
          obtain ⟨b, x, y, rfl, hx, hy⟩ := (lengthRest_iff _ _).1 hw
          rw [List.take_left' hx.1, hx.2] at hi
          have ht := (hu b).2 hi
          refine ⟨b, l, x, y, z, by simp, hx, ?_, ⟨ht, ?_⟩, ht.symm⟩
          · rw [statusLengthForm, if_pos ⟨ht, hcfg⟩, hl]; exact hy
          · rw [Form.sized, Form.all_given, Form.all_one]
            exact ⟨hl.symm, hz⟩
    all_goals
      simp only [Form.interfaceStatus, Form.given, and_false, iff_false]
      rintro ⟨b, l, x, y, z, -, -, -, ⟨h1, -⟩, h2⟩
      rw [← h2] at h1
      cases h1

/-! ## Final status -/

theorem InterfaceFinalStatus.fits (i : U8) (n : U32) : Fits (InterfaceFinalStatus.read i n)
    (fun s c => match s with
      | .dash7 k => i.toNat = 0xD7 ∧ Form.finalStatusCode k c
      | .other b => i.toNat ≠ 0xD7 ∧ Form.sized n.toNat b c) := by
  unfold InterfaceFinalStatus.read
  split
  · rename_i h
    subst h
    refine Fits.map InterfaceFinalStatusCode.fits fun b c => ?_
    cases b <;> simp
  · rename_i h
    have h' : i.toNat ≠ 0xD7 := fun hx => h (BitVec.eq_of_toNat_eq hx)
    refine Fits.map (Fits.bytes _) fun b c => ?_
    cases b <;> simp [h']

theorem InterfaceTxStatus.fits (cfg : Cfg) (i : U8) (n : U32) : Fits (InterfaceTxStatus.read cfg i n)
    (fun s c => match s with
      | .dash7 k => i.toNat = 0xD7 ∧ Form.dash7InterfaceTxStatus cfg.variant cfg.bigEndianHost k c
      | .other b => i.toNat ≠ 0xD7 ∧ Form.sized n.toNat b c) := by
  unfold InterfaceTxStatus.read
  split
  · rename_i h
    subst h
    refine Fits.map (Dash7InterfaceTxStatus.fits cfg) fun b c => ?_
    cases b <;> simp
  · rename_i h
    have h' : i.toNat ≠ 0xD7 := fun hx => h (BitVec.eq_of_toNat_eq hx)
    refine Fits.map (Fits.bytes _) fun b c => ?_
    cases b <;> simp [h']

theorem InterfaceFinalStatusOperation.fits :
    Fits InterfaceFinalStatusOperation.read Form.interfaceFinalStatus := by
  unfold InterfaceFinalStatusOperation.read
  intro o c s'
  simp only [P.bind_eq, Fits.u8.bind_iff, Length.fits.bind_iff, (InterfaceFinalStatus.fits _ _).bind_iff,
    P.eval_pure, Except.ok.injEq, Prod.mk.injEq]
  constructor
  · rintro ⟨b, x, _, rfl, hx, l, y, _, rfl, hy, s, z, w, rfl, hz, rfl, hw⟩
    have : w = [] := by simpa using hw
    subst this
    cases s with
    | dash7 k =>
      refine ⟨x, _, rfl, hx, (Form.all_given _ _ _).2 ⟨hz.1, y, z, by simp, ⟨_, hy⟩, (Form.all_one _ _).2 hz.2⟩⟩
    | other bs =>
      obtain ⟨hz1, hz⟩ := hz
      rw [Form.sized, Form.all_given, Form.all_one] at hz
      refine ⟨x, _, rfl, hx, (Form.all_given _ _ _).2 ⟨hz1, y, z, by simp, ?_, (Form.all_one _ _).2 hz.2⟩⟩
      rw [hz.1]; exact hy
  · intro h
    obtain ⟨i, s⟩ := o
    cases s with
    | dash7 k =>
      obtain ⟨x, _, rfl, hx, h⟩ := h
      obtain ⟨hi, y, z, rfl, ⟨n, hy⟩, hz⟩ := (Form.all_given _ _ _).1 h
      rw [Form.all_one] at hz
      obtain ⟨l, hl⟩ := Form.length_ex hy
      exact ⟨i, x, _, rfl, hx, l, y, _, rfl, by rwa [hl], .dash7 k, z, [], by simp, ⟨hi, hz⟩, rfl, rfl⟩
    | other bs =>
      obtain ⟨x, _, rfl, hx, h⟩ := h
      obtain ⟨hi, y, z, rfl, hy, hz⟩ := (Form.all_given _ _ _).1 h
      rw [Form.all_one] at hz
      obtain ⟨l, hl⟩ := Form.length_ex hy
      refine ⟨i, x, _, rfl, hx, l, y, _, rfl, by rwa [hl], .other bs, z, [], by simp, ⟨hi, ?_⟩, rfl, rfl⟩
      rw [Form.sized, Form.all_given, Form.all_one]
      exact ⟨hl.symm, hz⟩

theorem InterfaceTxStatusOperation.fits (cfg : Cfg) : Fits (InterfaceTxStatusOperation.read cfg)
    (Form.interfaceTxStatus cfg.variant cfg.bigEndianHost) := by
  unfold InterfaceTxStatusOperation.read
  intro o c s'
  simp only [P.bind_eq, Fits.u8.bind_iff, Length.fits.bind_iff, (InterfaceTxStatus.fits cfg _ _).bind_iff,
    P.eval_pure, Except.ok.injEq, Prod.mk.injEq]
  constructor
  · rintro ⟨b, x, _, rfl, hx, l, y, _, rfl, hy, s, z, w, rfl, hz, rfl, hw⟩
    have : w = [] := by simpa using hw
    subst this
    cases s with
    | dash7 k =>
      refine ⟨x, _, rfl, hx, (Form.all_given _ _ _).2 ⟨hz.1, y, z, by simp, ⟨_, hy⟩, (Form.all_one _ _).2 hz.2⟩⟩
    | other bs =>
      obtain ⟨hz1, hz⟩ := hz
      rw [Form.sized, Form.all_given, Form.all_one] at hz
      refine ⟨x, _, rfl, hx, (Form.all_given _ _ _).2 ⟨hz1, y, z, by simp, ?_, (Form.all_one _ _).2 hz.2⟩⟩
      rw [hz.1]; exact hy
  · intro h
    obtain ⟨i, s⟩ := o
    cases s with
    | dash7 k =>
      obtain ⟨x, _, rfl, hx, h⟩ := h
      obtain ⟨hi, y, z, rfl, ⟨n, hy⟩, hz⟩ := (Form.all_given _ _ _).1 h
      rw [Form.all_one] at hz
      obtain ⟨l, hl⟩ := Form.length_ex hy
      exact ⟨i, x, _, rfl, hx, l, y, _, rfl, by rwa [hl], .dash7 k, z, [], by simp, ⟨hi, hz⟩, rfl, rfl⟩
    | other bs =>
      obtain ⟨x, _, rfl, hx, h⟩ := h
      obtain ⟨hi, y, z, rfl, hy, hz⟩ := (Form.all_given _ _ _).1 h
      rw [Form.all_one] at hz
      obtain ⟨l, hl⟩ := Form.length_ex hy
      refine ⟨i, x, _, rfl, hx, l, y, _, rfl, by rwa [hl], .other bs, z, [], by simp, ⟨hi, ?_⟩, rfl, rfl⟩
      rw [Form.sized, Form.all_given, Form.all_one]
      exact ⟨hl.symm, hz⟩

end Dash7
