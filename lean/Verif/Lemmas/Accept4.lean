import Verif.Lemmas.Accept3
import Verif.Lemmas.Decode

/-!
# Readers and the forms they take: interfaces, queries, operands
-/

namespace Dash7

namespace Fits

variable {α β : Type}

/-- A leading id of `n` bits decides what follows. -/
theorem byId {n : Nat} (hn : n ≤ 8) {k : U8 → P β} {K : U8 → β → Form} {F : β → Form}
    (hk : ∀ i : U8, i.toNat < 2 ^ n → Fits (k i) (K i))
    (hF : ∀ b c, F b c ↔ ∃ (i : U8) (x y : List Bool), c = x ++ y ∧ Form.field n i.toNat x ∧ K i b y) :
    Fits ((P.uint 8 n).bind k) F := by
  intro b c s'
  rw [(uint hn).bind_iff, hF]
  have key : ∀ (i : U8) (x : List Bool), Form.field n i.toNat x → i.toNat < 2 ^ n := by
    rintro i x ⟨hx, hv⟩
    rw [← hv, ← hx, Form.value_eq]
    exact bitsNat_lt x
  constructor
  · rintro ⟨i, x, y, rfl, hx, hy⟩
    exact ⟨i, x, y, rfl, hx, (hk i (key i x hx) b y s').1 hy⟩
  · rintro ⟨i, x, y, rfl, hx, hy⟩
    exact ⟨i, x, y, rfl, hx, (hk i (key i x hx) b y s').2 hy⟩

end Fits

/-- An id followed by what belongs to it. -/
theorem Form.id_iff {n : Nat} (hn : n ≤ 8) {v : Nat} (hv : v < 2 ^ n) {K : Form} (c : List Bool) :
    (∃ (i : U8) (x y : List Bool), c = x ++ y ∧ Form.field n i.toNat x ∧ i.toNat = v ∧ K y) ↔
      ∃ x y, c = x ++ y ∧ Form.field n v x ∧ K y := by
  have h8 : 2 ^ n ≤ 2 ^ 8 := Nat.pow_le_pow_right (by decide) hn
  have ht : (BitVec.ofNat 8 v).toNat = v := by rw [BitVec.toNat_ofNat, Nat.mod_eq_of_lt (by omega)]
  constructor
  · rintro ⟨i, x, y, rfl, hx, rfl, hy⟩; exact ⟨x, y, rfl, hx, hy⟩
  · rintro ⟨x, y, rfl, hx, hy⟩
    exact ⟨BitVec.ofNat 8 v, x, y, rfl, by rwa [ht], ht, hy⟩

/-- The configurations behind an id. -/
def interfaceById (cfg : Cfg) (i : U8) : InterfaceConfiguration → Form
  | .host => fun c => i.toNat = 0 ∧ c = []
  | .serial => fun c => i.toNat = 1 ∧ c = []
  | .loRaWanABP a => fun c => i.toNat = 2 ∧ Form.loRaWANABP cfg.bigEndianHost a c
  | .loRaWanOTAA a => fun c => i.toNat = 3 ∧ Form.loRaWANOTAA a c
  | .dash7 a => fun c => i.toNat = 0xD7 ∧ Form.dash7InterfaceConfiguration cfg.variant a c
  | .unknown j => fun c => i = j ∧ ¬ Form.knownInterface i.toNat ∧ c = []

theorem InterfaceConfiguration.fits (cfg : Cfg) : Fits (InterfaceConfiguration.read cfg)
    (Form.interfaceConfiguration cfg.variant cfg.bigEndianHost) := by
  unfold InterfaceConfiguration.read
  refine Fits.byId (Nat.le_refl 8) (K := interfaceById cfg) (fun i _ => ?_) (fun b c => ?_)
  · split
    · rename_i h
      refine Fits.pure fun b c => ?_
      cases b <;> simp [interfaceById, h, Form.knownInterface]
    · rename_i h
      refine Fits.pure fun b c => ?_
      cases b <;> simp [interfaceById, h, Form.knownInterface]
    · rename_i h
      refine Fits.map (LoRaWANABPInterfaceConfiguration.fits cfg) fun b c => ?_
      cases b <;> simp [interfaceById, h, Form.knownInterface]
    · rename_i h
      refine Fits.map LoRaWANOTAAInterfaceConfiguration.fits fun b c => ?_
      cases b <;> simp [interfaceById, h, Form.knownInterface]
    · rename_i h
      refine Fits.map (Dash7InterfaceConfiguration.fits cfg) fun b c => ?_
      cases b <;> simp [interfaceById, h, Form.knownInterface]
    · rename_i h0 h1 h2 h3 h4
      refine Fits.pure fun b c => ?_
      cases b with
      | host => exact ⟨fun h => absurd h.1 h0, fun h => nomatch h.1⟩
      | serial => exact ⟨fun h => absurd h.1 h1, fun h => nomatch h.1⟩
      | loRaWanABP a => exact ⟨fun h => absurd h.1 h2, fun h => nomatch h.1⟩
      | loRaWanOTAA a => exact ⟨fun h => absurd h.1 h3, fun h => nomatch h.1⟩
      | dash7 a => exact ⟨fun h => absurd h.1 h4, fun h => nomatch h.1⟩
      | unknown j =>
        constructor
        · rintro ⟨rfl, -, h⟩; exact ⟨rfl, h⟩
        · rintro ⟨h, hc⟩
          injection h with h
          refine ⟨h.symm, ?_, hc⟩
          rintro (h | h | h | h | h)
          · exact h0 h
          · exact h1 h
          · exact h2 h
          · exact h3 h
          · exact h4 h
  · cases b with
    | host => simp only [interfaceById, Form.id_iff (Nat.le_refl 8) (show 0 < 2 ^ 8 by decide)]; rfl
    | serial => simp only [interfaceById, Form.id_iff (Nat.le_refl 8) (show 1 < 2 ^ 8 by decide)]; rfl
    | loRaWanABP a =>
      simp only [interfaceById, Form.id_iff (Nat.le_refl 8) (show 2 < 2 ^ 8 by decide),
        Form.interfaceConfiguration, Form.all.eq_2 (Form.field _ _), Form.all_one]
    | loRaWanOTAA a =>
      simp only [interfaceById, Form.id_iff (Nat.le_refl 8) (show 3 < 2 ^ 8 by decide),
        Form.interfaceConfiguration, Form.all.eq_2 (Form.field _ _), Form.all_one]
    | dash7 a =>
      simp only [interfaceById, Form.id_iff (Nat.le_refl 8) (show 0xD7 < 2 ^ 8 by decide),
        Form.interfaceConfiguration, Form.all.eq_2 (Form.field _ _), Form.all_one]
    | unknown j =>
      simp only [interfaceById, Form.interfaceConfiguration, Form.all.eq_2 (Form.field _ _),
        Form.all_given]
      constructor
      · rintro ⟨x, y, rfl, hx, hj, hy⟩; exact ⟨j, x, y, rfl, hx, rfl, hj, hy⟩
      · rintro ⟨_, x, y, rfl, hx, rfl, hj, hy⟩; exact ⟨x, y, rfl, hx, hj, hy⟩

/-- The indirect interfaces behind an id. -/
def indirectById (cfg : Cfg) (i : U8) : IndirectInterface → Form
  | .host => fun c => i.toNat = 0 ∧ c = []
  | .serial => fun c => i.toNat = 1 ∧ c = []
  | .dash7 a => fun c => i.toNat = 0xD7 ∧ Form.addressee cfg.variant a c
  | .unknown j => fun c => i = j ∧ (i.toNat ≠ 0x00 ∧ i.toNat ≠ 0x01 ∧ i.toNat ≠ 0xD7) ∧ c = []

theorem IndirectInterface.fits (cfg : Cfg) : Fits (IndirectInterface.read cfg)
    (Form.indirectInterface cfg.variant) := by
  unfold IndirectInterface.read
  refine Fits.byId (Nat.le_refl 8) (K := indirectById cfg) (fun i _ => ?_) (fun b c => ?_)
  · split
    · rename_i h
      refine Fits.pure fun b c => ?_
      cases b <;> simp [indirectById, h]
    · rename_i h
      refine Fits.pure fun b c => ?_
      cases b <;> simp [indirectById, h]
    · rename_i h
      refine Fits.map (Addressee.fits cfg) fun b c => ?_
      cases b <;> simp [indirectById, h]
    · rename_i h0 h1 h2
      refine Fits.pure fun b c => ?_
      cases b with
      | host => exact ⟨fun h => absurd h.1 h0, fun h => nomatch h.1⟩
      | serial => exact ⟨fun h => absurd h.1 h1, fun h => nomatch h.1⟩
      | dash7 a => exact ⟨fun h => absurd h.1 h2, fun h => nomatch h.1⟩
      | unknown j =>
        constructor
        · rintro ⟨rfl, -, h⟩; exact ⟨rfl, h⟩
        · rintro ⟨h, hc⟩
          injection h with h
          exact ⟨h.symm, ⟨h0, h1, h2⟩, hc⟩
  · cases b with
    | host => simp only [indirectById, Form.id_iff (Nat.le_refl 8) (show 0 < 2 ^ 8 by decide)]; rfl
    | serial => simp only [indirectById, Form.id_iff (Nat.le_refl 8) (show 1 < 2 ^ 8 by decide)]; rfl
    | dash7 a =>
      simp only [indirectById, Form.id_iff (Nat.le_refl 8) (show 0xD7 < 2 ^ 8 by decide),
        Form.indirectInterface, Form.all.eq_2 (Form.field _ _), Form.all_one]
    | unknown j =>
      simp only [indirectById, Form.indirectInterface, Form.all.eq_2 (Form.field _ _),
        Form.all_given]
      constructor
      · rintro ⟨x, y, rfl, hx, hj, hy⟩; exact ⟨j, x, y, rfl, hx, rfl, hj, hy⟩
      · rintro ⟨_, x, y, rfl, hx, rfl, hj, hy⟩; exact ⟨x, y, rfl, hx, hj, hy⟩

/-! ## Queries -/

theorem ArithmeticComparisonType.fits : Fits ArithmeticComparisonType.read (fun b => Form.field 3 (Wire.arithmeticComparison b)) := by tbl
theorem RangeComparisonType.fits : Fits RangeComparisonType.read (fun b => Form.field 3 (Wire.rangeComparison b)) := by tbl

theorem ArithmeticQueryParams.fits : Fits ArithmeticQueryParams.read Form.arithmetic := by
  unfold ArithmeticQueryParams.read Form.arithmetic
  refine Fits.start ?_
  fld Fits.flag
  fld ArithmeticComparisonType.fits
  fin

theorem RangeQueryParams.fits : Fits RangeQueryParams.read Form.range := by
  unfold RangeQueryParams.read Form.range
  refine Fits.start ?_
  fld Fits.flag
  fld RangeComparisonType.fits
  fin

theorem readMaskIf_fits (present : Bool) (l : Length) :
    Fits (readMaskIf present l) (Form.mask present l.val.toNat) := by
  unfold readMaskIf Form.mask
  cases present with
  | true => exact Fits.bytes _
  | false => exact Fits.bytes 0

/-- A query behind its type. -/
def queryBody : Query → Form
  | .nonVoid q => Form.all [Form.reserved 5, Form.length q.length.val.toNat, Form.fileOffset q.file]
  | .comparisonWithZero q =>
    Form.all [Form.flag q.maskPresent, Form.arithmetic q.params, Form.length q.length.val.toNat,
      Form.mask q.maskPresent q.length.val.toNat q.mask, Form.fileOffset q.file]
  | .comparisonWithValue q =>
    Form.all [Form.flag q.maskPresent, Form.arithmetic q.params, Form.length q.length.val.toNat,
      Form.mask q.maskPresent q.length.val.toNat q.mask, Form.sized q.length.val.toNat q.value,
      Form.fileOffset q.file]
  | .comparisonWithOtherFile q =>
    Form.all [Form.flag q.maskPresent, Form.arithmetic q.params, Form.length q.length.val.toNat,
      Form.mask q.maskPresent q.length.val.toNat q.mask, Form.fileOffset q.file1,
      Form.fileOffset q.file2]
  | .bitmapRangeComparison q =>
    Form.all [Form.flag q.maskPresent, Form.range q.params, Form.length q.length.val.toNat,
      Form.length q.start.val.toNat, Form.length q.stop.val.toNat,
      Form.sized q.length.val.toNat q.mask, Form.fileOffset q.file]
  | .stringTokenSearch q =>
    Form.all [Form.flag q.maskPresent, Form.reserved 1, Form.field 3 q.maxErrors.toNat,
      Form.length q.length.val.toNat, Form.sized q.length.val.toNat q.mask,
      Form.sized q.length.val.toNat q.value, Form.fileOffset q.file]

theorem NonVoid.fits : Fits NonVoid.read (fun q => queryBody (.nonVoid q)) := by
  unfold NonVoid.read queryBody
  refine Fits.start ?_
  skp 5
  fld Length.fits
  fld FileOffset.fits
  fin

theorem ComparisonWithZero.fits : Fits ComparisonWithZero.read (fun q => queryBody (.comparisonWithZero q)) := by
  unfold ComparisonWithZero.read queryBody
  refine Fits.start ?_
  apply Fits.cons Fits.flag
  intro m
  fld ArithmeticQueryParams.fits
  apply Fits.cons Length.fits
  intro l
  refine Fits.dep (fun b => b.mask) (readMaskIf_fits m l) ?_ ?_
  · rintro b ⟨⟨⟨-, rfl⟩, -⟩, rfl⟩ c; rfl
  · intro _
    fld FileOffset.fits
    fin

theorem ComparisonWithValue.fits : Fits ComparisonWithValue.read (fun q => queryBody (.comparisonWithValue q)) := by
  unfold ComparisonWithValue.read queryBody
  refine Fits.start ?_
  apply Fits.cons Fits.flag
  intro m
  fld ArithmeticQueryParams.fits
  apply Fits.cons Length.fits
  intro l
  refine Fits.dep (fun b => b.mask) (readMaskIf_fits m l) ?_ ?_
  · rintro b ⟨⟨⟨-, rfl⟩, -⟩, rfl⟩ c; rfl
  · intro _
    refine Fits.dep (fun b => b.value) (Fits.bytes _) ?_ ?_
    · rintro b ⟨⟨-, rfl⟩, -⟩ c; rfl
    · intro _
      fld FileOffset.fits
      fin

theorem ComparisonWithOtherFile.fits :
    Fits ComparisonWithOtherFile.read (fun q => queryBody (.comparisonWithOtherFile q)) := by
  unfold ComparisonWithOtherFile.read queryBody
  refine Fits.start ?_
  apply Fits.cons Fits.flag
  intro m
  fld ArithmeticQueryParams.fits
  apply Fits.cons Length.fits
  intro l
  refine Fits.dep (fun b => b.mask) (readMaskIf_fits m l) ?_ ?_
  · rintro b ⟨⟨⟨-, rfl⟩, -⟩, rfl⟩ c; rfl
  · intro _
    fld FileOffset.fits
    fld FileOffset.fits
    fin

theorem BitmapRangeComparison.fits :
    Fits BitmapRangeComparison.read (fun q => queryBody (.bitmapRangeComparison q)) := by
  unfold BitmapRangeComparison.read queryBody
  refine Fits.start ?_
  fld Fits.flag
  fld RangeQueryParams.fits
  fld Length.fits
  fld Length.fits
  fld Length.fits
  refine Fits.dep (fun b => b.mask) (Fits.bytes _) ?_ ?_
  · rintro b ⟨⟨⟨-, rfl⟩, -⟩, -⟩ c; rfl
  · intro _
    fld FileOffset.fits
    fin

theorem StringTokenSearch.fits : Fits StringTokenSearch.read (fun q => queryBody (.stringTokenSearch q)) := by
  unfold StringTokenSearch.read queryBody
  refine Fits.start ?_
  fld Fits.flag
  skp 1
  fld (Fits.uint (show 3 ≤ 8 by decide))
  fld Length.fits
  refine Fits.dep (fun b => b.mask) (Fits.bytes _) ?_ ?_
  · rintro b ⟨-, rfl⟩ c; rfl
  · intro _
    refine Fits.dep (fun b => b.value) (Fits.bytes _) ?_ ?_
    · rintro b ⟨⟨-, rfl⟩, -⟩ c; rfl
    · intro _
      fld FileOffset.fits
      fin

/-- The type of a query. -/
def queryType : Query → Nat
  | .nonVoid _ => 0 | .comparisonWithZero _ => 1 | .comparisonWithValue _ => 2
  | .comparisonWithOtherFile _ => 3 | .bitmapRangeComparison _ => 4 | .stringTokenSearch _ => 7

theorem Query.fits : Fits Query.read Form.query := by
  unfold Query.read
  refine Fits.byId (show 3 ≤ 8 by decide)
    (K := fun i q c => i.toNat = queryType q ∧ queryBody q c) (fun i _ => ?_) (fun b c => ?_)
  · split
    · rename_i h
      refine Fits.map NonVoid.fits fun b c => ?_
      cases b <;> simp [queryType, h]
    · rename_i h
      refine Fits.map ComparisonWithZero.fits fun b c => ?_
      cases b <;> simp [queryType, h]
    · rename_i h
      refine Fits.map ComparisonWithValue.fits fun b c => ?_
      cases b <;> simp [queryType, h]
    · rename_i h
      refine Fits.map ComparisonWithOtherFile.fits fun b c => ?_
      cases b <;> simp [queryType, h]
    · rename_i h
      refine Fits.map BitmapRangeComparison.fits fun b c => ?_
      cases b <;> simp [queryType, h]
    · rename_i h
      refine Fits.map StringTokenSearch.fits fun b c => ?_
      cases b <;> simp [queryType, h]
    · rename_i h0 h1 h2 h3 h4 h7
      refine Fits.fail fun b c => ?_
      rintro ⟨h, -⟩
      cases b <;> simp [queryType] at h <;> contradiction
  · rw [Form.id_iff (show 3 ≤ 8 by decide) (by cases b <;> simp [queryType])]
    cases b <;> rfl

end Dash7
