import Verif.Props.Interfaces

/-!
# C27, C28: queries and `update`
-/

namespace Dash7

/-! ## C27 -/

/-- A query encodes, and its encoding decodes to it. -/
def Spec.queryComesBack (q : Query) : Prop :=
  ∃ bytes, q.write.toBytes = .ok bytes ∧ derivedTryFrom Query.read.run bytes = .ok q

theorem Query.comesBack_iff (q : Query) : Spec.queryComesBack q ↔ q.WF := by
  constructor
  · rintro ⟨bytes, -, hd⟩
    obtain ⟨n, ⟨h, -⟩, -⟩ := derivedTryFrom_post Query.post hd
    exact h
  · intro h
    obtain ⟨bytes, hb, hd, -⟩ := (Query.rt h).derived (Query.mod8 q)
    exact ⟨bytes, hb, hd⟩

theorem Length.ofUsize_wf_iff (n : Nat) : (Length.ofUsize n).WF ∧ (Length.ofUsize n).toNat = n ↔ n < 2 ^ 30 := by
  unfold Length.WF Length.ofUsize Length.toNat
  rw [BitVec.toNat_ofNat]
  constructor
  · rintro ⟨h1, h2⟩; omega
  · intro h
    have : n % 2 ^ 32 = n := Nat.mod_eq_of_lt (by omega)
    omega

theorem maskIf {mask : List U8} {n : Nat} {b : Bool} (hb : b = decide (mask.length > 0)) :
    (if b then mask.length = n else mask = []) ↔ mask = [] ∨ (mask ≠ [] ∧ mask.length = n) := by
  subst hb
  cases mask <;> simp

/-- **C27** `NonVoid`: lengths and offsets below 2³⁰. -/
theorem C27_non_void (length : U32) (fileId : U8) (offset : U32) :
    Spec.queryComesBack (.nonVoid ⟨⟨length⟩, ⟨fileId, ⟨offset⟩⟩⟩) ↔
      length.toNat < 2 ^ 30 ∧ offset.toNat < 2 ^ 30 := Query.comesBack_iff _

/-- **C27** `ComparisonWithZero::new`: every mask that has a length operand. -/
theorem C27_with_zero (params : ArithmeticQueryParams) (mask : List U8) (fileId : U8) (offset : U32) :
    Spec.queryComesBack (.comparisonWithZero (.new params mask ⟨fileId, ⟨offset⟩⟩)) ↔
      mask.length < 2 ^ 30 ∧ offset.toNat < 2 ^ 30 := by
  rw [Query.comesBack_iff, ← Length.ofUsize_wf_iff]
  simp only [Query.WF, ComparisonWithZero.new]
  constructor
  · rintro ⟨h1, h2, h3⟩
    refine ⟨⟨h1, ?_⟩, h2⟩
    rcases (maskIf rfl).1 h3 with rfl | ⟨-, h3⟩
    · rfl
    · exact h3.symm
  · rintro ⟨⟨h1, h2⟩, h3⟩
    refine ⟨h1, h3, (maskIf rfl).2 ?_⟩
    by_cases hm : mask = []
    · exact .inl hm
    · exact .inr ⟨hm, h2.symm⟩

/-- **C27** `ComparisonWithOtherFile::new`: every mask that has a length operand. -/
theorem C27_with_other_file (params : ArithmeticQueryParams) (mask : List U8) (id1 id2 : U8) (offset1 offset2 : U32) :
    Spec.queryComesBack (.comparisonWithOtherFile (.new params mask ⟨id1, ⟨offset1⟩⟩ ⟨id2, ⟨offset2⟩⟩)) ↔
      mask.length < 2 ^ 30 ∧ offset1.toNat < 2 ^ 30 ∧ offset2.toNat < 2 ^ 30 := by
  rw [Query.comesBack_iff, ← Length.ofUsize_wf_iff]
  simp only [Query.WF, ComparisonWithOtherFile.new]
  constructor
  · rintro ⟨h1, h2, h4, h3⟩
    refine ⟨⟨h1, ?_⟩, h2, h4⟩
    rcases (maskIf rfl).1 h3 with rfl | ⟨-, h3⟩
    · rfl
    · exact h3.symm
  · rintro ⟨⟨h1, h2⟩, h3, h4⟩
    refine ⟨h1, h3, h4, (maskIf rfl).2 ?_⟩
    by_cases hm : mask = []
    · exact .inl hm
    · exact .inr ⟨hm, h2.symm⟩

/-- **C27** `BitmapRangeComparison::new`: every bitmap that has a length operand. -/
theorem C27_bitmap_range (params : RangeQueryParams) (start stop : U32) (mask : List U8) (fileId : U8) (offset : U32) :
    Spec.queryComesBack (.bitmapRangeComparison (.new params start stop mask ⟨fileId, ⟨offset⟩⟩)) ↔
      mask.length < 2 ^ 30 ∧ start.toNat < 2 ^ 30 ∧ stop.toNat < 2 ^ 30 ∧ offset.toNat < 2 ^ 30 := by
  rw [Query.comesBack_iff, ← Length.ofUsize_wf_iff]
  simp only [Query.WF, BitmapRangeComparison.new]
  constructor
  · rintro ⟨h1, h2, h3, h4, h5⟩
    exact ⟨⟨h1, h5.symm⟩, h2, h3, h4⟩
  · rintro ⟨⟨h1, h5⟩, h2, h3, h4⟩
    exact ⟨h1, h2, h3, h4, h5.symm⟩

/-- **C27** `ComparisonWithValue::new`: only without mask, or with a mask as long as the value. -/
theorem C27_with_value_partial (params : ArithmeticQueryParams) (mask value : List U8) (fileId : U8) (offset : U32) :
    Spec.queryComesBack (.comparisonWithValue (.new params mask value ⟨fileId, ⟨offset⟩⟩)) ↔
      value.length < 2 ^ 30 ∧ (mask = [] ∨ mask.length = value.length) ∧ offset.toNat < 2 ^ 30 := by
  rw [Query.comesBack_iff, ← Length.ofUsize_wf_iff]
  simp only [Query.WF, ComparisonWithValue.new]
  constructor
  · rintro ⟨h1, h2, h3, h4⟩
    refine ⟨⟨h1, h3.symm⟩, ?_, h2⟩
    rcases (maskIf rfl).1 h4 with h4 | ⟨-, h4⟩
    · exact .inl h4
    · exact .inr (h4.trans h3.symm)
  · rintro ⟨⟨h1, h3⟩, h4, h2⟩
    refine ⟨h1, h2, h3.symm, (maskIf rfl).2 ?_⟩
    rcases h4 with h4 | h4
    · exact .inl h4
    · by_cases hm : mask = []
      · exact .inl hm
      · exact .inr ⟨hm, h4.trans h3.symm⟩

/-- **C27** `StringTokenSearch::new`: only with a mask as long as the value, and fewer than eight errors. -/
theorem C27_token_search_partial (maxErrors : U8) (mask value : List U8) (fileId : U8) (offset : U32) :
    Spec.queryComesBack (.stringTokenSearch (.new maxErrors mask value ⟨fileId, ⟨offset⟩⟩)) ↔
      value.length < 2 ^ 30 ∧ mask.length = value.length ∧ maxErrors.toNat < 8 ∧ offset.toNat < 2 ^ 30 := by
  rw [Query.comesBack_iff, ← Length.ofUsize_wf_iff]
  simp only [Query.WF, StringTokenSearch.new]
  constructor
  · rintro ⟨h1, h2, h3, h4, h5⟩
    exact ⟨⟨h1, h5.symm⟩, h4.trans h5.symm, h3, h2⟩
  · rintro ⟨⟨h1, h5⟩, h4, h3, h2⟩
    exact ⟨h1, h2, h3, h4.trans h5.symm, h5.symm⟩

/-- **C27** A token search without mask encodes to something the decoder cannot read ... -/
theorem C27_token_search_violates :
    (Query.stringTokenSearch (.new 0 [] [1, 2, 3] ⟨4, ⟨5⟩⟩)).write.toBytes = .ok [0xE0, 3, 1, 2, 3, 4, 5] ∧
    derivedTryFrom Query.read.run [0xE0, 3, 1, 2, 3, 4, 5] = .error .incomplete ∧
    -- ... or takes for another query
    (Query.stringTokenSearch (.new 0 [] [1] ⟨0, ⟨0⟩⟩)).write.toBytes = .ok [0xE0, 1, 1, 0, 0] ∧
    derivedFromBytes Query.read.run ([0xE0, 1, 1, 0, 0, 7], 0)
      = .ok (([], 0), .stringTokenSearch ⟨false, 0, ⟨1⟩, [1], [0], ⟨0, ⟨7⟩⟩⟩) := by decide +kernel

/-- **C27** A comparison with a mask shorter than the value cannot be read back. -/
theorem C27_with_value_violates :
    (Query.comparisonWithValue (.new ⟨false, .equal⟩ [0xFF] [1, 2] ⟨4, ⟨5⟩⟩)).write.toBytes
      = .ok [0x51, 2, 0xFF, 1, 2, 4, 5] ∧
    derivedTryFrom Query.read.run [0x51, 2, 0xFF, 1, 2, 4, 5] = .error .incomplete := by decide +kernel

example : Spec.queryComesBack (.stringTokenSearch (.new 3 [0xFF, 0] [1, 2] ⟨4, ⟨100⟩⟩)) :=
  (C27_token_search_partial _ _ _ _ _).2 (by decide)
example : Spec.queryComesBack (.comparisonWithZero (.new ⟨true, .lessThan⟩ [] ⟨4, ⟨100⟩⟩)) :=
  (C27_with_zero _ _ _ _).2 (by decide)

/-! ## C28 -/

/-- **C28** `update` does to a query what building it anew from its public fields would, where the length is
derived. -/
theorem C28_as_new :
    (∀ q : ComparisonWithZero, q.update = .new q.params q.mask q.file) ∧
    (∀ q : ComparisonWithValue, q.update = .new q.params q.mask q.value q.file) ∧
    (∀ q : StringTokenSearch, q.update = .new q.maxErrors q.mask q.value q.file) ∧
    (∀ a : Addressee, a.update = .new a.useVid a.groupCondition a.address a.nlsState a.accessClass) ∧
    (∀ o : Op.IndirectForward, o.opcode = ⟨51⟩ → o.update = .new o.header.response o.configuration) := by
  refine ⟨fun _ => rfl, fun _ => rfl, fun _ => rfl, fun _ => rfl, fun o h => ?_⟩
  obtain ⟨h1, h2, h3⟩ := o
  cases h
  rfl

/-- **C28** The derived fields after `update`. -/
theorem C28_agree (z : ComparisonWithZero) (v : ComparisonWithValue) (f : ComparisonWithOtherFile)
    (b : BitmapRangeComparison) (t : StringTokenSearch) :
    ((z.update.maskPresent = true ↔ z.mask ≠ []) ∧ z.update.mask = z.mask ∧
      z.update.length.val.toNat = z.mask.length % 2 ^ 32) ∧
    ((v.update.maskPresent = true ↔ v.mask ≠ []) ∧ v.update.mask = v.mask ∧ v.update.value = v.value ∧
      v.update.length.val.toNat = v.value.length % 2 ^ 32) ∧
    ((f.update.maskPresent = true ↔ f.mask ≠ []) ∧ f.update.mask = f.mask) ∧
    ((b.update.maskPresent = true ↔ b.mask ≠ []) ∧ b.update.mask = b.mask) ∧
    ((t.update.maskPresent = true ↔ t.mask ≠ []) ∧ t.update.mask = t.mask ∧ t.update.value = t.value ∧
      t.update.length.val.toNat = t.value.length % 2 ^ 32) := by
  simp [ComparisonWithZero.update, ComparisonWithValue.update, ComparisonWithOtherFile.update,
    BitmapRangeComparison.update, StringTokenSearch.update, Length.ofUsize, List.length_pos_iff]

/-- **C28** A second `update` changes nothing. -/
theorem C28_idempotent :
    (∀ q : ComparisonWithZero, q.update.update = q.update) ∧
    (∀ q : ComparisonWithValue, q.update.update = q.update) ∧
    (∀ q : ComparisonWithOtherFile, q.update.update = q.update) ∧
    (∀ q : BitmapRangeComparison, q.update.update = q.update) ∧
    (∀ q : StringTokenSearch, q.update.update = q.update) ∧
    (∀ a : Addressee, a.update.update = a.update) ∧
    (∀ o : Op.IndirectForward, o.update.update = o.update) ∧
    (∀ p p' : PhyStatus, p.update = .ok p' → p'.update = .ok p') := by
  refine ⟨fun _ => rfl, fun _ => rfl, fun _ => rfl, fun _ => rfl, fun _ => rfl, fun _ => rfl, fun _ => rfl, ?_⟩
  intro p p' h
  unfold PhyStatus.update at h ⊢
  split at h
  · rename_i hl
    injection h with h
    subst h
    simp only [hl, if_true]
  · cases h

theorem Query.decoded {data : List U8} {q : Query} (h : derivedTryFrom Query.read.run data = .ok q) : q.WF := by
  obtain ⟨n, ⟨h, -⟩, -⟩ := derivedTryFrom_post Query.post h
  exact h

theorem Length.ofUsize_eq (l : Length) : Length.ofUsize l.toNat = l := by
  cases l; simp [Length.ofUsize, Length.toNat]

theorem Length.ofUsize_pos {l : Length} (h : Length.ofUsize 0 = l) : ¬ 0 < l.val.toNat := by
  subst h; simp [Length.ofUsize]

/-- **C28** When `update` leaves a decoded query alone, type by type: `ComparisonWithZero` if the mask bit says
whether the length is positive, ... -/
theorem C28_decoded_zero_partial (data : List U8) (q : ComparisonWithZero)
    (h : derivedTryFrom Query.read.run data = .ok (.comparisonWithZero q)) :
    q.update = q ↔ (q.maskPresent = true ↔ 0 < q.length.val.toNat) := by
  obtain ⟨h1, h2, h3⟩ := Query.decoded h
  obtain ⟨m, p, l, mask, f⟩ := q
  dsimp only at h3 ⊢
  simp only [ComparisonWithZero.update, ComparisonWithZero.mk.injEq, true_and, and_true]
  cases m with
  | true =>
    rw [if_pos rfl] at h3
    rw [h3, Length.ofUsize_eq]
    simp [Length.toNat]
  | false =>
    simp at h3
    subst h3
    simp only [List.length_nil, Bool.false_eq_true, false_iff]
    constructor
    · rintro ⟨-, h⟩; exact Length.ofUsize_pos h
    · intro h
      refine ⟨by simp, ?_⟩
      rw [← Length.ofUsize_eq l, Length.toNat, show l.val.toNat = 0 by omega]

/-- ... `ComparisonWithValue` and `ComparisonWithOtherFile` unless an empty mask is announced, ... -/
theorem C28_decoded_value_partial (data : List U8) (q : ComparisonWithValue)
    (h : derivedTryFrom Query.read.run data = .ok (.comparisonWithValue q)) :
    q.update = q ↔ (q.maskPresent = true → 0 < q.length.val.toNat) := by
  obtain ⟨h1, h2, h3, h4⟩ := Query.decoded h
  obtain ⟨m, p, l, mask, v, f⟩ := q
  dsimp only at h3 h4 ⊢
  simp only [ComparisonWithValue.update, ComparisonWithValue.mk.injEq, true_and, and_true]
  rw [h3, Length.ofUsize_eq]
  cases m with
  | true =>
    rw [if_pos rfl] at h4
    rw [h4]
    simp [Length.toNat]
  | false =>
    simp at h4
    subst h4
    simp

theorem C28_decoded_other_partial (data : List U8) (q : ComparisonWithOtherFile)
    (h : derivedTryFrom Query.read.run data = .ok (.comparisonWithOtherFile q)) :
    q.update = q ↔ (q.maskPresent = true → 0 < q.length.val.toNat) := by
  obtain ⟨h1, h2, h3, h4⟩ := Query.decoded h
  obtain ⟨m, p, l, mask, f, g⟩ := q
  dsimp only at h4 ⊢
  simp only [ComparisonWithOtherFile.update, ComparisonWithOtherFile.mk.injEq, and_true]
  cases m with
  | true =>
    rw [if_pos rfl] at h4
    rw [h4]
    simp [Length.toNat]
  | false =>
    simp at h4
    subst h4
    simp

/-- ... `BitmapRangeComparison` and `StringTokenSearch` if the mask bit says whether the length is positive. -/
theorem C28_decoded_bitmap_partial (data : List U8) (q : BitmapRangeComparison)
    (h : derivedTryFrom Query.read.run data = .ok (.bitmapRangeComparison q)) :
    q.update = q ↔ (q.maskPresent = true ↔ 0 < q.length.val.toNat) := by
  obtain ⟨h1, h2, h3, h4, h5⟩ := Query.decoded h
  obtain ⟨m, p, l, a, o, mask, f⟩ := q
  dsimp only at h5 ⊢
  simp only [BitmapRangeComparison.update, BitmapRangeComparison.mk.injEq, and_true]
  rw [h5]
  cases m <;> simp [Length.toNat]

theorem C28_decoded_token_partial (data : List U8) (q : StringTokenSearch)
    (h : derivedTryFrom Query.read.run data = .ok (.stringTokenSearch q)) :
    q.update = q ↔ (q.maskPresent = true ↔ 0 < q.length.val.toNat) := by
  obtain ⟨h1, h2, h3, h4, h5⟩ := Query.decoded h
  obtain ⟨m, e, l, mask, v, f⟩ := q
  dsimp only at h4 h5 ⊢
  simp only [StringTokenSearch.update, StringTokenSearch.mk.injEq, true_and, and_true]
  rw [h4, h5, Length.ofUsize_eq]
  cases m <;> simp [Length.toNat]

theorem Action.tryFrom_inv {cfg : Cfg} {data : List U8} {a : Action} (h : Action.tryFrom cfg data = .ok a) :
    ∃ rest, Action.fromBytes cfg (data, 0) = .ok (rest, a) := by
  unfold Action.tryFrom at h
  split at h
  · cases h
  · split at h
    · cases h
    · rename_i rest a he hr
      injection h with h
      subst h
      exact ⟨_, he⟩

/-- **C28** Addressees, physical status files and indirect forwards are always left alone once decoded (for the
last see also `C47_decoded`). -/
theorem C28_decoded (cfg : Cfg) (data : List U8) :
    (∀ a, derivedTryFrom (Addressee.read cfg).run data = .ok a → a.update = a) ∧
    (∀ p, derivedTryFrom PhyStatus.read.run data = .ok p → p.update = .ok p) ∧
    (∀ o, Action.tryFrom cfg data = .ok (.indirectForward o) → o.update = o) := by
  refine ⟨fun a h => ?_, fun p h => ?_, fun o h => ?_⟩
  · obtain ⟨n, hw, -⟩ := derivedTryFrom_post (Addressee.post cfg) h
    obtain ⟨h1, h2, -⟩ := hw
    unfold Addressee.update
    rw [← h1, ← h2]
  · obtain ⟨n, hw, -⟩ := derivedTryFrom_post PhyStatus.post h
    obtain ⟨h1, -⟩ := hw
    have := p.channelStatusListLength.isLt
    unfold PhyStatus.update
    rw [if_pos (by omega), ← h1]
    simp
  · obtain ⟨rest, hf⟩ := Action.tryFrom_inv h
    exact (C47_decoded cfg data rest o hf).1

/-- **C28** fails for a decoded comparison with zero without mask: the length is lost. -/
theorem C28_zero_violates :
    ∃ q q', derivedTryFrom Query.read.run [0x21, 5, 0x40, 0] = .ok (.comparisonWithZero q) ∧ q.update = q' ∧
      (Query.comparisonWithZero q').write.toBytes = .ok [0x21, 0, 0x40, 0] :=
  ⟨⟨false, ⟨false, .equal⟩, ⟨5⟩, [], ⟨0x40, ⟨0⟩⟩⟩, _, by decide +kernel, rfl, by decide +kernel⟩

/-- **C28** fails for a decoded bitmap comparison: the mask bit is set. -/
theorem C28_bitmap_violates :
    ∃ q q', derivedTryFrom Query.read.run [0x81, 1, 0, 8, 0xFF, 0x40, 0] = .ok (.bitmapRangeComparison q) ∧ q.update = q' ∧
      (Query.bitmapRangeComparison q').write.toBytes = .ok [0x91, 1, 0, 8, 0xFF, 0x40, 0] :=
  ⟨⟨false, ⟨false, .inRange⟩, ⟨1⟩, ⟨0⟩, ⟨8⟩, [0xFF], ⟨0x40, ⟨0⟩⟩⟩, _, by decide +kernel, rfl, by decide +kernel⟩

example : derivedTryFrom Query.read.run [0x51, 1, 0xFF, 2, 0x40, 0]
    = .ok (.comparisonWithValue ⟨true, ⟨false, .equal⟩, ⟨1⟩, [0xFF], [2], ⟨0x40, ⟨0⟩⟩⟩) ∧
    derivedTryFrom Query.read.run [0x71, 0, 0x40, 0, 0x41, 1]
    = .ok (.comparisonWithOtherFile ⟨true, ⟨false, .equal⟩, ⟨0⟩, [], ⟨0x40, ⟨0⟩⟩, ⟨0x41, ⟨1⟩⟩⟩) ∧
    derivedTryFrom Query.read.run [0xF2, 1, 0xFF, 2, 0x40, 0]
    = .ok (.stringTokenSearch ⟨true, 2, ⟨1⟩, [0xFF], [2], ⟨0x40, ⟨0⟩⟩⟩) := by decide +kernel

/-- **C28** `update` leaves a stale length behind where the length is not derived: after a byte is added to the
mask the updated query no longer comes back. -/
theorem C28_stale_length_violates :
    let q := ComparisonWithOtherFile.new ⟨false, .equal⟩ [1, 2] ⟨4, ⟨5⟩⟩ ⟨8, ⟨9⟩⟩
    ({ q with mask := [1, 2, 3] } : ComparisonWithOtherFile).update.length = ⟨2⟩ ∧
    ¬ Spec.queryComesBack (.comparisonWithOtherFile ({ q with mask := [1, 2, 3] } : ComparisonWithOtherFile).update) := by
  refine ⟨rfl, ?_⟩
  rw [Query.comesBack_iff]
  simp [Query.WF, ComparisonWithOtherFile.update, ComparisonWithOtherFile.new, Length.ofUsize, Length.toNat]

/-- **C28** `update` of an action touches nothing: an operand that no longer agrees with itself stays so, and what is
encoded is not read back, though the operand's own `update` would have repaired it. -/
theorem C28_action_violates (cfg : Cfg) :
    let o : Op.IndirectForward := { Op.IndirectForward.new true none with configuration := some .host }
    ∃ a, Action.update (.indirectForward o) = .ok a ∧
      (∃ bytes, a.toBytes cfg = .ok bytes ∧ Action.tryFrom cfg bytes ≠ .ok a) ∧
      ∃ bytes, (Action.indirectForward o.update).toBytes cfg = .ok bytes ∧
        Action.tryFrom cfg bytes = .ok (.indirectForward o.update) := by
  obtain ⟨v, b, e, s, u⟩ := cfg
  refine ⟨_, rfl, ⟨[0x73, 0x00], ?_, ?_⟩, [0xF3, 0x00], ?_, ?_⟩ <;>
    (cases v <;> cases b <;> cases e <;> cases s <;> cases u <;> decide +kernel)

#print axioms C28_action_violates
#print axioms C27_non_void
#print axioms C27_with_zero
#print axioms C27_with_other_file
#print axioms C27_bitmap_range
#print axioms C27_with_value_partial
#print axioms C27_token_search_partial
#print axioms C27_token_search_violates
#print axioms C27_with_value_violates
#print axioms C28_as_new
#print axioms C28_agree
#print axioms C28_idempotent
#print axioms C28_decoded_zero_partial
#print axioms C28_decoded_value_partial
#print axioms C28_decoded_other_partial
#print axioms C28_decoded_bitmap_partial
#print axioms C28_decoded_token_partial
#print axioms C28_decoded
#print axioms C28_zero_violates
#print axioms C28_bitmap_violates
#print axioms C28_stale_length_violates

end Dash7
