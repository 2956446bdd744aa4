import Verif.Lemmas.Hope2

/-!
# Which operands, files and items more input can complete
-/

namespace Dash7

theorem File.hope (cfg : Cfg) (fid : FileId) (n : U32) (h : fid ≠ .firmwareVersion) : Hope 0 0 (File.read cfg fid n) := by
  unfold File.read
  split
  all_goals first
    | contradiction
    | hope

theorem InterfaceFinalStatusCode.hope : Hope 0 0 InterfaceFinalStatusCode.read := by
  unfold InterfaceFinalStatusCode.read
  simp only [P.bind_eq]
  refine Hope.bindG (Hope.uintG (G := fun c => c = 0 ∨ 0xEA ≤ c.toNat) (by decide) 0 (by decide) (by decide))
    (fun c hc => ?_) fun c hc s _ => ?_
  · rw [dif_pos hc]
    exact Hope.end Hope.pure (by decide)
  · rw [dif_neg hc]
    exact ⟨_, rfl⟩
macro_rules | `(tactic| hope_leaf) => `(tactic| with_reducible exact Hope.at InterfaceFinalStatusCode.hope (by decide))

theorem Permission.hope : Hope 0 0 Permission.read := by
  unfold Permission.read
  simp only [P.bind_eq]
  refine Hope.bindG (Hope.uintG (G := fun i => i = 0x42) (by decide) 0x42 (by decide) rfl) (fun i hi => ?_)
    fun i hi s _ => ?_
  · rw [if_pos hi]
    hope
  · rw [if_neg hi]
    exact ⟨_, rfl⟩
macro_rules | `(tactic| hope_leaf) => `(tactic| with_reducible exact Hope.at Permission.hope (by decide))

theorem ActionStatus.hope : Hope 0 0 ActionStatus.read := by unfold ActionStatus.read StatusCode.read; hope
macro_rules | `(tactic| hope_leaf) => `(tactic| with_reducible exact Hope.at ActionStatus.hope (by decide))
theorem Dash7InterfaceStatus.hope (cfg : Cfg) : Hope 0 0 (Dash7InterfaceStatus.read cfg) := by
  unfold Dash7InterfaceStatus.read; hope
macro_rules | `(tactic| hope_leaf) => `(tactic| with_reducible exact Hope.at (Dash7InterfaceStatus.hope _) (by decide))
theorem Dash7InterfaceTxStatus.hope (cfg : Cfg) : Hope 0 0 (Dash7InterfaceTxStatus.read cfg) := by
  unfold Dash7InterfaceTxStatus.read; hope
macro_rules | `(tactic| hope_leaf) => `(tactic| with_reducible exact Hope.at (Dash7InterfaceTxStatus.hope _) (by decide))

attribute [local irreducible] Dash7InterfaceStatus.read Dash7InterfaceTxStatus.read Query.read Addressee.read
  FileOffset.read InterfaceConfiguration.read IndirectInterface.read FactorySettings.read AccessProfile.read

theorem InterfaceFinalStatus.hope (i : U8) (n : U32) : Hope 0 0 (InterfaceFinalStatus.read i n) := by
  unfold InterfaceFinalStatus.read
  split <;> hope
theorem InterfaceTxStatus.hope (cfg : Cfg) (i : U8) (n : U32) : Hope 0 0 (InterfaceTxStatus.read cfg i n) := by
  unfold InterfaceTxStatus.read
  split <;> hope
macro_rules | `(tactic| hope_leaf) => `(tactic| with_reducible exact Hope.at (InterfaceFinalStatus.hope _ _) (by decide))
macro_rules | `(tactic| hope_leaf) => `(tactic| with_reducible exact Hope.at (InterfaceTxStatus.hope _ _ _) (by decide))

theorem Data.FilePermissions.hope : Hope 0 0 FilePermissions.read := by
  unfold FilePermissions.read UserPermissions.reader; hope
macro_rules | `(tactic| hope_leaf) => `(tactic| with_reducible exact Hope.at Data.FilePermissions.hope (by decide))
theorem Data.FileProperties.hope : Hope 0 0 FileProperties.read := by
  unfold FileProperties.read ActionCondition.reader StorageClass.read; hope
macro_rules | `(tactic| hope_leaf) => `(tactic| with_reducible exact Hope.at Data.FileProperties.hope (by decide))
theorem Data.FileHeader.hope : Hope 0 0 FileHeader.read := by unfold FileHeader.read; hope
macro_rules | `(tactic| hope_leaf) => `(tactic| with_reducible exact Hope.at Data.FileHeader.hope (by decide))

theorem ActionHeader.hope : Hope 0 2 ActionHeader.read := by unfold ActionHeader.read; hope
macro_rules | `(tactic| hope_leaf) => `(tactic| with_reducible exact Hope.at ActionHeader.hope (by decide))
theorem OpCode.hope : Hope 2 0 OpCode.read := by unfold OpCode.read; hope
macro_rules | `(tactic| hope_leaf) => `(tactic| with_reducible exact Hope.at OpCode.hope (by decide))

namespace Op

theorem InterfaceFinalStatusOperation.hope : Hope 0 0 InterfaceFinalStatusOperation.read := by
  unfold InterfaceFinalStatusOperation.read; hope
macro_rules
  | `(tactic| hope_leaf) => `(tactic| with_reducible exact Hope.at InterfaceFinalStatusOperation.hope (by decide))
theorem InterfaceTxStatusOperation.hope (cfg : Cfg) : Hope 0 0 (InterfaceTxStatusOperation.read cfg) := by
  unfold InterfaceTxStatusOperation.read; hope

theorem Nop.hope : Hope 0 0 Nop.read := by unfold Nop.read; hope
theorem FileId.hope : Hope 0 0 FileId.read := by unfold FileId.read; hope
theorem FileProperties.hope : Hope 0 0 FileProperties.read := by unfold FileProperties.read; hope
theorem ReadFileData.hope : Hope 0 0 ReadFileData.read := by unfold ReadFileData.read; hope
theorem ActionQuery.hope : Hope 0 0 ActionQuery.read := by unfold ActionQuery.read; hope
theorem PermissionRequest.hope : Hope 0 0 PermissionRequest.read := by
  unfold PermissionRequest.read PermissionLevel.read; hope
theorem CopyFile.hope : Hope 0 0 CopyFile.read := by unfold CopyFile.read; hope
theorem ResponseTag.hope : Hope 0 0 ResponseTag.read := by unfold ResponseTag.read ResponseTagHeader.read; hope
theorem Chunk.hope : Hope 0 0 Chunk.read := by unfold Chunk.read ChunkStep.read; hope
theorem Logic.hope : Hope 0 0 Logic.read := by unfold Logic.read LogicOp.read; hope
theorem Forward.hope (cfg : Cfg) : Hope 0 0 (Forward.read cfg) := by unfold Forward.read; hope
theorem IndirectForwardHeader.hope : Hope 0 2 IndirectForwardHeader.read := by
  unfold IndirectForwardHeader.read; hope
macro_rules | `(tactic| hope_leaf) => `(tactic| with_reducible exact Hope.at IndirectForwardHeader.hope (by decide))
theorem IndirectForward.hope (cfg : Cfg) : Hope 0 0 (IndirectForward.read cfg) := by unfold IndirectForward.read; hope
theorem RequestTag.hope : Hope 0 0 RequestTag.read := by unfold RequestTag.read; hope
theorem Extension.hope : Hope 0 0 Extension.read := by unfold Extension.read; hope

end Op

/-! ## With exceptions -/

/-- More input can complete what ran out of input at a byte boundary, but for the inputs in `X`. -/
structure HopeX {α : Type} (k : Nat) (p : P α) (X : List Bool → Prop) : Prop where
  can : ∃ s a, p.eval s = .ok (a, [])
  more : ∀ s, 8 ∣ k + s.length → p.eval s = .error .incomplete → X s ∨ ∃ t a, p.eval (s ++ t) = .ok (a, [])

theorem HopeG.x {α : Type} {k j : Nat} {p : P α} {G : α → Prop} (h : HopeG k j p G) (X : List Bool → Prop) :
    HopeX k p X where
  can := let ⟨s, a, _, he⟩ := h.can; ⟨s, a, he⟩
  more := fun s hs he => let ⟨t, a, _, ht⟩ := h.more s hs he; .inr ⟨t, a, ht⟩

/-- After a value not in `G` nothing is said. -/
theorem HopeX.bind {α β : Type} {k j : Nat} {p : P α} {g : α → P β} {G : α → Prop} {Y : α → List Bool → Prop}
    (hp : HopeG k j p G) (hg : ∀ a, G a → HopeX j (g a) (Y a)) :
    HopeX k (p.bind g) fun s => ∃ a s', p.eval s = .ok (a, s') ∧ (¬ G a ∧ ¬ Dead j (g a) ∨ Y a s') where
  can := by
    obtain ⟨s, a, ha, he⟩ := hp.can
    obtain ⟨t, b, he'⟩ := (hg a ha).can
    refine ⟨s ++ t, b, ?_⟩
    rw [P.eval_bind, p.eval_extend he]
    exact he'
  more := by
    intro s hs he
    rw [P.eval_bind] at he
    split at he
    · rename_i a s' ha
      have hl : 8 ∣ j + s'.length := by
        obtain ⟨c, rfl, -⟩ := p.eval_ok ha
        have := hp.width _ _ _ ha
        rw [List.length_append] at hs
        have : (k + c.length) % 8 = j % 8 := this
        omega
      by_cases hG : G a
      · rcases (hg a hG).more s' hl he with hY | ⟨t, b, hb⟩
        · exact .inl ⟨a, s', ha, .inr hY⟩
        · refine .inr ⟨t, b, ?_⟩
          rw [P.eval_bind, p.eval_extend ha]
          exact hb
      · by_cases hD : Dead j (g a)
        · obtain ⟨f, hf⟩ := hD s' hl
          rw [hf] at he
          cases he
        · exact .inl ⟨a, s', ha, .inl ⟨hG, hD⟩⟩
    · rename_i e ha
      cases he
      obtain ⟨t, a, hG, ha⟩ := hp.more s hs ha
      obtain ⟨t', b, hb⟩ := (hg a hG).can
      refine .inr ⟨t ++ t', b, ?_⟩
      rw [P.eval_bind, ← List.append_assoc, p.eval_extend ha]
      exact hb

theorem HopeX.mono {α : Type} {k : Nat} {p : P α} {X Y : List Bool → Prop} (h : HopeX k p X) (hXY : ∀ s, X s → Y s) :
    HopeX k p Y where
  can := h.can
  more := fun s hs he => (h.more s hs he).imp_left (hXY s)

/-- The byte `n` bits into the input. -/
def byteAt (n : Nat) (s : List Bool) : Nat := bitsNat ((s.drop n).take 8)

theorem Post.drops {α : Type} {p : P α} {n : Nat} (h : Post p fun _ m => m = n) {s s' : List Bool} {a : α}
    (he : p.eval s = .ok (a, s')) : s' = s.drop n := by
  obtain ⟨c, rfl, -⟩ := p.eval_ok he
  have : c.length = n := h _ _ _ he
  rw [← this, List.drop_left]

theorem u8_eval {s s' : List Bool} {b : U8} (he : P.u8.eval s = .ok (b, s')) : b.toNat = byteAt 0 s := by
  unfold P.u8 P.uint at he
  rw [if_neg (by omega), P.eval_bits] at he
  split at he
  · simp only [P.eval, Except.ok.injEq, Prod.mk.injEq] at he
    rw [← he.1, BitVec.toNat_ofNat, byteAt, List.drop_zero, Nat.mod_eq_of_lt]
    exact Nat.lt_of_lt_of_le (bitsNat_lt _) (Nat.pow_le_pow_right (by decide) (by simp; omega))
  · cases he

theorem FileId.ofId_firmware {b : U8} (h : b ≠ 2) : FileId.ofId b ≠ .firmwareVersion := by
  revert b
  decide

theorem Op.lengthAfter_hope {k : Nat} (b : U8) : Hope k k (lengthAfter b) := by
  unfold lengthAfter
  simp only [P.bind_eq]
  exact Hope.end (Hope.bind (Hope.uint (by have := b.isLt; omega)) fun _ => Hope.pure) (by omega)

theorem Op.statusLength_hope {k : Nat} (cfg : Cfg) (b : U8) : Hope k k (statusLength cfg b) := by
  unfold statusLength
  split
  · exact lengthAfter_hope b
  · exact Hope.end Length.hope (by omega)

theorem InterfaceType.ofId_loRa {b : U8} (h : b ≠ 2 ∧ b ≠ 3) :
    InterfaceType.ofId b ≠ .loRaWanABP ∧ InterfaceType.ofId b ≠ .loRaWanOTAA := by
  revert b
  decide

theorem InterfaceStatus.hope (cfg : Cfg) (t : InterfaceType) (n : U32) (h : t ≠ .loRaWanABP ∧ t ≠ .loRaWanOTAA) :
    Hope 0 0 (InterfaceStatus.read cfg t n) := by
  unfold InterfaceStatus.read
  split
  · hope
  · hope
  · hope
  · hope
  · exact absurd rfl h.1
  · exact absurd rfl h.2

theorem Op.InterfaceStatusOperation.hope (cfg : Cfg) :
    HopeX 0 (InterfaceStatusOperation.read cfg) fun s => byteAt 0 s = 2 ∨ byteAt 0 s = 3 := by
  unfold InterfaceStatusOperation.read
  simp only [P.bind_eq]
  refine HopeX.mono (HopeX.bind (G := fun b => b ≠ 2 ∧ b ≠ 3) (Y := fun _ _ => False)
    (Hope.uintG (by decide) 0 (by decide) (by decide)) fun b hb => HopeG.x (Hope.bind (statusLength_hope cfg b) fun l =>
      Hope.bind (Hope.at (InterfaceStatus.hope cfg _ _ (InterfaceType.ofId_loRa hb)) (by decide)) fun _ => Hope.pure) _) ?_
  rintro s ⟨b, s', he, ⟨h, -⟩ | h⟩
  · rw [← u8_eval he]
    by_cases h2 : b = 2
    · exact .inl (by rw [h2]; rfl)
    · by_cases h3 : b = 3
      · exact .inr (by rw [h3]; rfl)
      · exact absurd ⟨h2, h3⟩ h
  · exact h.elim

theorem HopeX.map {α β : Type} {k : Nat} {p : P α} {X : List Bool → Prop} (h : HopeX k p X) (f : α → β) :
    HopeX k (p.bind fun a => P.pure (f a)) X where
  can := by
    obtain ⟨s, a, he⟩ := h.can
    exact ⟨s, f a, by rw [P.eval_bind, he]; rfl⟩
  more := by
    intro s hs he
    rw [P.eval_bind] at he
    split at he
    · cases he
    · rename_i e ha
      cases he
      rcases h.more s hs ha with h | ⟨t, a, ht⟩
      · exact .inl h
      · exact .inr ⟨t, f a, by rw [P.eval_bind, ht]; rfl⟩

theorem HopeX.at {α : Type} {k k' : Nat} {p : P α} {X : List Bool → Prop} (h : HopeX k p X) (hk : k' % 8 = k % 8) :
    HopeX k' p X where
  can := h.can
  more := fun s hs he => h.more s (by omega) he

theorem Op.Status.hope (cfg : Cfg) (t : StatusType) (ht : t = .interfaceFinal → cfg.variant = .wizzilab) :
    HopeX 0 (Status.read cfg t) fun s => t = .interface ∧ (byteAt 0 s = 2 ∨ byteAt 0 s = 3) := by
  cases t <;> unfold Status.read
  · exact HopeX.map (HopeG.x ActionStatus.hope _) _
  · exact HopeX.map ((InterfaceStatusOperation.hope cfg).mono fun s h => ⟨rfl, h⟩) Status.interface
  · rw [ht rfl]
    exact HopeX.map (HopeG.x InterfaceFinalStatusOperation.hope _) _

theorem Op.StatusType.eval {s s' : List Bool} {t : StatusType} (he : StatusType.read.eval s = .ok (t, s')) :
    s' = s.drop 2 ∧ (t = .interface → bitsNat (s.take 2) = 1) := by
  unfold StatusType.read P.enum at he
  rw [P.eval_bind] at he
  unfold P.uint at he
  rw [if_neg (by omega), P.eval_bits] at he
  split at he
  · rename_i a s'' hx
    split at hx
    · simp only [P.eval, Except.ok.injEq, Prod.mk.injEq] at hx
      obtain ⟨rfl, rfl⟩ := hx
      have hl : bitsNat (s.take 2) < 4 := Nat.lt_of_lt_of_le (bitsNat_lt _)
        (Nat.pow_le_pow_right (n := 2) (j := 2) (by decide) (by simp; omega))
      split at he
      · rename_i e hx
        simp only [P.eval, Except.ok.injEq, Prod.mk.injEq] at he
        refine ⟨he.2.symm, fun ht => ?_⟩
        rw [← he.1] at ht
        subst ht
        unfold ofId at hx
        rw [BitVec.toNat_ofNat, Nat.mod_eq_of_lt (by omega)] at hx
        split at hx <;> first | assumption | cases hx
      · cases he
    · cases hx
  · cases he

theorem Op.StatusOperand.hope (cfg : Cfg) : HopeX 0 (StatusOperand.read cfg) fun s =>
    bitsNat (s.take 2) = 1 ∧ (byteAt 8 s = 2 ∨ byteAt 8 s = 3) := by
  unfold StatusOperand.read
  simp only [P.bind_eq]
  refine HopeX.mono (HopeX.bind (G := fun t => t = .interfaceFinal → cfg.variant = .wizzilab)
    (Y := fun t s => t = .interface ∧ (byteAt 6 s = 2 ∨ byteAt 6 s = 3))
    (Hope.enumG (by decide) 0 (by decide) .action rfl (by intro h; cases h)) fun t ht =>
    HopeX.mono (HopeX.bind (Y := fun _ s => t = .interface ∧ (byteAt 0 s = 2 ∨ byteAt 0 s = 3)) OpCode.hope fun o _ =>
      HopeX.map (HopeX.at (Op.Status.hope cfg t ht) (by decide)) _) ?_) ?_
  · rintro s ⟨b, s', he, ⟨h, -⟩ | h⟩
    · exact absurd trivial h
    · rwa [(OpCode.post.mono fun _ _ h => h.2).drops he, byteAt, List.drop_drop] at h
  · rintro s ⟨t, s', he, ⟨h, hd⟩ | h⟩
    · refine absurd ?_ hd
      intro s hs
      have ht : t = .interfaceFinal := by cases t <;> first | rfl | exact absurd (fun h => by cases h) h
      subst ht
      obtain ⟨a, s2, ho⟩ : ∃ a s2, OpCode.read.eval s = .ok (a, s2) := by
        unfold OpCode.read P.uint
        simp only [P.bind_eq]
        rw [P.eval_bind, if_neg (by omega), P.eval_bits, if_pos (by omega)]
        exact ⟨_, _, rfl⟩
      rw [P.eval_bind, ho]
      unfold Status.read
      cases hv : cfg.variant with
      | wizzilab => exact absurd (fun _ => hv) h
      | spec => exact ⟨_, rfl⟩
      | subiot => exact ⟨_, rfl⟩
    · obtain ⟨hs, ht⟩ := StatusType.eval he
      refine ⟨ht h.1, ?_⟩
      rw [hs] at h
      simpa only [byteAt, List.drop_drop] using h.2

end Dash7
