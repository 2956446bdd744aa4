import Verif.Lemmas.Flip2

/-!
# Flipping one bit of an action
-/

namespace Dash7

open Ignored (heed skip)

namespace Tight

theorem fileData (big : Bool) (code : Nat) (o : Op.FileData)
    (hl : (∀ d, o.data ≠ .other d) → (Ignored.content o.data).length / 8 < 64) :
    Tight (Form.fileData big code o) (heed 8 ++ Ignored.fileOffset o.offset ++ Ignored.file o.data) :=
  (after (Rigid.header _) (after (Rigid.opcode _ _) (cons (fileOffset _) (last (fileSized _ _ _ hl))))).cast (by marks)

theorem filePropertiesAction (code : Nat) (o : Op.FileProperties) :
    Tight (Form.filePropertiesAction code o) (heed 16 ++ Ignored.fileHeader) :=
  (after (Rigid.header _) (after (Rigid.opcode _ _) (after (Rigid.field 8 _) (last (fileHeader _))))).cast (by marks)

theorem fileId (code : Nat) (o : Op.FileId) : Tight (Form.fileId code o) (heed 16) :=
  (after (Rigid.header _) (after (Rigid.opcode _ _) (last (Rigid.field 8 _).tight))).cast rfl

theorem actionQuery (code : Nat) (o : Op.ActionQuery) :
    Tight (Form.actionQuery code o) (heed 8 ++ Ignored.query o.query) :=
  (after (Rigid.header _) (after (Rigid.opcode _ _) (last (query _)))).cast (by marks)

theorem small (f : File) (h : (match f with
      | .accessProfile _ _ => true
      | .phyStatus p => decide (17 ≤ p.channelStatus.length)
      | _ => false) = false) (hf : ∀ d, f ≠ .other d) : (Ignored.content f).length / 8 < 64 := by
  have ha : ∀ a, (Ignored.address a).length / 8 < 64 := by
    intro a
    cases a with
    | nbId n => show (Ignored.varInt n).length / 8 < 64; rw [varInt_length]; omega
    | _ => simp [Ignored.address, heed]
  cases f with
  | accessProfile i p => simp at h
  | phyStatus p =>
    simp only [decide_eq_false_iff_not] at h
    simp only [Ignored.content, heed, List.length_replicate]
    omega
  | other d => exact absurd rfl (hf d)
  | uId a => exact ha a
  | vId a => exact ha a
  | _ => simp only [Ignored.content, Ignored.channel, Ignored.channelHeader, heed, skip, List.length_append, List.length_replicate]; omega

theorem action (cfg : Cfg) (a : Action) (ht : a.isTx = false) (ho : a.isOther = true → cfg.unitPatConsumes = false)
    (hl : Ignored.large a = false) : Tight (Form.action cfg a) (Ignored.action cfg.variant a) := by
  cases a with
  | nop o | extension o => exact (after (Rigid.header _) (last (Rigid.opcode _ _).tight)).cast rfl
  | chunk o | logic o => exact (after (Rigid.field 2 _) (last (Rigid.opcode _ _).tight)).cast rfl
  | readFileData o =>
    exact (after (Rigid.header _) (after (Rigid.opcode _ _) (cons (fileOffset _) (last (length _))))).cast (by
      unfold Ignored.action; marks)
  | readFileProperties | existFile | deleteFile | restoreFile | flushFile | executeFile => exact fileId _ _
  | writeFileData o | writeFileDataFlush o | returnFileData o => exact fileData _ _ o (small _ hl)
  | writeFileProperties | createNewFile | returnFileProperties => exact filePropertiesAction _ _
  | actionQuery | breakQuery | verifyChecksum => exact actionQuery _ _
  | permissionRequest o =>
    exact (after (Rigid.header _) (after (Rigid.opcode _ _) (after (Rigid.field 8 _)
      (last (Rigid.permission _).tight)))).cast rfl
  | copyFile o =>
    exact (after (Rigid.header _) (after (Rigid.opcode _ _) (after (Rigid.field 8 _)
      (last (Rigid.field 8 _).tight)))).cast rfl
  | status o =>
    refine (after (Rigid.field 2 _) (after (Rigid.opcode _ _) (last (status _ _ _ _ ?_)))).cast (by
      unfold Ignored.action; marks)
    intro i d hs hd
    exact ho (by simp [Action.isOther, Op.Status.isOther, hs, hd])
  | responseTag o =>
    exact (after (Rigid.cons (Rigid.flag _) (Rigid.cons (Rigid.flag _) Rigid.nil)) (after (Rigid.opcode _ _)
      (last (Rigid.field 8 _).tight))).cast rfl
  | txStatus o => simp [Action.isTx] at ht
  | forward o =>
    exact (cons (reserved 1) (after (Rigid.flag _) (after (Rigid.opcode _ _) (last (interfaceConfiguration _ _ _))))).cast
      (by unfold Ignored.action; marks)
  | indirectForward o =>
    have hi : Tight (Form.indirectConfiguration cfg.variant o.header.overloaded o.configuration)
        (match o.configuration with | some i => Ignored.indirectInterface cfg.variant i | none => []) := by
      cases o.header.overloaded <;> cases o.configuration <;>
        first
        | exact given_false _
        | exact nil
        | exact indirectInterface _ _
    refine (after (Rigid.cons (Rigid.flag _) (Rigid.cons (Rigid.flag _) Rigid.nil)) (after (Rigid.opcode _ _)
      (last hi))).cast ?_
    simp only [Ignored.action]
    cases o.configuration <;> marks
  | requestTag o =>
    exact (after (Rigid.flag _) (cons (reserved 1) (after (Rigid.opcode _ _) (last (Rigid.field 8 _).tight)))).cast rfl

theorem actions (cfg : Cfg) (as : List Action)
    (h : ∀ a ∈ as, a.isTx = false ∧ (a.isOther = true → cfg.unitPatConsumes = false) ∧ Ignored.large a = false) :
    Tight (Form.actions cfg as) (as.flatMap (Ignored.action cfg.variant)) := by
  unfold Form.actions
  induction as with
  | nil => exact nil
  | cons a as ih =>
    obtain ⟨h1, h2, h3⟩ := h a (by simp)
    exact cons (action cfg a h1 h2 h3) (ih fun b hb => h b (by simp [hb]))

end Tight

end Dash7
