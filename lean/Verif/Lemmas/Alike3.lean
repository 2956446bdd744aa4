import Verif.Lemmas.Alike2

/-!
# Changing any bits of an action
-/

namespace Dash7

open Alike (heed skip)

namespace Whole

theorem fileData (big : Bool) (code : Nat) (o : Op.FileData)
    (hl : (∀ d, o.data ≠ .other d) → (Alike.content o.data).length / 8 < 64) :
    Whole (Form.fileData big code o) (heed 8 ++ Alike.fileOffset o.offset ++ Alike.file o.data) :=
  (after (Rigid.header _) (after (Rigid.opcode _ _) (cons (fileOffset _) (last (fileSized _ _ _ hl))))).cast (by alike)

theorem filePropertiesAction (code : Nat) (o : Op.FileProperties) :
    Whole (Form.filePropertiesAction code o) (heed 16 ++ Alike.fileHeader) :=
  (after (Rigid.header _) (after (Rigid.opcode _ _) (after (Rigid.field 8 _) (last (fileHeader _))))).cast (by alike)

theorem fileId (code : Nat) (o : Op.FileId) : Whole (Form.fileId code o) (heed 16) :=
  (after (Rigid.header _) (after (Rigid.opcode _ _) (last (Rigid.field 8 _).whole))).cast rfl

theorem actionQuery (code : Nat) (o : Op.ActionQuery) :
    Whole (Form.actionQuery code o) (heed 8 ++ Alike.query o.query) :=
  (after (Rigid.header _) (after (Rigid.opcode _ _) (last (query _)))).cast (by alike)

theorem small (f : File) (h : (match f with
      | .accessProfile _ _ => true
      | .phyStatus p => decide (17 ≤ p.channelStatus.length)
      | _ => false) = false) (hf : ∀ d, f ≠ .other d) : (Alike.content f).length / 8 < 64 := by
  have ha : ∀ a, (Alike.address a).length / 8 < 64 := by
    intro a
    cases a with
    | nbId n => show (Alike.varInt n).length / 8 < 64; rw [varInt_length]; omega
    | _ => simp [Alike.address, heed]
  cases f with
  | accessProfile i p => simp at h
  | phyStatus p =>
    simp only [decide_eq_false_iff_not] at h
    simp only [Alike.content, heed, List.length_replicate]
    omega
  | other d => exact absurd rfl (hf d)
  | uId a => exact ha a
  | vId a => exact ha a
  | _ => simp only [Alike.content, Alike.channel, Alike.channelHeader, heed, skip, List.length_append, List.length_replicate]; omega

theorem action (cfg : Cfg) (a : Action) (ht : a.isTx = false) (ho : a.isOther = true → cfg.unitPatConsumes = false)
    (hl : Ignored.large a = false) : Whole (Form.action cfg a) (Alike.action cfg.variant a) := by
  cases a with
  | nop o | extension o => exact (after (Rigid.header _) (last (Rigid.opcode _ _).whole)).cast rfl
  | chunk o | logic o => exact (after (Rigid.field 2 _) (last (Rigid.opcode _ _).whole)).cast rfl
  | readFileData o =>
    exact (after (Rigid.header _) (after (Rigid.opcode _ _) (cons (fileOffset _) (last (length _))))).cast (by
      unfold Alike.action; alike)
  | readFileProperties | existFile | deleteFile | restoreFile | flushFile | executeFile => exact fileId _ _
  | writeFileData o | writeFileDataFlush o | returnFileData o => exact fileData _ _ o (small _ hl)
  | writeFileProperties | createNewFile | returnFileProperties => exact filePropertiesAction _ _
  | actionQuery | breakQuery | verifyChecksum => exact actionQuery _ _
  | permissionRequest o =>
    exact (after (Rigid.header _) (after (Rigid.opcode _ _) (after (Rigid.field 8 _)
      (last (Rigid.permission _).whole)))).cast rfl
  | copyFile o =>
    exact (after (Rigid.header _) (after (Rigid.opcode _ _) (after (Rigid.field 8 _)
      (last (Rigid.field 8 _).whole)))).cast rfl
  | status o =>
    refine (after (Rigid.field 2 _) (after (Rigid.opcode _ _) (last (status _ _ _ _ ?_)))).cast (by
      unfold Alike.action; alike)
    intro i d hs hd
    exact ho (by simp [Action.isOther, Op.Status.isOther, hs, hd])
  | responseTag o =>
    exact (after (Rigid.cons (Rigid.flag _) (Rigid.cons (Rigid.flag _) Rigid.nil)) (after (Rigid.opcode _ _)
      (last (Rigid.field 8 _).whole))).cast rfl
  | txStatus o => simp [Action.isTx] at ht
  | forward o =>
    exact (cons (reserved 1) (after (Rigid.flag _) (after (Rigid.opcode _ _) (last (interfaceConfiguration _ _ _))))).cast
      (by unfold Alike.action; alike)
  | indirectForward o =>
    have hi : Whole (Form.indirectConfiguration cfg.variant o.header.overloaded o.configuration)
        (match o.configuration with | some i => Alike.indirectInterface cfg.variant i | none => []) := by
      cases o.header.overloaded <;> cases o.configuration <;>
        first
        | exact given_false _
        | exact nil
        | exact indirectInterface _ _
    refine (after (Rigid.cons (Rigid.flag _) (Rigid.cons (Rigid.flag _) Rigid.nil)) (after (Rigid.opcode _ _)
      (last hi))).cast ?_
    simp only [Alike.action]
    cases o.configuration <;> alike
  | requestTag o =>
    exact (after (Rigid.flag _) (cons (reserved 1) (after (Rigid.opcode _ _) (last (Rigid.field 8 _).whole)))).cast rfl

theorem actions (cfg : Cfg) (as : List Action)
    (h : ∀ a ∈ as, a.isTx = false ∧ (a.isOther = true → cfg.unitPatConsumes = false) ∧ Ignored.large a = false) :
    Whole (Form.actions cfg as) (as.flatMap (Alike.action cfg.variant)) := by
  unfold Form.actions
  induction as with
  | nil => exact nil
  | cons a as ih =>
    obtain ⟨h1, h2, h3⟩ := h a (by simp)
    exact cons (action cfg a h1 h2 h3) (ih fun b hb => h b (by simp [hb]))

end Whole

/-! ## One mark for each bit -/

namespace Alike

theorem heed_length (n : Nat) : (heed n).length = n := by simp [heed]
theorem skip_length (n : Nat) : (skip n).length = n := by simp [skip]
theorem heed_length' (n : Nat) : (Ignored.heed n).length = n := by simp [Ignored.heed]
theorem skip_length' (n : Nat) : (Ignored.skip n).length = n := by simp [Ignored.skip]

theorem varInt_marks (v : VarInt) : (varInt v).length = (Ignored.varInt v).length := by
  rw [Whole.varInt_length, Tight.varInt_length]

theorem length_marks (n : Nat) : (length n).length = (Ignored.length n).length := by
  simp only [length, Ignored.length, heed_length, heed_length']

theorem sized_marks {m : List Mark} {m' : List Bool} (h : m.length = m'.length) :
    (sized m).length = (Ignored.sized m').length := by
  simp only [sized, Ignored.sized, size, Ignored.size, List.length_append, heed_length, heed_length', skip_length,
    skip_length', h]

theorem address_marks (a : Address) : (address a).length = (Ignored.address a).length := by
  cases a <;> simp only [address, Ignored.address, heed_length, heed_length', varInt_marks, List.length_nil]

theorem nlsState_marks (a : NlsState) : (nlsState a).length = (Ignored.nlsState a).length := by
  cases a <;> simp only [nlsState, Ignored.nlsState, heed_length, heed_length', List.length_nil]

theorem addressee_marks (v : Variant) (a : Addressee) : (addressee v a).length = (Ignored.addressee v a).length := by
  unfold addressee Ignored.addressee
  split <;> simp only [List.length_append, heed_length, heed_length', skip_length, skip_length', address_marks, nlsState_marks]

theorem fileOffset_marks (f : FileOffset) : (fileOffset f).length = (Ignored.fileOffset f).length := by
  simp only [fileOffset, Ignored.fileOffset, List.length_append, heed_length, heed_length', length_marks]

theorem subProfiles_marks (l : List SubProfile) : (l.flatMap subProfile).length = (l.flatMap Ignored.subProfile).length := by
  induction l with
  | nil => rfl
  | cons s l ih =>
    simp only [List.flatMap_cons, List.length_append, ih, subProfile, Ignored.subProfile, heed_length, heed_length',
      varInt_marks]

theorem content_marks (f : File) : (content f).length = (Ignored.content f).length := by
  cases f <;> simp only [content, Ignored.content, accessProfile, Ignored.accessProfile, channel, Ignored.channel,
    channelHeader, Ignored.channelHeader, List.length_append, heed_length, heed_length', skip_length, skip_length',
    address_marks, subProfiles_marks]

theorem file_marks (f : File) : (file f).length = (Ignored.file f).length := by
  have h := content_marks f
  cases f <;> simp only [file, Ignored.file, List.length_append, length_marks, heed_length, heed_length'] <;>
    exact sized_marks h

theorem status_marks (v : Variant) (s : Op.Status) : (status v s).length = (Ignored.status v s).length := by
  cases s with
  | action s => simp only [status, Ignored.status, heed_length, heed_length']
  | interface o =>
    simp only [status, Ignored.status]
    have h : ∀ s, (dash7InterfaceStatus v s).length = (Ignored.dash7InterfaceStatus v s).length := by
      intro s
      simp only [dash7InterfaceStatus, Ignored.dash7InterfaceStatus, channel, Ignored.channel,
        channelHeader, Ignored.channelHeader, List.length_append, heed_length, heed_length', skip_length, skip_length',
        addressee_marks, varInt_marks]
    cases o.status <;> simp only [interfaceStatus, Ignored.interfaceStatus, List.length_append, heed_length, heed_length',
      length_marks, sized_marks (m := []) (m' := []) rfl, sized_marks (h _)]
  | interfaceFinal o =>
    simp only [status, Ignored.status]
    cases o.status <;> simp only [interfaceFinalStatus, Ignored.interfaceFinalStatus, List.length_append, heed_length,
      heed_length', length_marks, sized_marks (m := heed 8) (m' := Ignored.heed 8) rfl]

theorem interfaceConfiguration_marks (v : Variant) (c : InterfaceConfiguration) :
    (interfaceConfiguration v c).length = (Ignored.interfaceConfiguration v c).length := by
  cases c with
  | dash7 c =>
    by_cases h : v = .subiot <;> simp only [interfaceConfiguration, Ignored.interfaceConfiguration, h, if_true, if_false] <;>
      simp only [List.length_append, heed_length, heed_length', varInt_marks, addressee_marks, List.length_nil]
  | _ => simp only [interfaceConfiguration, Ignored.interfaceConfiguration, loRaWAN, Ignored.loRaWAN, List.length_append,
      heed_length, heed_length', skip_length, skip_length']

theorem query_marks (q : Query) : (query q).length = (Ignored.query q).length := by
  cases q <;> simp only [query, Ignored.query, List.length_append, heed_length, heed_length', skip_length, skip_length',
    length_marks, fileOffset_marks]

/-- As many marks as in `Spec/Ignored.lean`. -/
theorem action_marks (v : Variant) (a : Action) : (action v a).length = (Ignored.action v a).length := by
  cases a with
  | indirectForward o =>
    simp only [action, Ignored.action]
    cases o.configuration with
    | none => simp only [heed_length, heed_length']
    | some i => cases i <;> simp only [indirectInterface, Ignored.indirectInterface, List.length_append, heed_length,
        heed_length', addressee_marks]
  | txStatus o => rfl
  | _ => simp only [action, Ignored.action, List.length_append, heed_length, heed_length', skip_length, skip_length',
      length_marks, fileOffset_marks, file_marks, query_marks, status_marks, interfaceConfiguration_marks, fileHeader,
      Ignored.fileHeader]

theorem command_marks (v : Variant) (as : List Action) :
    (as.flatMap (action v)).length = (as.flatMap (Ignored.action v)).length := by
  induction as with
  | nil => rfl
  | cons a as ih => simp only [List.flatMap_cons, List.length_append, action_marks, ih]

end Alike

end Dash7
