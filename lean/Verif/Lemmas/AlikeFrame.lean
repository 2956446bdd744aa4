import Verif.Spec.AlikeFrame
import Verif.Spec.FrameAccept
import Verif.Lemmas.Alike3
import Verif.Lemmas.Items
import Verif.Props.Retag

/-!
# Changing any bits of the form of a frame
-/

namespace Dash7

open Alike (heed skip Same)

namespace Whole

theorem flagged {α : Type} (there : Bool) (F : α → Form) (m : α → List Mark) (h : ∀ a, Whole (F a) (m a)) (o : Option α) :
    Whole (Form.flagged there F o) (Alike.optional m o) := by
  cases there <;> cases o
  · exact nil
  · exact given_false _
  · exact given_false _
  · exact h _

theorem transHeader (h : Trans.Header) : Whole (Form.transHeader h) (Alike.transHeader h) := by
  have hc : Whole (Form.transControl h.control) (heed 7) := by
    apply Rigid.whole
    apply Rigid.cast
    case h => unfold Form.transControl; rigid
    rfl
  have ha : ∀ t, Whole (Form.ackTemplate t) (heed 16) := by
    intro t
    apply Rigid.whole
    apply Rigid.cast
    case h => unfold Form.ackTemplate; rigid
    rfl
  exact (cons hc (after (Rigid.field 8 _) (after (Rigid.field 8 _)
    (cons (flagged _ _ (fun _ => heed 8) (fun l => (Rigid.field 8 _).whole) _)
    (cons (flagged _ _ _ varInt _) (cons (flagged _ _ _ varInt _) (cons (flagged _ _ _ varInt _)
    (last (flagged _ _ (fun _ => heed 16) ha _))))))))).cast (by unfold Alike.transHeader; alike)

theorem netHeader (v : Variant) (h : Net.Header) : Whole (Form.netHeader v h) (Alike.netHeader v h) := by
  have hc : Whole (Form.netControl v h.control) (Alike.netControl v) :=
    (after (Rigid.flag _) (after (Rigid.flag _) (after (Rigid.field 2 _) (cons (reserved 1)
      (after (Rigid.field _ _) nil))))).cast (by unfold Alike.netControl; alike)
  have hh : ∀ t, Whole (Form.hopping t) Alike.hopping := fun t =>
    (cons (reserved 1) (after (Rigid.flag _) (after (Rigid.field 2 _) (last (reserved 4))))).cast
      (by unfold Alike.hopping; alike)
  exact (cons hc (cons (flagged _ _ (fun _ => Alike.hopping) hh _) (after (Rigid.accessClass _)
    (last (address _ _))))).cast (by unfold Alike.netHeader; alike)

theorem foregroundHeader (h : ForegroundHeader) :
    Whole (Form.foregroundHeader h) (Alike.foregroundHeader h) := by
  have hc : Whole (Form.all [Form.field 2 (Wire.addressType h.control.addressType),
      Form.field 6 h.control.eirpIndex.toNat]) (heed 8) :=
    (after (Rigid.field 2 _) (after (Rigid.field 6 _) nil)).cast (by alike)
  exact (cons (length _) (after (Rigid.field 8 _) (cons hc (last (address _ _))))).cast
    (by unfold Alike.foregroundHeader; alike)

end Whole

/-- As `Whole`, for bytes. -/
structure WholeBytes (P : List U8 → Prop) (m : List Mark) : Prop where
  min : ∀ x, P x → m.length ≤ 8 * x.length
  room : ∀ x, P x → ∀ i : Nat, m[i]? = some Mark.number → i + 8 ≤ m.length
  all : ∀ x y, P x → 8 * x.length = m.length → y.length = x.length → (P y ↔ Same m (Form.ofBytes x) (Form.ofBytes y))

namespace WholeBytes

theorem of {F : Form} {m : List Mark} (h : Whole F m) : WholeBytes (fun x => F (Form.ofBytes x)) m :=
  ⟨fun x hx => by rw [← Form.ofBytes_length]; exact h.min _ hx, fun x hx => h.room _ hx, fun x y hx hl hy =>
    h.all _ _ hx (by rw [Form.ofBytes_length, hl]) (by rw [Form.ofBytes_length, hy, hl])⟩

theorem congr {P Q : List U8 → Prop} {m : List Mark} (h : WholeBytes P m) (e : ∀ x, P x ↔ Q x) : WholeBytes Q m := by
  have : P = Q := funext fun x => propext (e x)
  exact this ▸ h

theorem cast {P : List U8 → Prop} {m n : List Mark} (h : WholeBytes P m) (e : m = n) : WholeBytes P n := e ▸ h

theorem given {P : List U8 → Prop} {m : List Mark} (p : Prop) (h : WholeBytes P m) : WholeBytes (fun x => p ∧ P x) m :=
  ⟨fun x hx => h.min x hx.2, fun x hx => h.room x hx.2, fun x y hx hl hy => by
    rw [← h.all x y hx.2 hl hy]; exact ⟨fun h => h.2, fun h => ⟨hx.1, h⟩⟩⟩

/-- One behind the other. The second may depend on the length of the first. -/
theorem seq {P : List U8 → Prop} {Q : Nat → List U8 → Prop} {m n : List Mark} (hp : WholeBytes P m)
    (hq : ∀ k, WholeBytes (Q k) n) : WholeBytes (fun z => ∃ u v, z = u ++ v ∧ P u ∧ Q u.length v) (m ++ n) := by
  refine ⟨?_, ?_, ?_⟩
  · rintro _ ⟨u, v, rfl, hu, hv⟩
    have := hp.min u hu
    have := (hq _).min v hv
    simp only [List.length_append]; omega
  · rintro _ ⟨u, v, rfl, hu, hv⟩ i hi
    rw [List.length_append]
    by_cases hl : i < m.length
    · rw [List.getElem?_append_left hl] at hi
      have := hp.room u hu i hi
      omega
    · rw [List.getElem?_append_right (by omega)] at hi
      have := (hq _).room v hv _ hi
      omega
  · rintro _ y ⟨u, v, rfl, hu, hv⟩ hl hy
    have h1 := hp.min u hu
    have h2 := (hq _).min v hv
    simp only [List.length_append] at hl hy
    have e1 : 8 * u.length = m.length := by omega
    have e2 : 8 * v.length = n.length := by omega
    constructor
    · rintro ⟨u', v', rfl, hu', hv'⟩
      have h1' := hp.min u' hu'
      have h2' := (hq _).min v' hv'
      rw [List.length_append] at hy
      have l1 : u'.length = u.length := by omega
      have l2 : v'.length = v.length := by omega
      rw [l1] at hv'
      rw [Form.ofBytes_append, Form.ofBytes_append, Alike.Same.append (by rw [Form.ofBytes_length, e1])
        (by rw [Form.ofBytes_length, l1, e1]) (hp.room u hu)]
      exact ⟨(hp.all u u' hu e1 l1).1 hu', ((hq _).all v v' hv e2 l2).1 hv'⟩
    · intro h
      have l1 : (y.take u.length).length = u.length := by rw [List.length_take]; omega
      have l2 : (y.drop u.length).length = v.length := by rw [List.length_drop]; omega
      rw [← List.take_append_drop u.length y, Form.ofBytes_append, Form.ofBytes_append,
        Alike.Same.append (by rw [Form.ofBytes_length, e1]) (by rw [Form.ofBytes_length, l1, e1]) (hp.room u hu)] at h
      refine ⟨_, _, (List.take_append_drop u.length y).symm, (hp.all u _ hu e1 l1).2 h.1, ?_⟩
      rw [l1]
      exact ((hq _).all v _ hv e2 l2).2 h.2

theorem actionsBelow (cfg : Cfg) (limit : Nat) (as : List Action)
    (h : ∀ a ∈ as, a.isTx = false ∧ (a.isOther = true → cfg.unitPatConsumes = false) ∧ Ignored.large a = false) :
    ∀ pos, WholeBytes (Spec.actionsBelow cfg limit pos as) (as.flatMap (Alike.action cfg.variant)) := by
  induction as with
  | nil =>
    intro pos
    refine ⟨fun x _ => Nat.zero_le _, fun _ _ i hi => by simp at hi, fun x y _ hl hy => ?_⟩
    have : y = [] := List.eq_nil_of_length_eq_zero (by rw [List.flatMap_nil, List.length_nil] at hl; omega)
    subst this
    exact ⟨fun _ i => ⟨fun hi => by simp at hi, fun hi => by simp at hi⟩, fun _ => rfl⟩
  | cons a as ih =>
    intro pos
    obtain ⟨h1, h2, h3⟩ := h a (by simp)
    have hs := seq (Q := fun k => Spec.actionsBelow cfg limit (pos + k) as) (of (Whole.action cfg a h1 h2 h3))
      fun k => ih (fun b hb => h b (by simp [hb])) (pos + k)
    refine (given (limit = 0 ∨ pos < limit) hs).congr fun x => ?_
    simp only [Spec.actionsBelow]

end WholeBytes

end Dash7
