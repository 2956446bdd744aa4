import Verif.Props.Portability
import Verif.Props.Accept
import Verif.Props.Retag
import Verif.Props.FrameAccept

/-!
# C93: what another build makes of a message
-/

namespace Dash7

/-! ## Specification -/

/-- The addressee without its group condition, a field of the wizzilab build. -/
def Spec.anyGroup (a : Addressee) : Addressee := { a with groupCondition := .any }

/-- The addressee an action carries. -/
def Spec.addresseeOf : Action → Option Addressee
  | .status ⟨_, _, .interface ⟨_, .dash7 s⟩⟩ => some s.addressee
  | .forward ⟨_, _, .dash7 c⟩ => some c.addressee
  | .indirectForward ⟨_, _, some (.dash7 a)⟩ => some a
  | .txStatus ⟨_, _, .dash7 s⟩ => some s.addressee
  | _ => none

/-- The action without the group condition of its addressee. -/
def Spec.ungrouped : Action → Action
  | .status ⟨t, oc, .interface ⟨i, .dash7 s⟩⟩ =>
    .status ⟨t, oc, .interface ⟨i, .dash7 { s with addressee := Spec.anyGroup s.addressee }⟩⟩
  | .forward ⟨r, oc, .dash7 c⟩ => .forward ⟨r, oc, .dash7 { c with addressee := Spec.anyGroup c.addressee }⟩
  | .indirectForward ⟨h, oc, some (.dash7 a)⟩ => .indirectForward ⟨h, oc, some (.dash7 (Spec.anyGroup a))⟩
  | a => a

/-- Actions the other builds have a reading for: no TX status, no final status, no addressee with a VID in
place of the UID. -/
def Spec.readElsewhere : Action → Bool
  | .txStatus _ => false
  | .status ⟨_, _, .interfaceFinal _⟩ => false
  | a => (Spec.addresseeOf a).all fun d => !d.useVid

/-- Forwards to a DASH7 interface. -/
def Spec.dash7Forward : Action → Bool
  | .forward ⟨_, _, .dash7 _⟩ => true
  | _ => false

/-! ## Lemmas -/

theorem Form.all_last {pre : List Form} {f : Form} {w : List Bool} :
    Form.all (pre ++ [f]) w ↔ ∃ p q, w = p ++ q ∧ Form.all pre p ∧ f q := by
  induction pre generalizing w with
  | nil =>
    constructor
    · rintro ⟨a, _, rfl, h, rfl⟩
      exact ⟨[], a, by simp, rfl, h⟩
    · rintro ⟨_, q, rfl, rfl, h⟩
      exact ⟨q, [], by simp, h, rfl⟩
  | cons g gs ih =>
    constructor
    · rintro ⟨a, b, rfl, ha, hb⟩
      obtain ⟨p, q, rfl, hp, hq⟩ := ih.1 hb
      exact ⟨a ++ p, q, by simp, ⟨a, p, rfl, ha, hp⟩, hq⟩
    · rintro ⟨_, q, rfl, ⟨a, p, rfl, ha, hp⟩, hq⟩
      exact ⟨a, p ++ q, by simp, ha, ih.2 ⟨p, q, rfl, hp, hq⟩⟩

theorem Form.all_exists {α : Type} (pre : List Form) {f : Form} {P : α → Prop} {g : α → Form}
    (h : ∀ q, f q ↔ ∃ b, g b q ∧ P b) (w : List Bool) :
    Form.all (pre ++ [f]) w ↔ ∃ b, Form.all (pre ++ [g b]) w ∧ P b := by
  constructor
  · intro hw
    obtain ⟨p, q, rfl, hp, hq⟩ := all_last.1 hw
    obtain ⟨b, hb, hP⟩ := (h q).1 hq
    exact ⟨b, all_last.2 ⟨p, q, rfl, hp, hb⟩, hP⟩
  · rintro ⟨b, hw, hP⟩
    obtain ⟨p, q, rfl, hp, hq⟩ := all_last.1 hw
    exact all_last.2 ⟨p, q, rfl, hp, (h q).2 ⟨b, hq, hP⟩⟩

theorem Form.groupCondition_of {c : List Bool} (h : c.length = 2) :
    ∃ g, Form.field 2 (Wire.groupCondition g) c := by
  match c, h with
  | [false, false], _ => exact ⟨.any, rfl, rfl⟩
  | [false, true], _ => exact ⟨.notEqual, rfl, rfl⟩
  | [true, false], _ => exact ⟨.equal, rfl, rfl⟩
  | [true, true], _ => exact ⟨.greaterThan, rfl, rfl⟩

theorem Form.nlsMethod_split (m : NlsMethod) (c : List Bool) :
    Form.field 4 (Wire.nlsMethod m) c ↔ ∃ d, c = false :: d ∧ Form.field 3 (Wire.nlsMethod m) d := by
  have hm : Wire.nlsMethod m < 8 := by cases m <;> decide
  constructor
  · rintro ⟨hl, hv⟩
    obtain ⟨b, d, rfl⟩ : ∃ b d, c = b :: d := by
      cases c with
      | nil => cases hl
      | cons b d => exact ⟨b, d, rfl⟩
    have hd : d.length = 3 := by simpa using hl
    cases b with
    | false => exact ⟨d, rfl, hd, by simpa [Form.value] using hv⟩
    | true =>
      exfalso
      simp only [Form.value, hd, Bool.toNat_true] at hv
      omega
  · rintro ⟨d, rfl, hd, hv⟩
    exact ⟨by simp [hd], by simpa [Form.value] using hv⟩

theorem Form.addressee_elsewhere {v : Variant} (hv : v ≠ .wizzilab) (a : Addressee) (w : List Bool) :
    Form.addressee v a w ↔
      ∃ b, Form.addressee .wizzilab b w ∧ b.useVid = false ∧ a = Spec.anyGroup b := by
  simp only [Form.addressee, if_neg hv, if_true]
  constructor
  · rintro ⟨_, q, rfl, ⟨r, _, rfl, hr, t, _, rfl, ht, n, _, rfl, hn, _, _, rfl, ⟨rfl, hg, hu⟩, rfl⟩, hq⟩
    obtain ⟨g, hg'⟩ := groupCondition_of hr
    obtain ⟨d, rfl, hd⟩ := (nlsMethod_split _ _).1 hn
    refine ⟨{ a with groupCondition := g }, ⟨_, q, rfl, ⟨r, _, rfl, hg', t, _, rfl, ht, [false], d, by simp, ?_,
      d, [], by simp, hd, rfl⟩, hq⟩, hu, ?_⟩
    · exact congrArg (fun x => [x]) hu.symm
    · unfold Spec.anyGroup
      rw [← hg]
  · rintro ⟨b, ⟨_, q, rfl, ⟨r, _, rfl, hr, t, _, rfl, ht, f, _, rfl, hf, n, _, rfl, hn, rfl⟩, hq⟩, hu, rfl⟩
    refine ⟨_, q, rfl, ⟨r, _, rfl, hr.1, t, _, rfl, ht, f ++ n, [], by simp,
      (nlsMethod_split _ _).2 ⟨n, ?_, hn⟩, [], [], rfl, ⟨rfl, rfl, hu⟩, rfl⟩, hq⟩
    cases (show f = [b.useVid] from hf)
    rw [hu]
    rfl

theorem Form.status_elsewhere {v : Variant} (hv : v ≠ .wizzilab) (s : Dash7InterfaceStatus) (w : List Bool) :
    Form.dash7InterfaceStatus v s w ↔ ∃ b, Form.dash7InterfaceStatus .wizzilab { s with addressee := b } w ∧
      b.useVid = false ∧ s.addressee = Spec.anyGroup b :=
  Form.all_exists [channel s.channel, field 8 s.rxLevel.toNat, field 8 s.linkBudget.toNat,
    field 8 s.targetRxLevel.toNat, flag s.nls, flag s.missed, flag s.retry, flag s.unicast,
    reserved 4, field 8 s.fifoToken.toNat, field 8 s.sequenceNumber.toNat, varInt s.responseTimeout]
    (Form.addressee_elsewhere hv s.addressee) w

theorem Form.configuration_elsewhere (c : Dash7InterfaceConfiguration) (w : List Bool) :
    Form.dash7InterfaceConfiguration .spec c w ↔
      ∃ b, Form.dash7InterfaceConfiguration .wizzilab { c with addressee := b } w ∧
        b.useVid = false ∧ c.addressee = Spec.anyGroup b :=
  Form.all_exists [qos c.qos, varInt c.dormantSessionTimeout, varInt c.executionDelayTimeout]
    (Form.addressee_elsewhere (by decide) c.addressee) w

theorem Form.not_last {pre : List Form} {w : List Bool} (h : Form.all (pre ++ [Form.given False]) w) : False := by
  obtain ⟨_, _, -, -, -, h⟩ := Form.all_last.1 h
  exact h

/-- What the other builds take an action for, told from what the wizzilab build takes it for. -/
theorem Form.action_elsewhere (cfg : Cfg) {v : Variant} (hv : v ≠ .wizzilab) (a : Action)
    (hf : v = .subiot → Spec.dash7Forward a = false) (w : List Bool) :
    Form.action { cfg with variant := v } a w ↔
      ∃ b, Form.action { cfg with variant := .wizzilab } b w ∧ Spec.readElsewhere b = true ∧
        a = Spec.ungrouped b := by
  constructor
  · intro h
    have keep : Form.action { cfg with variant := .wizzilab } a w → Spec.readElsewhere a = true →
        Spec.ungrouped a = a → ∃ b, Form.action { cfg with variant := .wizzilab } b w ∧
          Spec.readElsewhere b = true ∧ a = Spec.ungrouped b := fun h1 h2 h3 => ⟨a, h1, h2, h3.symm⟩
    cases a with
    | status o =>
      obtain ⟨t, oc, s⟩ := o
      cases s with
      | action s => cases t <;> exact keep h rfl rfl
      | interfaceFinal s =>
        cases t with
        | interfaceFinal =>
          simp only [Form.action, Form.status, if_neg hv] at h
          exact (Form.not_last (pre := [_, _]) h).elim
        | _ => exact (Form.not_last (pre := [_, _]) h).elim
      | interface o =>
        cases t with
        | interface =>
          obtain ⟨i, s⟩ := o
          cases s with
          | dash7 s =>
            cases i with
            | dash7 =>
              obtain ⟨b, h, hu, hb⟩ := (Form.all_exists [field 2 1, opcode oc 34]
                (Form.all_exists [field 8 0xD7, anyLength] (Form.status_elsewhere hv s)) w).1 h
              refine ⟨.status ⟨.interface, oc, .interface ⟨.dash7, .dash7 { s with addressee := b }⟩⟩, h,
                by simp [Spec.readElsewhere, Spec.addresseeOf, hu], ?_⟩
              simp only [Spec.ungrouped, ← hb]
            | _ => exact (Form.not_last (pre := [_, _]) h).elim
          | _ => cases i <;> exact keep h rfl rfl
        | _ => exact (Form.not_last (pre := [_, _]) h).elim
    | txStatus o =>
      simp only [Form.action, if_neg hv] at h
      exact (Form.not_last (pre := [_, _, _]) h).elim
    | forward o =>
      obtain ⟨r, oc, c⟩ := o
      cases c with
      | dash7 c =>
        cases v with
        | wizzilab => exact absurd rfl hv
        | subiot => cases hf rfl
        | spec =>
          obtain ⟨b, h, hu, hb⟩ := (Form.all_exists [reserved 1, flag r, opcode oc 50]
            (Form.all_exists [field 8 0xD7] (Form.configuration_elsewhere c)) w).1 h
          refine ⟨.forward ⟨r, oc, .dash7 { c with addressee := b }⟩, h,
            by simp [Spec.readElsewhere, Spec.addresseeOf, hu], ?_⟩
          simp only [Spec.ungrouped, ← hb]
      | _ => exact keep h rfl rfl
    | indirectForward o =>
      obtain ⟨⟨ov, r⟩, oc, c⟩ := o
      cases c with
      | none => cases ov <;> exact keep h rfl rfl
      | some c =>
        cases c with
        | dash7 a =>
          cases ov with
          | true =>
            obtain ⟨b, h, hu, hb⟩ := (Form.all_exists [all [flag true, flag r], opcode oc 51]
              (Form.all_exists [field 8 0xD7] (Form.addressee_elsewhere hv a)) w).1 h
            refine ⟨.indirectForward ⟨⟨true, r⟩, oc, some (.dash7 b)⟩, h,
              by simp [Spec.readElsewhere, Spec.addresseeOf, hu], ?_⟩
            simp only [Spec.ungrouped, ← hb]
          | false => exact (Form.not_last (pre := [_, _]) h).elim
        | _ => cases ov <;> exact keep h rfl rfl
    | _ => exact keep h rfl rfl
  · rintro ⟨b, h, hk, rfl⟩
    cases b with
    | status o =>
      obtain ⟨t, oc, s⟩ := o
      cases s with
      | action s => cases t <;> exact h
      | interfaceFinal s => cases hk
      | interface o =>
        cases t with
        | interface =>
          obtain ⟨i, s⟩ := o
          cases s with
          | dash7 s =>
            cases i with
            | dash7 =>
              have hu : s.addressee.useVid = false := by simpa [Spec.readElsewhere, Spec.addresseeOf] using hk
              exact (Form.all_exists [field 2 1, opcode oc 34]
                (Form.all_exists [field 8 0xD7, anyLength]
                  (Form.status_elsewhere hv { s with addressee := Spec.anyGroup s.addressee })) w).2
                ⟨s.addressee, h, hu, rfl⟩
            | _ => exact (Form.not_last (pre := [_, _]) h).elim
          | _ => cases i <;> exact h
        | _ => exact (Form.not_last (pre := [_, _]) h).elim
    | txStatus o => cases hk
    | forward o =>
      obtain ⟨r, oc, c⟩ := o
      cases c with
      | dash7 c =>
        cases v with
        | wizzilab => exact absurd rfl hv
        | subiot => cases hf rfl
        | spec =>
          have hu : c.addressee.useVid = false := by simpa [Spec.readElsewhere, Spec.addresseeOf] using hk
          exact (Form.all_exists [reserved 1, flag r, opcode oc 50]
            (Form.all_exists [field 8 0xD7]
              (Form.configuration_elsewhere { c with addressee := Spec.anyGroup c.addressee })) w).2
            ⟨c.addressee, h, hu, rfl⟩
      | _ => exact h
    | indirectForward o =>
      obtain ⟨⟨ov, r⟩, oc, c⟩ := o
      cases c with
      | none => cases ov <;> exact h
      | some c =>
        cases c with
        | dash7 a =>
          cases ov with
          | true =>
            have hu : a.useVid = false := by simpa [Spec.readElsewhere, Spec.addresseeOf] using hk
            exact (Form.all_exists [all [flag true, flag r], opcode oc 51]
              (Form.all_exists [field 8 0xD7] (Form.addressee_elsewhere hv (Spec.anyGroup a))) w).2 ⟨a, h, hu, rfl⟩
          | false => exact (Form.not_last (pre := [_, _]) h).elim
        | _ => cases ov <;> exact h
    | _ => exact h

theorem Spec.ungrouped_isTx (a : Action) : (Spec.ungrouped a).isTx = a.isTx := by
  unfold Spec.ungrouped
  split <;> rfl

theorem Spec.ungrouped_isIndirectForward (a : Action) :
    (Spec.ungrouped a).isIndirectForward = a.isIndirectForward := by
  unfold Spec.ungrouped
  split <;> rfl

theorem Spec.readElsewhere_isTx {a : Action} (h : Spec.readElsewhere a = true) : a.isTx = false := by
  cases a <;> first | rfl | cases h

theorem Spec.forwardLast_ungrouped (as : List Action) :
    Spec.forwardLast (as.map Spec.ungrouped) ↔ Spec.forwardLast as := by
  unfold Spec.forwardLast
  rw [← List.map_dropLast]
  simp only [List.mem_map, forall_exists_index, and_imp, forall_apply_eq_imp_iff₂, Spec.ungrouped_isIndirectForward]

theorem Spec.endsWithForward_ungrouped (as : List Action) :
    Spec.endsWithForward (as.map Spec.ungrouped) ↔ Spec.endsWithForward as := by
  unfold Spec.endsWithForward
  rw [List.getLast?_map]
  cases as.getLast? with
  | none => simp
  | some a => simp [Spec.ungrouped_isIndirectForward]

theorem Form.actions_elsewhere (cfg : Cfg) {v : Variant} (hv : v ≠ .wizzilab) (as : List Action)
    (hf : v = .subiot → ∀ a ∈ as, Spec.dash7Forward a = false) (w : List Bool) :
    Form.actions { cfg with variant := v } as w ↔
      ∃ bs, Form.actions { cfg with variant := .wizzilab } bs w ∧ (∀ b ∈ bs, Spec.readElsewhere b = true) ∧
        as = bs.map Spec.ungrouped := by
  induction as generalizing w with
  | nil =>
    constructor
    · rintro h
      exact ⟨[], h, by simp, rfl⟩
    · rintro ⟨bs, h, -, e⟩
      cases bs with
      | nil => exact h
      | cons b bs => cases e
  | cons a as ih =>
    have ih := ih fun h b hb => hf h b (by simp [hb])
    have ha := Form.action_elsewhere cfg hv a fun h => hf h a (by simp)
    constructor
    · rintro ⟨x, y, rfl, hx, hy⟩
      obtain ⟨b, hb, hk, rfl⟩ := (ha x).1 hx
      obtain ⟨bs, hbs, hks, rfl⟩ := (ih y).1 hy
      exact ⟨b :: bs, ⟨x, y, rfl, hb, hbs⟩, by simpa using ⟨hk, hks⟩, rfl⟩
    · rintro ⟨bs, h, hk, e⟩
      cases bs with
      | nil => cases e
      | cons b bs =>
        injection e with e1 e2
        obtain ⟨x, y, rfl, hx, hy⟩ := h
        exact ⟨x, y, rfl, (ha x).2 ⟨b, hx, hk b (by simp), e1⟩,
          (ih y).2 ⟨bs, hy, fun c hc => hk c (by simp [hc]), e2⟩⟩

theorem Form.forward_parts {cfg : Cfg} {o : Op.Forward} {w : List Bool} (h : Form.action cfg (.forward o) w) :
    ∃ p q, w = p ++ q ∧ p.length = 8 ∧
      Form.interfaceConfiguration cfg.variant cfg.bigEndianHost o.configuration q := by
  obtain ⟨x, _, rfl, hx, y, _, rfl, hy, z, _, rfl, hz, q, _, rfl, hq, rfl⟩ := h
  refine ⟨x ++ y ++ z, q, by simp, ?_, hq⟩
  cases (show y = [o.response] from hy)
  simp [show x.length = 1 from hx, hz.2.1]

theorem Form.interface_id {v : Variant} {big : Bool} {c : InterfaceConfiguration} {w : List Bool}
    (h : Form.interfaceConfiguration v big c w) :
    ∃ p q, w = p ++ q ∧ p.length = 8 ∧ ((∃ d, c = .dash7 d) ↔ Form.value p = 0xD7) := by
  cases c with
  | unknown i =>
    obtain ⟨p, q, rfl, hp, _, _, rfl, ⟨rfl, hk⟩, rfl⟩ := h
    refine ⟨p, [], rfl, hp.1, by simp, fun he => ?_⟩
    rw [hp.2] at he
    exact absurd (.inr (.inr (.inr (.inr he)))) hk
  | _ =>
    obtain ⟨p, q, rfl, hp, -⟩ := h
    exact ⟨p, q, rfl, hp.1, by simp [hp.2]⟩

/-- Whether a message starts with a forward to a DASH7 interface does not depend on the build. -/
theorem Form.same_forward {cfg cfg' : Cfg} {a b : Action} {w w' r r' : List Bool} (h : Form.action cfg a w)
    (h' : Form.action cfg' b w') (e : w ++ r = w' ++ r') (ha : Spec.dash7Forward a = true) :
    Spec.dash7Forward b = true := by
  obtain ⟨o, rfl⟩ : ∃ o, a = .forward o := by
    cases a <;> first | exact ⟨_, rfl⟩ | cases ha
  obtain ⟨_, -, -, h1, -⟩ := Action.decode_ok ((Action.decode_iff cfg _ w r).2 h)
  obtain ⟨_, -, -, h2, -⟩ := Action.decode_ok ((Action.decode_iff cfg' _ w' r').2 h')
  rw [e] at h1
  have hc := h2.trans h1.symm
  obtain ⟨o', rfl⟩ : ∃ o, b = .forward o := by
    cases b <;> first | exact ⟨_, rfl⟩ | cases hc
  obtain ⟨p, q, rfl, hp, hq⟩ := Form.forward_parts h
  obtain ⟨p', q', rfl, hp', hq'⟩ := Form.forward_parts h'
  obtain ⟨x, y, rfl, hx, hxv⟩ := Form.interface_id hq
  obtain ⟨x', y', rfl, hx', hxv'⟩ := Form.interface_id hq'
  simp only [List.append_assoc] at e
  obtain ⟨-, e⟩ := List.append_inj e (hp.trans hp'.symm)
  obtain ⟨e, -⟩ := List.append_inj e (hx.trans hx'.symm)
  obtain ⟨r, oc, c⟩ := o
  obtain ⟨r', oc', c'⟩ := o'
  have : ∃ d, c = .dash7 d := by
    cases c <;> first | exact ⟨_, rfl⟩ | cases ha
  obtain ⟨d, rfl⟩ := hxv'.2 (e ▸ hxv.1 this)
  rfl

theorem Form.action_inj {cfg : Cfg} {a b : Action} {w w' r r' : List Bool} (h : Form.action cfg a w)
    (h' : Form.action cfg b w') (e : w ++ r = w' ++ r') : a = b ∧ r = r' := by
  have h1 := (Action.decode_iff cfg a w r).2 h
  have h2 := (Action.decode_iff cfg b w' r').2 h'
  rw [e, h2] at h1
  injection h1 with h1
  injection h1 with h1 h3
  exact ⟨h1.symm, h3.symm⟩

/-- If the other builds read a command where the wizzilab build reads no forward to DASH7, they share all of its
actions. -/
theorem Form.actions_refused (cfg : Cfg) {v : Variant} (hv : v ≠ .wizzilab) : ∀ (as bs : List Action)
    (w w' r r' : List Bool), Form.actions { cfg with variant := .wizzilab } as w →
    Form.actions { cfg with variant := v } bs w' → w ++ r = w' ++ r' →
    (∀ a ∈ as, v = .subiot → Spec.dash7Forward a = false) → Spec.forwardLast as →
    (r' = [] ∨ Spec.endsWithForward bs) → ∀ a ∈ as, Spec.readElsewhere a = true
  | [], _, _, _, _, _, _, _, _, _, _, _ => by simp
  | a :: as, [], _, _, r, r', ⟨x, y, e1, hx, _⟩, h', e, _, _, hj => by
    cases (show _ = [] from h')
    rcases hj with rfl | ⟨_, hj, -⟩
    · subst e1
      have : x = [] := by
        cases x with
        | nil => rfl
        | cons b x => cases e
      subst this
      cases (Action.decode_iff _ a [] []).2 hx
    · cases hj
  | a :: as, b :: bs, _, _, r, r', ⟨x, y, e1, hx, hy⟩, ⟨x', y', e2, hx', hy'⟩, e, hf, hl, hj => by
    subst e1 e2
    rw [List.append_assoc, List.append_assoc] at e
    have hb : v = .subiot → Spec.dash7Forward b = false := by
      intro hs
      cases hd : Spec.dash7Forward b with
      | false => rfl
      | true => exact (Form.same_forward hx' hx e.symm hd).symm.trans (hf a (by simp) hs)
    obtain ⟨b', hb', hk, hbe⟩ := (Form.action_elsewhere cfg hv b hb x').1 hx'
    obtain ⟨rfl, e'⟩ := Form.action_inj hx hb' e
    have ih : ∀ c ∈ as, Spec.readElsewhere c = true := by
      cases as with
      | nil => simp
      | cons a' as =>
        refine Form.actions_refused cfg hv (a' :: as) bs y y' r r' hy hy' e' (fun c hc => hf c (by simp [hc]))
          (fun c hc => hl c (by simp [hc])) (hj.imp_right ?_)
        rintro ⟨c, hc, hi⟩
        cases bs with
        | nil =>
          simp only [List.getLast?_singleton, Option.some.injEq] at hc
          subst hc
          rw [hbe, Spec.ungrouped_isIndirectForward, hl a (by simp)] at hi
          cases hi
        | cons d bs => exact ⟨c, by simpa using hc, hi⟩
    intro c hc
    rcases List.mem_cons.1 hc with rfl | hc
    · exact hk
    · exact ih c hc

theorem Spec.common_of {v v' : Variant} {a : Action} (hk : Spec.readElsewhere a = true)
    (hg : ∀ d, Spec.addresseeOf a = some d → d.groupCondition = .any)
    (hf : Spec.dash7Forward a = true → (v = .subiot ↔ v' = .subiot)) : Spec.common v v' a = true := by
  have key : ∀ d, Spec.addresseeOf a = some d → Spec.readElsewhere a = !d.useVid →
      Spec.plainAddressee d = true := by
    intro d hd hu
    unfold Spec.plainAddressee
    rw [hg d hd, ← hu, hk]
    rfl
  cases a with
  | status o =>
    obtain ⟨t, oc, s⟩ := o
    cases s with
    | action s => rfl
    | interfaceFinal s => cases hk
    | interface o =>
      obtain ⟨i, s⟩ := o
      cases s with
      | dash7 s => exact key s.addressee rfl rfl
      | _ => rfl
  | txStatus o => cases hk
  | forward o =>
    obtain ⟨r, oc, c⟩ := o
    cases c with
    | dash7 c =>
      have hs := hf rfl
      have h1 := key c.addressee rfl rfl
      simp only [Spec.common, h1, Bool.true_and]
      by_cases hv : v = .subiot
      · simp [hv, hs.1 hv]
      · have hv' : v' ≠ .subiot := fun h => hv (hs.2 h)
        simp [hv, hv']
    | _ => rfl
  | indirectForward o =>
    obtain ⟨h, oc, c⟩ := o
    cases c with
    | none => rfl
    | some c =>
      cases c with
      | dash7 a => exact key a rfl rfl
      | _ => rfl
  | _ => rfl

theorem Action.WF_plain {cfg : Cfg} (hv : cfg.variant ≠ .wizzilab) {a : Action} (hw : a.WF cfg) :
    Spec.readElsewhere a = true ∧ ∀ d, Spec.addresseeOf a = some d → d.groupCondition = .any := by
  have hw := hw.2
  cases a with
  | status o =>
    obtain ⟨t, oc, s⟩ := o
    cases s with
    | action s => exact ⟨rfl, fun d h => by cases h⟩
    | interfaceFinal s => exact absurd hw.2.1 hv
    | interface o =>
      obtain ⟨i, s⟩ := o
      cases s with
      | dash7 s =>
        obtain ⟨h1, h2⟩ := hw.2.2.2.2.2.2.2 hv
        exact ⟨by simp [Spec.readElsewhere, Spec.addresseeOf, h2], fun d h => by cases h; exact h1⟩
      | _ => exact ⟨rfl, fun d h => by cases h⟩
  | txStatus o => exact hw.elim
  | forward o =>
    obtain ⟨r, oc, c⟩ := o
    cases c with
    | dash7 c =>
      obtain ⟨-, -, ⟨-, -, -, -, h⟩, -⟩ := hw
      obtain ⟨h1, h2⟩ := h hv
      exact ⟨by simp [Spec.readElsewhere, Spec.addresseeOf, h2], fun d h => by cases h; exact h1⟩
    | _ => exact ⟨rfl, fun d h => by cases h⟩
  | indirectForward o =>
    obtain ⟨h, oc, c⟩ := o
    cases c with
    | none => exact ⟨rfl, fun d h => by cases h⟩
    | some c =>
      cases c with
      | dash7 a =>
        obtain ⟨-, -, -, -, h⟩ := hw.2 _ rfl
        obtain ⟨h1, h2⟩ := h hv
        exact ⟨by simp [Spec.readElsewhere, Spec.addresseeOf, h2], fun d h => by cases h; exact h1⟩
      | _ => exact ⟨rfl, fun d h => by cases h⟩
  | _ => exact ⟨rfl, fun d h => by cases h⟩

/-! ## C93 -/

/-- **C93** Whatever the input: the spec build, or the sub-iot build unless it is a forward to a DASH7
interface, reads an action exactly if the wizzilab build reads one without a VID and of a kind it shares;
then it is the same action without its group condition. -/
theorem C93_action (cfg : Cfg) (v : Variant) (hv : v ≠ .wizzilab) (data : List U8) (a : Action)
    (hf : v = .subiot → Spec.dash7Forward a = false) :
    Action.tryFrom { cfg with variant := v } data = .ok a ↔
      ∃ b, Action.tryFrom { cfg with variant := .wizzilab } data = .ok b ∧ Spec.readElsewhere b = true ∧
        a = Spec.ungrouped b := by
  constructor
  · intro h
    obtain ⟨wire, junk, hd, hw, hj⟩ := (C54_try_from _ _ _).1 h
    obtain ⟨b, hb, hk, rfl⟩ := (Form.action_elsewhere cfg hv a hf wire).1 hw
    rw [Spec.ungrouped_isTx] at hj
    exact ⟨b, (C54_try_from _ _ _).2 ⟨wire, junk, hd, hb, hj⟩, hk, rfl⟩
  · rintro ⟨b, hb, hk, rfl⟩
    obtain ⟨wire, junk, hd, hw, hj⟩ := (C54_try_from _ _ _).1 hb
    refine (C54_try_from _ _ _).2 ⟨wire, junk, hd, (Form.action_elsewhere cfg hv _ hf wire).2 ⟨b, hw, hk, rfl⟩, ?_⟩
    rw [Spec.ungrouped_isTx]
    exact hj

/-- **C93** The same for commands. -/
theorem C93_command (cfg : Cfg) (v : Variant) (hv : v ≠ .wizzilab) (data : List U8) (c : Command)
    (hf : v = .subiot → ∀ a ∈ c.actions, Spec.dash7Forward a = false) :
    Command.tryFrom { cfg with variant := v } data = .ok c ↔
      ∃ d, Command.tryFrom { cfg with variant := .wizzilab } data = .ok d ∧
        (∀ b ∈ d.actions, Spec.readElsewhere b = true) ∧ c.actions = d.actions.map Spec.ungrouped := by
  rw [C55_try_from_no_tx _ hv]
  constructor
  · rintro ⟨wire, junk, hd, hw, hl, hj⟩
    obtain ⟨bs, hb, hk, e⟩ := (Form.actions_elsewhere cfg hv _ hf _).1 hw
    rw [e] at hl hj
    rw [Spec.forwardLast_ungrouped] at hl
    rw [Spec.endsWithForward_ungrouped, List.length_map] at hj
    exact ⟨⟨bs⟩, (C55_try_from_partial _ _ _ fun b h => Spec.readElsewhere_isTx (hk b h)).2
      ⟨wire, junk, hd, hb, hl, hj⟩, hk, e⟩
  · rintro ⟨d, h, hk, e⟩
    obtain ⟨wire, junk, hd, hw, hl, hj⟩ :=
      (C55_try_from_partial _ _ _ fun b h => Spec.readElsewhere_isTx (hk b h)).1 h
    refine ⟨wire, junk, hd, (Form.actions_elsewhere cfg hv _ hf _).2 ⟨_, hw, hk, e⟩, ?_, ?_⟩
    · rw [e, Spec.forwardLast_ungrouped]
      exact hl
    · rw [e, Spec.endsWithForward_ungrouped, List.length_map]
      exact hj

/-- **C93** for commands whose addressees name no group condition, and, if just one of the two builds is sub-iot,
without forwards to a DASH7 interface: if another build reads the encoding of a command at all, it reads that
command. Missing: the two cases left out, see `C93_group_violates` and `C93_delay_violates`. -/
theorem C93_meant_partial (cfg : Cfg) (v v' : Variant) (c : Command) (hw : c.WF { cfg with variant := v })
    (hg : ∀ a ∈ c.actions, ∀ d, Spec.addresseeOf a = some d → d.groupCondition = .any)
    (hf : ∀ a ∈ c.actions, Spec.dash7Forward a = true → (v = .subiot ↔ v' = .subiot))
    (bytes : List U8) (hb : c.toBytes { cfg with variant := v } = .ok bytes) (c' : Command)
    (hr : Command.tryFrom { cfg with variant := v' } bytes = .ok c') : c' = c := by
  by_cases hvv : v = v'
  · subst hvv
    obtain ⟨bytes', h1, h2⟩ := C01_command_roundtrip _ c hw
    cases hb.symm.trans h1
    cases hr.symm.trans h2
    rfl
  have hk : ∀ a ∈ c.actions, Spec.readElsewhere a = true := by
    by_cases hv : v = .wizzilab
    · subst hv
      obtain ⟨bytes', h1, h2⟩ := C01_command_roundtrip _ c hw
      cases hb.symm.trans h1
      obtain ⟨wire, junk, hd, hf1, hl, -⟩ := (C55_try_from_partial _ _ _ fun a ha => by
        cases hx : a.isTx with
        | false => rfl
        | true =>
          cases a <;> first | exact (hw.1 _ ha).2.elim | cases hx).1 h2
      obtain ⟨wire', junk', hd', hf2, -, hj⟩ := (C55_try_from_no_tx _ (Ne.symm hvv) _ _).1 hr
      refine Form.actions_refused cfg (Ne.symm hvv) _ _ _ _ (Form.ofBytes junk) (Form.ofBytes junk') hf1 hf2 ?_ ?_ hl
        (hj.imp (by rintro rfl; rfl) (·.1))
      · rw [← Form.ofBytes_append, ← Form.ofBytes_append, ← hd, ← hd']
      · intro a ha hs
        cases hx : Spec.dash7Forward a with
        | false => rfl
        | true => cases (hf a ha hx).2 hs
    · exact fun a ha => (Action.WF_plain hv (hw.1 a ha)).1
  obtain ⟨bytes', h1, h2⟩ := C42_decodes cfg v v' c hw fun a ha => Spec.common_of (hk a ha) (hg a ha) (hf a ha)
  cases hb.symm.trans h1
  cases hr.symm.trans h2
  rfl

/-- **C93** fails for group conditions: the other builds read such an action, but as meant for any group. -/
theorem C93_group_violates (cfg : Cfg) (v : Variant) (hv : v ≠ .wizzilab) (a : Action)
    (hw : a.WF { cfg with variant := .wizzilab }) (d : Addressee) (hd : Spec.addresseeOf a = some d)
    (hg : d.groupCondition ≠ .any) (hu : d.useVid = false)
    (hf : v = .subiot → Spec.dash7Forward a = false) :
    ∃ bytes b, a.toBytes { cfg with variant := .wizzilab } = .ok bytes ∧
      Action.tryFrom { cfg with variant := v } bytes = .ok b ∧ b ≠ a ∧
      Spec.addresseeOf b = some { d with groupCondition := .any } := by
  obtain ⟨bytes, h1, h2⟩ := C02_action_roundtrip _ a hw
  have hx : Spec.readElsewhere a = true ∧ Spec.addresseeOf (Spec.ungrouped a) = some (Spec.anyGroup d) ∧
      Spec.dash7Forward (Spec.ungrouped a) = Spec.dash7Forward a := by
    have hw := hw.2
    unfold Spec.addresseeOf at hd
    split at hd <;> cases hd
    · exact ⟨by simp [Spec.readElsewhere, Spec.addresseeOf, hu], rfl, rfl⟩
    · exact ⟨by simp [Spec.readElsewhere, Spec.addresseeOf, hu], rfl, rfl⟩
    · exact ⟨by simp [Spec.readElsewhere, Spec.addresseeOf, hu], rfl, rfl⟩
    · exact hw.elim
  refine ⟨bytes, Spec.ungrouped a, h1, (C93_action cfg v hv bytes _ fun h => hx.2.2.trans (hf h)).2
    ⟨a, h2, hx.1, rfl⟩, fun e => hg ?_, hx.2.1⟩
  have := hx.2.1
  rw [e, hd, Option.some.injEq] at this
  rw [this]
  rfl

/-- **C93** The sub-iot and the spec build read the same commands as long as nothing is forwarded to a DASH7
interface. -/
theorem C93_sub_iot (cfg : Cfg) (data : List U8) (c : Command)
    (hf : ∀ a ∈ c.actions, Spec.dash7Forward a = false) :
    Command.tryFrom { cfg with variant := .subiot } data = .ok c ↔
      Command.tryFrom { cfg with variant := .spec } data = .ok c :=
  (C93_command cfg .subiot (by decide) data c fun _ => hf).trans
    (C93_command cfg .spec (by decide) data c fun h => by cases h).symm

theorem Form.action_sub_iot (cfg : Cfg) {a : Action} (hf : Spec.dash7Forward a = false) (w : List Bool) :
    Form.action { cfg with variant := .subiot } a w ↔ Form.action { cfg with variant := .spec } a w :=
  (Form.action_elsewhere cfg (by decide) a (fun _ => hf) w).trans
    (Form.action_elsewhere cfg (by decide) a (fun _ => hf) w).symm

theorem Form.actions_sub_iot (cfg : Cfg) {as : List Action} (hf : ∀ a ∈ as, Spec.dash7Forward a = false)
    (w : List Bool) :
    Form.actions { cfg with variant := .subiot } as w ↔ Form.actions { cfg with variant := .spec } as w :=
  (Form.actions_elsewhere cfg (by decide) as (fun _ => hf) w).trans
    (Form.actions_elsewhere cfg (by decide) as (fun _ => hf) w).symm

theorem Spec.actionsBelow_sub_iot (cfg : Cfg) (limit : Nat) : ∀ (as : List Action)
    (_ : ∀ a ∈ as, Spec.dash7Forward a = false) (pos : Nat) (w : List U8),
    Spec.actionsBelow { cfg with variant := .subiot } limit pos as w ↔
      Spec.actionsBelow { cfg with variant := .spec } limit pos as w
  | [], _, _, _ => Iff.rfl
  | a :: as, hf, pos, w => by
    have ih := Spec.actionsBelow_sub_iot cfg limit as fun b hb => hf b (by simp [hb])
    have ha := Form.action_sub_iot cfg (hf a (by simp))
    simp only [Spec.actionsBelow, ih, ha]

/-- **C93** The same for network frames. -/
theorem C93_network_sub_iot (cfg : Cfg) (data : List U8) (f : Net.Frame)
    (hf : ∀ a ∈ f.frame.command.actions, Spec.dash7Forward a = false) :
    Net.Frame.tryFrom { cfg with variant := .subiot } data = .ok f ↔
      Net.Frame.tryFrom { cfg with variant := .spec } data = .ok f := by
  rw [C57_network_accepts _ (by simp), C57_network_accepts _ (by simp)]
  simp only [Form.actions_sub_iot cfg hf]
  exact Iff.rfl

/-- **C93** The same for foreground frames. -/
theorem C93_foreground_sub_iot (cfg : Cfg) (data : List U8) (f : ForegroundFrame)
    (hf : ∀ a ∈ f.frame.frame.command.actions, Spec.dash7Forward a = false) :
    ForegroundFrame.tryFrom { cfg with variant := .subiot } data = .ok f ↔
      ForegroundFrame.tryFrom { cfg with variant := .spec } data = .ok f := by
  rw [C57_foreground_accepts _ (by simp), C57_foreground_accepts _ (by simp)]
  simp only [Spec.foregroundForm, Spec.actionsBelow_sub_iot cfg _ _ hf]
  exact Iff.rfl

theorem Form.qos_length {q : QoS} {w : List Bool} (h : Form.qos q w) : w.length = 8 := by
  obtain ⟨a, _, rfl, ha, b, _, rfl, hb, x, _, rfl, hx, y, _, rfl, hy, rfl⟩ := h
  cases (show a = _ from ha)
  cases (show b = _ from hb)
  simp [hx.1, hy.1]

/-- The forward of the spec build is that of sub-iot with the execution delay behind four bytes. -/
theorem Form.forward_without {cfg : Cfg} {r : Bool} {oc : OpCode} {c : Dash7InterfaceConfiguration}
    {w : List Bool} (h : Form.action { cfg with variant := .spec } (.forward ⟨r, oc, .dash7 c⟩) w) :
    ∃ p d q, w = p ++ (d ++ q) ∧ p.length = 32 ∧ d.length = 8 ∧
      Form.action { cfg with variant := .subiot }
        (.forward ⟨r, oc, .dash7 { c with executionDelayTimeout := ⟨0, false⟩ }⟩) (p ++ q) := by
  obtain ⟨x1, _, rfl, h1, x2, _, rfl, h2, x3, _, rfl, h3, _, _, rfl, ⟨x4, _, rfl, h4, _, _, rfl,
      ⟨x5, _, rfl, h5, x6, _, rfl, h6, x7, _, rfl, h7, x8, _, rfl, h8, rfl⟩, rfl⟩, rfl⟩ := h
  have l2 : x2.length = 1 := by rw [show x2 = [_] from h2]; rfl
  refine ⟨x1 ++ x2 ++ x3 ++ x4 ++ x5 ++ x6, x7, x8, by simp, ?_, varInt_length h7, ?_⟩
  · simp [show x1.length = 1 from h1, l2, h3.2.1, h4.1, qos_length h5, varInt_length h6]
  · exact ⟨x1, x2 ++ (x3 ++ (x4 ++ (x5 ++ (x6 ++ x8)))), by simp, h1, x2, _, rfl, h2, x3, _, rfl, h3, _, [],
      (List.append_nil _).symm, ⟨x4, _, rfl, h4, _, [], (List.append_nil _).symm, ⟨x5, _, rfl, h5, x6, _, rfl, h6,
      [], _, rfl, ⟨rfl, rfl⟩, x8, [], (List.append_nil _).symm, h8, rfl⟩, rfl⟩, rfl⟩

theorem Form.forward_with {cfg : Cfg} {r : Bool} {oc : OpCode} {c : Dash7InterfaceConfiguration} {w : List Bool}
    (h : Form.action { cfg with variant := .subiot } (.forward ⟨r, oc, .dash7 c⟩) w) :
    ∃ p q, w = p ++ q ∧ p.length = 32 ∧ ∀ t d, Form.varInt t d → Form.action { cfg with variant := .spec }
      (.forward ⟨r, oc, .dash7 { c with executionDelayTimeout := t }⟩) (p ++ (d ++ q)) := by
  obtain ⟨x1, _, rfl, h1, x2, _, rfl, h2, x3, _, rfl, h3, _, _, rfl, ⟨x4, _, rfl, h4, _, _, rfl,
      ⟨x5, _, rfl, h5, x6, _, rfl, h6, x7, _, rfl, ⟨rfl, -⟩, x8, _, rfl, h8, rfl⟩, rfl⟩, rfl⟩ := h
  have l2 : x2.length = 1 := by rw [show x2 = [_] from h2]; rfl
  refine ⟨x1 ++ x2 ++ x3 ++ x4 ++ x5 ++ x6, x8, by simp, ?_, fun t d hd => ?_⟩
  · simp [show x1.length = 1 from h1, l2, h3.2.1, h4.1, qos_length h5, varInt_length h6]
  · exact ⟨x1, x2 ++ (x3 ++ (x4 ++ (x5 ++ (x6 ++ (d ++ x8))))), by simp, h1, x2, _, rfl, h2, x3, _, rfl, h3, _, [],
      (List.append_nil _).symm, ⟨x4, _, rfl, h4, _, [], (List.append_nil _).symm, ⟨x5, _, rfl, h5, x6, _, rfl, h6,
      d, _, rfl, hd, x8, [], (List.append_nil _).symm, h8, rfl⟩, rfl⟩, rfl⟩

theorem Form.varInt_byte {t : VarInt} {d : U8} (ht : t.value.toNat = d.toNat % 32 * 4 ^ (d.toNat / 32))
    (hc : t.ceil = false) : Form.varInt t (Form.ofBytes [d]) := by
  have key : ∀ n : Fin 256, Form.value [(BitVec.ofFin (w := 8) n).getLsbD 7, (BitVec.ofFin (w := 8) n).getLsbD 6,
      (BitVec.ofFin (w := 8) n).getLsbD 5] = n.val / 32 ∧ Form.value [(BitVec.ofFin (w := 8) n).getLsbD 4,
      (BitVec.ofFin (w := 8) n).getLsbD 3, (BitVec.ofFin (w := 8) n).getLsbD 2,
      (BitVec.ofFin (w := 8) n).getLsbD 1, (BitVec.ofFin (w := 8) n).getLsbD 0] = n.val % 32 := by
    decide +kernel
  obtain ⟨h1, h2⟩ := key d.toFin
  exact ⟨_, _, ht, hc, [_, _, _], [_, _, _, _, _], rfl, ⟨rfl, h1⟩, _, [], rfl, ⟨rfl, h2⟩, rfl⟩

/-- **C93** Forwards to a DASH7 interface: sub-iot reads one where the spec build reads one with any byte for the
execution delay put in behind the first four. -/
theorem C93_delay (cfg : Cfg) (x1 x2 x3 x4 d : U8) (rest : List U8) (r : Bool) (oc : OpCode)
    (c : Dash7InterfaceConfiguration) (t : VarInt) (ht : t.value.toNat = d.toNat % 32 * 4 ^ (d.toNat / 32))
    (hc : t.ceil = false) :
    Action.tryFrom { cfg with variant := .spec } (x1 :: x2 :: x3 :: x4 :: d :: rest) =
        .ok (.forward ⟨r, oc, .dash7 { c with executionDelayTimeout := t }⟩) ↔
      Action.tryFrom { cfg with variant := .subiot } (x1 :: x2 :: x3 :: x4 :: rest) =
        .ok (.forward ⟨r, oc, .dash7 { c with executionDelayTimeout := ⟨0, false⟩ }⟩) := by
  have h4 : ∀ l : List U8, Form.ofBytes (x1 :: x2 :: x3 :: x4 :: l) =
      Form.ofBytes [x1, x2, x3, x4] ++ Form.ofBytes l := fun l => Form.ofBytes_append [x1, x2, x3, x4] l
  rw [C54_try_from, C54_try_from, h4 (d :: rest), h4 rest, show Form.ofBytes (d :: rest) = Form.ofBytes [d] ++ Form.ofBytes rest from
    Form.ofBytes_append [d] rest]
  constructor
  · rintro ⟨wire, junk, e, hw, hj⟩
    obtain ⟨p, x, q, rfl, hp, hx, hw'⟩ := Form.forward_without hw
    simp only [List.append_assoc] at e
    obtain ⟨e1, e2⟩ := List.append_inj e (hp.symm ▸ rfl)
    obtain ⟨-, e3⟩ := List.append_inj e2 (hx.symm ▸ rfl)
    exact ⟨p ++ q, junk, by rw [e1, e3, List.append_assoc], hw', hj⟩
  · rintro ⟨wire, junk, e, hw, hj⟩
    obtain ⟨p, q, rfl, hp, hw'⟩ := Form.forward_with hw
    simp only [List.append_assoc] at e
    obtain ⟨e1, e2⟩ := List.append_inj e (hp.symm ▸ rfl)
    exact ⟨p ++ (Form.ofBytes [d] ++ q), junk, by rw [e1, e2, List.append_assoc, List.append_assoc],
      hw' t _ (Form.varInt_byte ht hc), hj⟩

/-- **C93** fails for the execution delay: a forward to everybody by the spec build and a forward to an estimated
number of nodes by sub-iot are the same bytes. -/
theorem C93_delay_violates (cfg : Cfg) :
    let to := fun (t : AddressType) (a : Address) (mask : U8) => Command.mk [.forward ⟨true, ⟨50⟩, .dash7
      ⟨⟨false, false, .no, .no⟩, ⟨0, false⟩, ⟨0, false⟩, ⟨.any, t, false, .none, ⟨mask / 16, mask % 16⟩, a, .none⟩⟩⟩]
    let bytes := [0x72, 0xD7, 0x00, 0x00, 0x00, 0x10, 0x01]
    (to .noId .noId 0x01).toBytes { cfg with variant := .spec } = .ok bytes ∧
    Command.tryFrom { cfg with variant := .spec } bytes = .ok (to .noId .noId 0x01) ∧
    (to .nbId (.nbId ⟨1, false⟩) 0x10).toBytes { cfg with variant := .subiot } = .ok bytes ∧
    Command.tryFrom { cfg with variant := .subiot } bytes = .ok (to .nbId (.nbId ⟨1, false⟩) 0x10) := by
  rcases cfg with ⟨v, a, b, c, d⟩
  cases v <;> cases a <;> cases b <;> cases c <;> cases d <;> decide +kernel

/-- A status of the wizzilab build for a group. -/
def Sample.grouped : Action :=
  .status ⟨.interface, ⟨34⟩, .interface ⟨.dash7, .dash7 ⟨Sample.channel, 70, 80, 90, true, false, true, true, 0xAB, 0xCD,
    ⟨496, false⟩, { Sample.addressee with groupCondition := .equal }⟩⟩⟩

/-- A forward of the wizzilab build to a VID in place of the UID. -/
def Sample.virtual : Action :=
  .forward ⟨true, ⟨50⟩, .dash7 ⟨⟨false, true, .fifoFast, .any⟩, ⟨31, false⟩, ⟨0, false⟩,
    { Sample.addressee with useVid := true }⟩⟩

/-- Read by all builds, without its group by two of them. -/
example : Sample.grouped.WF Sample.wizzilab ∧ Spec.readElsewhere Sample.grouped = true ∧
    Spec.ungrouped Sample.grouped = Sample.dash7Status ∧
    ((Sample.grouped.toBytes Sample.wizzilab).bind fun b => Action.tryFrom Sample.spec b) = .ok Sample.dash7Status ∧
    ((Sample.grouped.toBytes Sample.wizzilab).bind fun b => Action.tryFrom Sample.subiot b) = .ok Sample.dash7Status := by
  decide +kernel
/-- Refused by the others. -/
example : Sample.virtual.WF Sample.wizzilab ∧ Spec.readElsewhere Sample.virtual = false ∧
    ((Sample.virtual.toBytes Sample.wizzilab).bind fun b => Action.tryFrom Sample.spec b).isOk = false := by
  decide +kernel
/-- A command all three builds agree on, and the hypotheses of `C93_meant_partial`. -/
example : (⟨[Sample.tag, Sample.dash7Status, Sample.indirect]⟩ : Command).WF Sample.wizzilab ∧
    (∀ a ∈ [Sample.tag, Sample.dash7Status, Sample.indirect], Spec.dash7Forward a = false) ∧
    Spec.addresseeOf Sample.dash7Status = some Sample.addressee ∧ Sample.addressee.groupCondition = .any ∧
    ((Command.toBytes Sample.wizzilab ⟨[Sample.tag, Sample.dash7Status, Sample.indirect]⟩).bind fun b =>
      Command.tryFrom Sample.subiot b) = .ok ⟨[Sample.tag, Sample.dash7Status, Sample.indirect]⟩ := by
  decide +kernel
/-- A frame both builds read. -/
example : ForegroundFrame.tryFrom Sample.subiot (Sample.foregroundWire ++ [99]) =
      .ok (Sample.foreground 25 ⟨[Sample.tag]⟩) ∧ Spec.dash7Forward Sample.tag = false := by decide +kernel
/-- With and without an execution delay of 3 · 4. -/
example : Action.tryFrom { Sample.spec with variant := .spec } [0x72, 0xD7, 0x00, 0x00, 0x23, 0x10, 0x01] =
      .ok (.forward ⟨true, ⟨50⟩, .dash7 ⟨⟨false, false, .no, .no⟩, ⟨0, false⟩, ⟨12, false⟩,
        ⟨.any, .noId, false, .none, ⟨0, 1⟩, .noId, .none⟩⟩⟩) ∧
    Action.tryFrom { Sample.spec with variant := .subiot } [0x72, 0xD7, 0x00, 0x00, 0x10, 0x01] =
      .ok (.forward ⟨true, ⟨50⟩, .dash7 ⟨⟨false, false, .no, .no⟩, ⟨0, false⟩, ⟨0, false⟩,
        ⟨.any, .noId, false, .none, ⟨0, 1⟩, .noId, .none⟩⟩⟩) := by
  decide +kernel

end Dash7

#print axioms Dash7.C93_action
#print axioms Dash7.C93_command
#print axioms Dash7.C93_meant_partial
#print axioms Dash7.C93_group_violates
#print axioms Dash7.C93_sub_iot
#print axioms Dash7.C93_network_sub_iot
#print axioms Dash7.C93_foreground_sub_iot
#print axioms Dash7.C93_delay
#print axioms Dash7.C93_delay_violates
