import Verif.Lemmas.Display
import Verif.Props.Accessors

/-!
# C64: the text of an interface status, and of a whole command
-/

namespace Dash7

open Sample

/-- The lines `name: text, ` of a list of fields. -/
def Spec.fieldTexts : List (String × String) → String
  | [] => ""
  | (name, text) :: fs => name ++ ": " ++ text ++ ", " ++ Spec.fieldTexts fs

/-- How a flag is shown. -/
def Spec.flag (b : Bool) : String := if b then "true" else "false"

/-- **C64** Every field of a DASH7 status is shown under its name, numbers in decimal. -/
theorem C64_text (cfg : Cfg) (s : Dash7InterfaceStatus) :
    InterfaceStatus.display cfg (.dash7 s) = "Dash7InterfaceStatus { " ++ Spec.fieldTexts
      [("channel", Debug.channel s.channel), ("rx_level", toString s.rxLevel.toNat),
       ("link_budget", toString s.linkBudget.toNat), ("target_rx_level", toString s.targetRxLevel.toNat),
       ("nls", Spec.flag s.nls), ("missed", Spec.flag s.missed), ("retry", Spec.flag s.retry),
       ("unicast", Spec.flag s.unicast), ("fifo_token", toString s.fifoToken.toNat),
       ("sequence_number", toString s.sequenceNumber.toNat),
       ("response_timeout", toString s.responseTimeout.value.toNat),
       ("addressee", Debug.addressee cfg s.addressee)] ++ " }" := by
  have hb : ∀ b, Debug.bool b = Spec.flag b := by decide
  have e : ∀ {a b c : String}, a ++ b = c → ∀ x, a ++ (b ++ x) = c ++ x := by
    rintro a b c rfl x; exact String.append_assoc.symm
  unfold InterfaceStatus.display
  dsimp only
  unfold Dash7InterfaceStatus.display Debug.nat
  simp only [hb]
  simp only [Spec.fieldTexts]
  simp only [String.append_assoc]
  rw [e (show "channel" ++ ": " = "channel: " by decide +kernel),
    e (show "rx_level" ++ ": " = "rx_level: " by decide +kernel),
    e (show "link_budget" ++ ": " = "link_budget: " by decide +kernel),
    e (show "target_rx_level" ++ ": " = "target_rx_level: " by decide +kernel),
    e (show "nls" ++ ": " = "nls: " by decide +kernel),
    e (show "missed" ++ ": " = "missed: " by decide +kernel),
    e (show "retry" ++ ": " = "retry: " by decide +kernel),
    e (show "unicast" ++ ": " = "unicast: " by decide +kernel),
    e (show "fifo_token" ++ ": " = "fifo_token: " by decide +kernel),
    e (show "sequence_number" ++ ": " = "sequence_number: " by decide +kernel),
    e (show "response_timeout" ++ ": " = "response_timeout: " by decide +kernel),
    e (show "addressee" ++ ": " = "addressee: " by decide +kernel), String.empty_append]

/-- Two addressees agree in the fields the build has. -/
def Spec.SameAddressee (cfg : Cfg) (a b : Addressee) : Prop :=
  (cfg.variant = .wizzilab → a.groupCondition = b.groupCondition ∧ a.useVid = b.useVid) ∧
  a.addressType = b.addressType ∧ a.nlsMethod = b.nlsMethod ∧ a.accessClass = b.accessClass ∧
  a.address = b.address ∧ a.nlsState = b.nlsState

/-- Two statuses agree in every field, the response timeout up to how it is to be rounded. -/
def Spec.SameStatus (cfg : Cfg) : InterfaceStatus → InterfaceStatus → Prop
  | .host, .host => True
  | .serial, .serial => True
  | .other b, .other b' => b = b'
  | .dash7 s, .dash7 t =>
    s.channel = t.channel ∧ s.rxLevel = t.rxLevel ∧ s.linkBudget = t.linkBudget ∧
    s.targetRxLevel = t.targetRxLevel ∧ s.nls = t.nls ∧ s.missed = t.missed ∧ s.retry = t.retry ∧
    s.unicast = t.unicast ∧ s.fifoToken = t.fifoToken ∧ s.sequenceNumber = t.sequenceNumber ∧
    s.responseTimeout.value = t.responseTimeout.value ∧ Spec.SameAddressee cfg s.addressee t.addressee
  | _, _ => False

theorem Dash7InterfaceStatus.display_inj (cfg : Cfg) (s t : Dash7InterfaceStatus)
    (h : s.display cfg = t.display cfg) : Spec.SameStatus cfg (.dash7 s) (.dash7 t) := by
  obtain ⟨a1, a2, a3, a4, a5, a6, a7, a8, a9, a10, ⟨a11, ac⟩, a12⟩ := s
  obtain ⟨b1, b2, b3, b4, b5, b6, b7, b8, b9, b10, ⟨b11, bc⟩, b12⟩ := t
  replace h := congrArg String.toList h
  unfold Dash7InterfaceStatus.display at h
  simp only [String.append_assoc] at h
  simp only [String.toList_append] at h
  replace h := List.append_cancel_left h
  peel1 h Debug.channel_tok
  peel2 h Debug.bv_tok
  peel2 h Debug.bv_tok
  peel2 h Debug.bv_tok
  peel2 h Debug.bool_tok
  peel2 h Debug.bool_tok
  peel2 h Debug.bool_tok
  peel2 h Debug.bool_tok
  peel2 h Debug.bv_tok
  peel2 h Debug.bv_tok
  peel2 h Debug.bv_tok
  obtain ⟨h1, -⟩ := Debug.addressee_tok _ _ _ _ _ (List.append_cancel_left (List.append_cancel_left h))
  exact ⟨rfl, rfl, rfl, rfl, rfl, rfl, rfl, rfl, rfl, rfl, rfl, h1⟩

/-- **C64** Same text, same status. -/
theorem C64_unambiguous (cfg : Cfg) (s t : InterfaceStatus) (h : s.display cfg = t.display cfg) :
    Spec.SameStatus cfg s t := by
  have first : ∀ {a b : String}, a = b → a.toList.head? = b.toList.head? := by rintro a _ rfl; rfl
  have hd : ∀ s : Dash7InterfaceStatus, (s.display cfg).toList.head? = some 'D' := by
    intro s
    unfold Dash7InterfaceStatus.display
    simp only [String.append_assoc]
    rw [String.toList_append, List.head?_append]
    rfl
  have ho : ∀ b, (InterfaceStatus.display cfg (.other b)).toList.head? = some 'O' := by
    intro b
    unfold InterfaceStatus.display
    simp only [String.append_assoc]
    rw [String.toList_append, List.head?_append]
    rfl
  have hh : (InterfaceStatus.display cfg .host).toList.head? = some 'H' := by
    show ("Host" ++ "InterfaceStatus{}").toList.head? = _
    decide +kernel
  have hs : (InterfaceStatus.display cfg .serial).toList.head? = some 'S' := by
    show ("Serial" ++ "InterfaceStatus{}").toList.head? = _
    decide +kernel
  have hd : ∀ s, (InterfaceStatus.display cfg (.dash7 s)).toList.head? = some 'D' := hd
  have hf := first h
  cases s with
  | host =>
    cases t with
    | host => trivial
    | serial => rw [hh, hs] at hf; exact absurd hf (by decide)
    | dash7 t => rw [hh, hd] at hf; exact absurd hf (by decide)
    | other b => rw [hh, ho] at hf; exact absurd hf (by decide)
  | serial =>
    cases t with
    | host => rw [hh, hs] at hf; exact absurd hf (by decide)
    | serial => trivial
    | dash7 t => rw [hs, hd] at hf; exact absurd hf (by decide)
    | other b => rw [hs, ho] at hf; exact absurd hf (by decide)
  | dash7 s =>
    cases t with
    | host => rw [hh, hd] at hf; exact absurd hf (by decide)
    | serial => rw [hs, hd] at hf; exact absurd hf (by decide)
    | dash7 t => exact Dash7InterfaceStatus.display_inj cfg s t h
    | other b => rw [hd, ho] at hf; exact absurd hf (by decide)
  | other b =>
    cases t with
    | host => rw [hh, ho] at hf; exact absurd hf (by decide)
    | serial => rw [hs, ho] at hf; exact absurd hf (by decide)
    | dash7 t => rw [hd, ho] at hf; exact absurd hf (by decide)
    | other b' =>
      have h := congrArg String.toList h
      unfold InterfaceStatus.display at h
      simp only [String.append_assoc] at h
      simp only [String.toList_append] at h
      exact (Debug.bytes_tok _ _ _ _ (fun c hc => by cases hc; decide) (fun c hc => by cases hc; decide)
        (List.append_cancel_left h)).1

/-- Both have none, or both have one and these agree. -/
def Spec.SameStatus? (cfg : Cfg) : Option InterfaceStatus → Option InterfaceStatus → Prop
  | none, none => True
  | some s, some t => Spec.SameStatus cfg s t
  | _, _ => False

theorem Spec.split_lines {dbg : Action → String} {x y : List Char} (hx : x.head? ≠ some '\t')
    (hy : y.head? ≠ some '\t') (as bs : List Action) (hl : ∀ a ∈ as, '\n' ∉ (dbg a).toList)
    (hl' : ∀ a ∈ bs, '\n' ∉ (dbg a).toList) (hi : ∀ a ∈ as, ∀ b ∈ bs, dbg a = dbg b → a = b)
    (h : (String.join (as.map fun a => "\t\t" ++ dbg a ++ "\n")).toList ++ x =
      (String.join (bs.map fun a => "\t\t" ++ dbg a ++ "\n")).toList ++ y) : as = bs ∧ x = y := by
  have hj : ∀ (s : String) (l : List String), (String.join (s :: l)).toList = s.toList ++ (String.join l).toList := by
    intro s l
    have : ∀ (l : List String) (s : String), (l.foldl (fun r s => r ++ s) s).toList =
        s.toList ++ (l.foldl (fun r s => r ++ s) "").toList := by
      intro l
      induction l with
      | nil => intro s; simp
      | cons a l ih =>
        intro s
        rw [List.foldl_cons, List.foldl_cons, ih, ih ("" ++ a)]
        simp
    simp only [String.join, List.foldl_cons, String.empty_append]
    exact this l s
  have hc : ∀ (a : Action) (l : List Action) (z : List Char),
      (String.join ((a :: l).map fun a => "\t\t" ++ dbg a ++ "\n")).toList ++ z =
      '\t' :: '\t' :: ((dbg a).toList ++ '\n' ::
        ((String.join (l.map fun a => "\t\t" ++ dbg a ++ "\n")).toList ++ z)) := by
    intro a l z
    rw [List.map_cons, hj]
    simp
  induction as generalizing bs with
  | nil =>
    cases bs with
    | nil => exact ⟨rfl, by simpa using h⟩
    | cons b bs =>
      rw [hc] at h
      have h2 : x = '\t' :: _ := h
      exact absurd (by rw [h2]; rfl) hx
  | cons a as ih =>
    cases bs with
    | nil =>
      rw [hc] at h
      have h2 : '\t' :: _ = y := h
      exact absurd (by rw [← h2]; rfl) hy
    | cons b bs =>
      rw [hc, hc] at h
      simp only [List.cons.injEq, true_and] at h
      obtain ⟨h1, h2⟩ := splitAtChar (hl a (by simp)) (hl' b (by simp)) h
      obtain ⟨rfl, rfl⟩ := ih bs (fun a ha => hl a (by simp [ha])) (fun a ha => hl' a (by simp [ha]))
        (fun a ha b hb => hi a (by simp [ha]) b (by simp [hb])) h2
      exact ⟨by rw [hi a (by simp) b (by simp) (String.toList_inj.1 h1)], rfl⟩

/-- **C64** If the texts of the actions take one line each and tell them apart, the text of a command
tells everything but repeated interface statuses: the progress, the tag, the other actions in order and
the first interface status. -/
theorem C64_command (cfg : Cfg) (dbg : Action → String) (c c' : Command)
    (hl : ∀ a ∈ c.actions, '\n' ∉ (dbg a).toList) (hl' : ∀ a ∈ c'.actions, '\n' ∉ (dbg a).toList)
    (hi : ∀ a ∈ c.actions, ∀ b ∈ c'.actions, dbg a = dbg b → a = b)
    (h : c.display dbg (InterfaceStatus.display cfg) = c'.display dbg (InterfaceStatus.display cfg)) :
    (∀ p p', Spec.HasProgress c p → Spec.HasProgress c' p' → p = p') ∧
    (∀ g g', Spec.HasTag c g → Spec.HasTag c' g' → g = g') ∧
    c.actions.filter (fun a => (Spec.interfaceStatus? a).isNone) =
      c'.actions.filter (fun a => (Spec.interfaceStatus? a).isNone) ∧
    (∀ st st', Spec.IsFirst Spec.interfaceStatus? c.actions st →
      Spec.IsFirst Spec.interfaceStatus? c'.actions st' → Spec.SameStatus? cfg st st') := by
  obtain ⟨q, u, st, hq, hu, hst, ht⟩ := C45_text dbg (InterfaceStatus.display cfg) c
  obtain ⟨q', u', st', hq', hu', hst', ht'⟩ := C45_text dbg (InterfaceStatus.display cfg) c'
  rw [ht, ht', String.append_assoc, String.append_assoc (s₃ := Spec.statusText _ _ st')] at h
  have hsplit := Spec.split_text h
  clear h
  obtain ⟨rfl, rfl, h⟩ := hsplit
  refine ⟨fun p p' h1 h2 => (Spec.hasProgress_unique h1 hq).trans (Spec.hasProgress_unique hq' h2),
    fun g g' h1 h2 => (Spec.hasTag_unique h1 hu).trans (Spec.hasTag_unique hu' h2), ?_⟩
  suffices Spec.proper c = Spec.proper c' ∧ Spec.SameStatus? cfg st st' by
    refine ⟨this.1, fun s s' h1 h2 => ?_⟩
    rw [Spec.isFirst_unique h1 hst, Spec.isFirst_unique h2 hst']
    exact this.2
  clear ht ht' hq hq' hu hu' hst hst'
  have hsub : ∀ (c : Command) a, a ∈ Spec.proper c → a ∈ c.actions := fun c a ha => (List.mem_filter.1 ha).1
  replace hl := fun a ha => hl a (hsub c a ha)
  replace hl' := fun a ha => hl' a (hsub c' a ha)
  replace hi := fun a ha b hb => hi a (hsub c a ha) b (hsub c' b hb)
  clear hsub
  generalize Spec.proper c = as at h hl hi ⊢
  generalize Spec.proper c' = bs at h hl' hi ⊢
  have key : ∀ (l : List Action) (s s' : Option InterfaceStatus),
      Spec.statusText (InterfaceStatus.display cfg) l s = Spec.statusText (InterfaceStatus.display cfg) l s' →
      Spec.SameStatus? cfg s s' := by
    intro l s s' h
    have h := congrArg String.toList h
    cases s with
    | none =>
      cases s' with
      | none => trivial
      | some s' => cases l <;> simp [Spec.statusText] at h
    | some s =>
      cases s' with
      | none => cases l <;> simp [Spec.statusText] at h
      | some s' =>
        refine C64_unambiguous cfg s s' (String.toList_inj.1 ?_)
        simp only [Spec.statusText, String.append_assoc] at h
        simp only [String.toList_append] at h
        exact List.append_cancel_right (List.append_cancel_left (List.append_cancel_left h))
  have h0 := Spec.tail_head dbg (InterfaceStatus.display cfg) as st
  have h1 := Spec.tail_head dbg (InterfaceStatus.display cfg) bs st'
  rw [← h] at h1
  have hne : as ≠ [] ↔ bs ≠ [] := h0.1.symm.trans h1.1
  cases as with
  | nil =>
    cases bs with
    | cons b bs => exact absurd rfl (hne.2 (by simp))
    | nil =>
      simp only [Spec.actionsText, String.empty_append] at h
      exact ⟨rfl, key _ _ _ h⟩
  | cons a as =>
    cases bs with
    | nil => exact absurd rfl (hne.1 (by simp))
    | cons b bs =>
      have nt : ∀ (l : List Action) a s, (Spec.statusText (InterfaceStatus.display cfg) (a :: l) s).toList.head? ≠
          some '\t' := by
        intro l a s
        cases s <;> simp [Spec.statusText]
      have h := congrArg String.toList h
      simp only [Spec.actionsText, String.append_assoc] at h
      simp only [String.toList_append] at h
      obtain ⟨h2, h3⟩ := Spec.split_lines (nt _ _ _) (nt _ _ _) (a :: as) (b :: bs) hl hl' hi
        (by simpa only [String.append_assoc] using List.append_cancel_left h)
      rw [← h2] at h3
      exact ⟨h2, key _ _ _ (String.toList_inj.1 h3)⟩

/-- The texts of the three kinds. -/
example : InterfaceStatus.display spec .host = "HostInterfaceStatus{}" ∧
    InterfaceStatus.display spec (.other [1, 200]) = "OtherInterfaceStatus{ [1, 200] }" ∧
    InterfaceStatus.display spec (.dash7 ⟨⟨⟨.band868, .loRate, .fecPn9⟩, 50⟩, 70, 80, 90, true, false, false, true,
      5, 6, ⟨96, true⟩, Addressee.new false .any (.vId 0x1234) (.aesCtr #v[1, 2, 3, 4, 5]) ⟨1, 2⟩⟩) =
    "Dash7InterfaceStatus { channel: Channel { header: ChannelHeader { channel_band: Band868, \
channel_class: LoRate, channel_coding: FecPn9 }, index: 50 }, rx_level: 70, link_budget: 80, \
target_rx_level: 90, nls: true, missed: false, retry: false, unicast: true, fifo_token: 5, \
sequence_number: 6, response_timeout: 96, addressee: Addressee { address_type: VId, nls_method: AesCtr, \
access_class: AccessClass { specifier: 1, mask: 2 }, address: VId(4660), \
nls_state: AesCtr([1, 2, 3, 4, 5]) },  }" := by decide +kernel

/-- How a timeout is to be rounded is not shown: it plays no role on the wire either. -/
example : ∃ s t : InterfaceStatus, s ≠ t ∧ s.display spec = t.display spec :=
  ⟨.dash7 ⟨⟨⟨.band868, .loRate, .fecPn9⟩, 50⟩, 70, 80, 90, true, false, false, true, 5, 6, ⟨96, true⟩, addressee⟩,
   .dash7 ⟨⟨⟨.band868, .loRate, .fecPn9⟩, 50⟩, 70, 80, 90, true, false, false, true, 5, 6, ⟨96, false⟩, addressee⟩,
   by decide, by decide +kernel⟩

/-- Texts as `C64_command` asks for; the derived `Debug` of an action is of this kind. -/
example : ∃ (dbg : Action → String) (c c' : Command), c ≠ c' ∧
    (∀ a ∈ c.actions, '\n' ∉ (dbg a).toList) ∧ (∀ a ∈ c'.actions, '\n' ∉ (dbg a).toList) ∧
    (∀ a ∈ c.actions, ∀ b ∈ c'.actions, dbg a = dbg b → a = b) ∧
    c.display dbg (InterfaceStatus.display spec) = c'.display dbg (InterfaceStatus.display spec) :=
  ⟨fun a => if a = tag then "a" else if a = readData then "b" else if a = dash7Status then "c" else "d",
   ⟨[tag, dash7Status, readData, .status ⟨.interface, ⟨34⟩, .interface ⟨.host, .host⟩⟩]⟩,
   ⟨[tag, readData, dash7Status]⟩, by decide +kernel⟩

#print axioms C64_text
#print axioms C64_unambiguous
#print axioms C64_command

end Dash7
