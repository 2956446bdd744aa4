import Verif.Model.Command
import Verif.Props.Samples

/-!
# C17, C45: accessors and display of a command
-/

namespace Dash7
open Sample

/-! ## C17 -/

/-- The interface status an action reports. -/
def Spec.interfaceStatus? : Action → Option InterfaceStatus
  | .status ⟨_, _, .interface ⟨_, s⟩⟩ => some s
  | _ => none

/-- The request tag an action is. -/
def Spec.requestTag? : Action → Option Op.RequestTag
  | .requestTag o => some o
  | _ => none

/-- The response tag an action is. -/
def Spec.responseTag? : Action → Option Op.ResponseTag
  | .responseTag o => some o
  | _ => none

/-- The answer is that of the first action giving one, or none if no action does. -/
def Spec.IsFirst {β : Type} (f : Action → Option β) (actions : List Action) : Option β → Prop
  | some b => ∃ pre a post, actions = pre ++ a :: post ∧ (∀ x ∈ pre, f x = none) ∧ f a = some b
  | none => ∀ x ∈ actions, f x = none

theorem Spec.isFirst_cons {β : Type} {f : Action → Option β} {a : Action} {as : List Action}
    {r : Option β} (h : f a = none) (hr : Spec.IsFirst f as r) : Spec.IsFirst f (a :: as) r := by
  cases r with
  | none =>
    intro x hx
    rcases List.mem_cons.1 hx with rfl | hx
    · exact h
    · exact hr x hx
  | some b =>
    obtain ⟨pre, a', post, rfl, h1, h2⟩ := hr
    refine ⟨a :: pre, a', post, rfl, ?_, h2⟩
    intro x hx
    rcases List.mem_cons.1 hx with rfl | hx
    · exact h
    · exact h1 x hx

theorem Spec.isFirst_head {β : Type} {f : Action → Option β} {a : Action} {as : List Action} {b : β}
    (h : f a = some b) : Spec.IsFirst f (a :: as) (some b) :=
  ⟨[], a, as, rfl, by simp, h⟩

/-- There is only one first answer. -/
theorem Spec.isFirst_unique {β : Type} {f : Action → Option β} {as : List Action} {r r' : Option β}
    (h : Spec.IsFirst f as r) (h' : Spec.IsFirst f as r') : r = r' := by
  induction as with
  | nil =>
    cases r with
    | some b => obtain ⟨pre, a, post, h, -⟩ := h; simp at h
    | none =>
      cases r' with
      | some b => obtain ⟨pre, a, post, h, -⟩ := h'; simp at h
      | none => rfl
  | cons a as ih =>
    have key : ∀ {r : Option β}, Spec.IsFirst f (a :: as) r →
        r = f a ∧ (f a).isSome ∨ f a = none ∧ Spec.IsFirst f as r := by
      intro r h
      cases r with
      | none => exact .inr ⟨h a (by simp), fun x hx => h x (by simp [hx])⟩
      | some b =>
        obtain ⟨pre, a', post, he, h1, h2⟩ := h
        cases pre with
        | nil =>
          simp only [List.nil_append, List.cons.injEq] at he
          obtain ⟨rfl, rfl⟩ := he
          exact .inl ⟨h2.symm, by rw [h2]; rfl⟩
        | cons x pre =>
          simp only [List.cons_append, List.cons.injEq] at he
          obtain ⟨rfl, rfl⟩ := he
          exact .inr ⟨h1 _ (by simp), pre, a', post, rfl, fun y hy => h1 y (by simp [hy]), h2⟩
    rcases key h with ⟨e1, hs⟩ | ⟨e1, h1⟩ <;> rcases key h' with ⟨e2, hs'⟩ | ⟨e2, h2⟩
    · rw [e1, e2]
    · rw [e2] at hs; simp at hs
    · rw [e1] at hs'; simp at hs'
    · exact ih h1 h2

/-- **C17** The interface status of a command is that of the first action reporting one. -/
theorem C17_interface_status (c : Command) :
    Spec.IsFirst Spec.interfaceStatus? c.actions c.interfaceStatus := by
  obtain ⟨as⟩ := c
  show Spec.IsFirst _ as (Command.interfaceStatusLoop as)
  induction as with
  | nil => simp [Command.interfaceStatusLoop, Spec.IsFirst]
  | cons a as ih =>
    cases a with
    | status s =>
      rcases s with ⟨t, o, st⟩
      cases st with
      | interface i => exact Spec.isFirst_head rfl
      | _ => exact Spec.isFirst_cons rfl ih
    | _ => exact Spec.isFirst_cons rfl ih

/-- **C17** The request tag is the first one. -/
theorem C17_request_tag (c : Command) :
    Spec.IsFirst Spec.requestTag? c.actions c.requestTag := by
  obtain ⟨as⟩ := c
  show Spec.IsFirst _ as (Command.requestTagLoop as)
  induction as with
  | nil => simp [Command.requestTagLoop, Spec.IsFirst]
  | cons a as ih =>
    cases a with
    | requestTag o => exact Spec.isFirst_head rfl
    | _ => exact Spec.isFirst_cons rfl ih

/-- **C17** The response tag is the first one. -/
theorem C17_response_tag (c : Command) :
    Spec.IsFirst Spec.responseTag? c.actions c.responseTag := by
  obtain ⟨as⟩ := c
  show Spec.IsFirst _ as (Command.responseTagLoop as)
  induction as with
  | nil => simp [Command.responseTagLoop, Spec.IsFirst]
  | cons a as ih =>
    cases a with
    | responseTag o => exact Spec.isFirst_head rfl
    | _ => exact Spec.isFirst_cons rfl ih

/-- **C17** The ids are those of the first tags; the request tag comes first. -/
theorem C17_ids (c : Command) :
    (∀ o, Spec.IsFirst Spec.requestTag? c.actions (some o) →
      c.requestId = some o.id ∧ c.tagId = some o.id) ∧
    (Spec.IsFirst Spec.requestTag? c.actions none → c.requestId = none ∧ c.tagId = c.responseId) ∧
    (∀ o, Spec.IsFirst Spec.responseTag? c.actions (some o) →
      c.responseId = some o.id ∧ c.isLastResponse = o.header.endOfPacket) ∧
    (Spec.IsFirst Spec.responseTag? c.actions none → c.responseId = none ∧ c.isLastResponse = false) := by
  have hl : c.isLastResponse = match c.responseTag with
      | some o => o.header.endOfPacket
      | none => false := by
    obtain ⟨as⟩ := c
    show Command.isLastResponseLoop as = match Command.responseTagLoop as with
      | some o => o.header.endOfPacket
      | none => false
    induction as with
    | nil => rfl
    | cons a as ih => cases a <;> first | rfl | exact ih
  refine ⟨fun o h => ?_, fun h => ?_, fun o h => ?_, fun h => ?_⟩
  · have := Spec.isFirst_unique (C17_request_tag c) h
    simp [Command.requestId, Command.tagId, this]
  · have := Spec.isFirst_unique (C17_request_tag c) h
    simp [Command.requestId, Command.tagId, this]
  · have := Spec.isFirst_unique (C17_response_tag c) h
    rw [hl, this]
    simp [Command.responseId, this]
  · have := Spec.isFirst_unique (C17_response_tag c) h
    rw [hl, this]
    simp [Command.responseId, this]

/-- **C17** The other actions are kept in order. -/
theorem C17_without_interface_status (c : Command) :
    c.actionsWithoutInterfaceStatus = c.actions.filter fun a => (Spec.interfaceStatus? a).isNone := by
  obtain ⟨as⟩ := c
  show Command.withoutInterfaceStatusLoop [] as = _
  suffices ∀ acc, Command.withoutInterfaceStatusLoop acc as =
      acc ++ as.filter fun a => (Spec.interfaceStatus? a).isNone by simpa using this []
  induction as with
  | nil => intro acc; simp [Command.withoutInterfaceStatusLoop]
  | cons a as ih =>
    intro acc
    have hkeep : ∀ a, Spec.interfaceStatus? a = none → Command.withoutInterfaceStatusLoop (acc ++ [a]) as =
        acc ++ (a :: as).filter fun a => (Spec.interfaceStatus? a).isNone := by
      intro a ha
      rw [ih, List.filter_cons_of_pos (by rw [ha]; rfl)]
      simp
    cases a with
    | status s =>
      rcases s with ⟨t, o, st⟩
      cases st with
      | interface i => exact (ih acc).trans (by rw [List.filter_cons_of_neg (by simp [Spec.interfaceStatus?])])
      | action s => exact hkeep _ rfl
      | interfaceFinal s => exact hkeep _ rfl
    | _ => exact hkeep _ rfl

/-- A response with two statuses and two tags. -/
def Sample.response : Command :=
  ⟨[.responseTag ⟨⟨true, true⟩, ⟨35⟩, 7⟩, dash7Status, tag, .status ⟨.interface, ⟨34⟩, .interface ⟨.host, .host⟩⟩,
    .responseTag ⟨⟨false, true⟩, ⟨35⟩, 8⟩, writeData]⟩

example : response.tagId = some 7 ∧ response.responseId = some 7 ∧ response.isLastResponse = true ∧
    response.interfaceStatus ≠ some .host ∧
    response.actionsWithoutInterfaceStatus.length = 4 := by decide +kernel
example : Spec.IsFirst Spec.responseTag? response.actions (some ⟨⟨true, true⟩, ⟨35⟩, 7⟩) :=
  C17_response_tag response

/-! ## C45 -/

/-- What is to be shown of the progress of a command. -/
inductive Spec.Progress | completedWithError | completedWithoutError | executing
  deriving DecidableEq

/-- The words for it. -/
def Spec.Progress.text : Spec.Progress → String
  | .completedWithError => "completed, with error"
  | .completedWithoutError => "completed, without error"
  | .executing => "executing"

/-- The progress a command reports: its first response tag ends the packet, with or without error. -/
def Spec.HasProgress (c : Command) : Spec.Progress → Prop
  | .completedWithError => ∃ o, Spec.IsFirst Spec.responseTag? c.actions (some o) ∧
      o.header.endOfPacket = true ∧ o.header.error = true
  | .completedWithoutError => ∃ o, Spec.IsFirst Spec.responseTag? c.actions (some o) ∧
      o.header.endOfPacket = true ∧ o.header.error = false
  | .executing => ∀ o, Spec.IsFirst Spec.responseTag? c.actions (some o) → o.header.endOfPacket = false

/-- How the tag is shown. -/
def Spec.tagText : Option U8 → String
  | none => ""
  | some t => "with tag " ++ toString t.toNat ++ " "

/-- The tag a command carries: the id of its first request tag, or that of its first response tag if it
has no request tag. -/
def Spec.HasTag (c : Command) (t : Option U8) : Prop :=
  (∃ o, Spec.IsFirst Spec.requestTag? c.actions (some o) ∧ t = some o.id) ∨
  (∀ a ∈ c.actions, Spec.requestTag? a = none) ∧
    ((∃ o, Spec.IsFirst Spec.responseTag? c.actions (some o) ∧ t = some o.id) ∨
     (∀ a ∈ c.actions, Spec.responseTag? a = none) ∧ t = none)

/-- How the actions are shown: one to a line, under a heading, if there are any. -/
def Spec.actionsText (dbg : Action → String) : List Action → String
  | [] => ""
  | acts => "\n\tactions:\n" ++ String.join (acts.map fun a => "\t\t" ++ dbg a ++ "\n")

/-- How the interface status is shown: after an empty line if there are actions above it. -/
def Spec.statusText (itf : InterfaceStatus → String) (acts : List Action) : Option InterfaceStatus → String
  | none => ""
  | some s => (if acts = [] then "" else "\n") ++ "\tinterface status: " ++ itf s ++ "\n"

/-- The actions of a command that are no interface statuses, in order. -/
def Spec.proper (c : Command) : List Action := c.actions.filter fun a => (Spec.interfaceStatus? a).isNone

theorem Spec.hasTag_tagId (c : Command) : Spec.HasTag c c.tagId := by
  obtain ⟨h1, h2, h3, h4⟩ := C17_ids c
  have hq := C17_request_tag c
  have hs := C17_response_tag c
  cases ha : c.requestTag with
  | some o => rw [ha] at hq; exact .inl ⟨o, hq, (h1 o hq).2⟩
  | none =>
    rw [ha] at hq
    refine .inr ⟨hq, ?_⟩
    cases hb : c.responseTag with
    | some o => rw [hb] at hs; exact .inl ⟨o, hs, by rw [(h2 hq).2, (h3 o hs).1]⟩
    | none => rw [hb] at hs; exact .inr ⟨hs, by rw [(h2 hq).2, (h4 hs).1]⟩

theorem Spec.hasTag_unique {c : Command} {t t' : Option U8} (h : Spec.HasTag c t) (h' : Spec.HasTag c t') :
    t = t' := by
  have no : ∀ {β : Type} {f : Action → Option β} {o : β}, Spec.IsFirst f c.actions (some o) →
      ¬ ∀ a ∈ c.actions, f a = none := by
    rintro β f o h h0
    have h1 : Spec.IsFirst f c.actions none := h0
    cases Spec.isFirst_unique h h1
  rcases h with ⟨o, h, rfl⟩ | ⟨h0, ⟨o, h, rfl⟩ | ⟨h1, rfl⟩⟩ <;>
    rcases h' with ⟨o', h', rfl⟩ | ⟨h0', ⟨o', h', rfl⟩ | ⟨h1', rfl⟩⟩ <;>
    first
    | rfl
    | (cases Spec.isFirst_unique h h'; rfl)
    | exact absurd ‹_› (no h)
    | exact absurd ‹_› (no h')

/-- **C45** The displayed text, word for word. -/
theorem C45_text (dbg : Action → String) (itf : InterfaceStatus → String) (c : Command) :
    ∃ p tag st, Spec.HasProgress c p ∧ Spec.HasTag c tag ∧
      Spec.IsFirst Spec.interfaceStatus? c.actions st ∧
      c.display dbg itf = "Command " ++ Spec.tagText tag ++ "(" ++ p.text ++ ")" ++
        Spec.actionsText dbg (Spec.proper c) ++ Spec.statusText itf (Spec.proper c) st := by
  have hp : ∃ p : Spec.Progress, Spec.HasProgress c p ∧ c.displayStatus = p.text := by
    have h := C17_response_tag c
    unfold Command.displayStatus
    cases hr : c.responseTag with
    | none =>
      rw [hr] at h
      exact ⟨.executing, fun o ho => by (cases Spec.isFirst_unique h ho), rfl⟩
    | some o =>
      rw [hr] at h
      dsimp only
      cases he : o.header.endOfPacket with
      | false =>
        exact ⟨.executing, fun o' ho => by cases Spec.isFirst_unique h ho; exact he, by simp [Spec.Progress.text]⟩
      | true =>
        cases hx : o.header.error with
        | true => exact ⟨.completedWithError, ⟨o, h, he, hx⟩, by simp [Spec.Progress.text]⟩
        | false => exact ⟨.completedWithoutError, ⟨o, h, he, hx⟩, by simp [Spec.Progress.text]⟩
  obtain ⟨p, hp, htext⟩ := hp
  refine ⟨p, _, _, hp, Spec.hasTag_tagId c, C17_interface_status c, ?_⟩
  have hw : c.actionsWithoutInterfaceStatus = Spec.proper c := C17_without_interface_status c
  unfold Command.display
  dsimp only
  rw [htext, hw]
  congr 1
  · congr 1
    · congr 3
      cases c.tagId <;> rfl
    · cases Spec.proper c <;> simp [Spec.actionsText]
  · cases c.interfaceStatus with
    | none => rfl
    | some s => cases Spec.proper c <;> simp [Spec.statusText]

theorem Spec.hasProgress_unique {c : Command} {p p' : Spec.Progress} (h : Spec.HasProgress c p)
    (h' : Spec.HasProgress c p') : p = p' := by
  cases p <;> cases p' <;> first | rfl | skip
  all_goals
    simp only [Spec.HasProgress] at h h'
  · obtain ⟨o, h1, -, h2⟩ := h; obtain ⟨o', h1', -, h2'⟩ := h'
    cases Spec.isFirst_unique h1 h1'; rw [h2] at h2'; cases h2'
  · obtain ⟨o, h1, h2, -⟩ := h; rw [h' o h1] at h2; cases h2
  · obtain ⟨o, h1, -, h2⟩ := h; obtain ⟨o', h1', -, h2'⟩ := h'
    cases Spec.isFirst_unique h1 h1'; rw [h2] at h2'; cases h2'
  · obtain ⟨o, h1, h2, -⟩ := h; rw [h' o h1] at h2; cases h2
  · obtain ⟨o, h1, h2, -⟩ := h'; rw [h o h1] at h2; cases h2
  · obtain ⟨o, h1, h2, -⟩ := h'; rw [h o h1] at h2; cases h2

/-- Splitting at the first occurrence of a character. -/
theorem splitAtChar {k : Char} {a b x y : List Char} (ha : k ∉ a) (hb : k ∉ b)
    (h : a ++ k :: x = b ++ k :: y) : a = b ∧ x = y := by
  induction a generalizing b with
  | nil =>
    cases b with
    | nil => simp at h; exact ⟨rfl, h⟩
    | cons c b =>
      simp only [List.nil_append, List.cons_append, List.cons.injEq] at h
      exact absurd h.1 (by rintro rfl; simp at hb)
  | cons d a ih =>
    cases b with
    | nil =>
      simp only [List.nil_append, List.cons_append, List.cons.injEq] at h
      exact absurd h.1 (by rintro rfl; simp at ha)
    | cons c b =>
      simp only [List.cons_append, List.cons.injEq] at h
      obtain ⟨rfl, h⟩ := h
      obtain ⟨rfl, rfl⟩ := ih (by simp at ha; simp [ha]) (by simp at hb; simp [hb]) h
      exact ⟨rfl, rfl⟩

/-- The head of the text can be taken apart. -/
theorem Spec.split_text {g g' : Option U8} {p p' : Spec.Progress} {t t' : String}
    (h : "Command " ++ Spec.tagText g ++ "(" ++ p.text ++ ")" ++ t =
      "Command " ++ Spec.tagText g' ++ "(" ++ p'.text ++ ")" ++ t') : p = p' ∧ g = g' ∧ t = t' := by
  have h := congrArg String.toList h
  simp only [String.toList_append] at h
  simp only [List.append_assoc, List.append_cancel_left_eq] at h
  have hrepr : ∀ t : U8, ' ' ∉ (toString t.toNat).toList := by decide +kernel
  have hinj : ∀ t t' : U8, (toString t.toNat).toList = (toString t'.toNat).toList → t = t' := by
    have : ∀ t : U8, (toString t.toNat).toList.foldl (fun (n : Nat) (c : Char) => 10 * n + (c.toNat - 48)) 0 = t.toNat := by
      decide +kernel
    intro t t' h
    have h := congrArg (List.foldl (fun (n : Nat) (c : Char) => 10 * n + (c.toNat - 48)) 0) h
    rw [this, this] at h
    exact BitVec.eq_of_toNat_eq h
  have hword : ∀ (p p' : Spec.Progress) (x y : List Char),
      p.text.toList ++ (")".toList ++ x) = p'.text.toList ++ (")".toList ++ y) → p = p' ∧ x = y := by
    intro p p' x y
    cases p <;> cases p' <;> simp [Spec.Progress.text]
  cases g with
  | none =>
    cases g' with
    | none =>
      simp only [Spec.tagText, List.append_cancel_left_eq] at h
      obtain ⟨h1, h2⟩ := hword _ _ _ _ h
      exact ⟨h1, rfl, String.toList_inj.1 h2⟩
    | some u => simp [Spec.tagText] at h
  | some u =>
    cases g' with
    | none => simp [Spec.tagText] at h
    | some u' =>
      simp only [Spec.tagText, String.toList_append, List.append_assoc, List.append_cancel_left_eq] at h
      obtain ⟨h1, h2⟩ := splitAtChar (hrepr u) (hrepr u') h
      have h2 : "(".toList ++ (p.text.toList ++ (")".toList ++ t.toList)) =
          "(".toList ++ (p'.text.toList ++ (")".toList ++ t'.toList)) := h2
      rw [List.append_cancel_left_eq] at h2
      obtain ⟨h3, h4⟩ := hword _ _ _ _ h2
      exact ⟨h3, by rw [hinj u u' h1], String.toList_inj.1 h4⟩

theorem Spec.tail_head (dbg : Action → String) (itf : InterfaceStatus → String) (acts : List Action)
    (st : Option InterfaceStatus) :
    ((Spec.actionsText dbg acts ++ Spec.statusText itf acts st).toList.head? = some '\n' ↔ acts ≠ []) ∧
    (acts = [] → ((Spec.actionsText dbg acts ++ Spec.statusText itf acts st).toList = [] ↔ st = none)) := by
  cases acts <;> cases st <;> simp [Spec.actionsText, Spec.statusText, String.toList_append]

/-- **C45** The text tells the states apart: same text, same tag and same progress, and actions listed
in both or in none; without actions to list, an interface status is shown in both or in none. -/
theorem C45_unambiguous (dbg dbg' : Action → String) (itf itf' : InterfaceStatus → String)
    (c c' : Command) (p p' : Spec.Progress) (hp : Spec.HasProgress c p) (hp' : Spec.HasProgress c' p')
    (g g' : Option U8) (hg : Spec.HasTag c g) (hg' : Spec.HasTag c' g')
    (h : c.display dbg itf = c'.display dbg' itf') : p = p' ∧ g = g' ∧
      ((∃ a ∈ c.actions, Spec.interfaceStatus? a = none) ↔
        ∃ a ∈ c'.actions, Spec.interfaceStatus? a = none) ∧
      (c.actions = [] ↔ c'.actions = []) := by
  obtain ⟨q, u, st, hq, hu, hst, ht⟩ := C45_text dbg itf c
  obtain ⟨q', u', st', hq', hu', hst', ht'⟩ := C45_text dbg' itf' c'
  cases Spec.hasTag_unique hg hu
  cases Spec.hasTag_unique hg' hu'
  obtain ⟨t, htt⟩ : ∃ t, t = Spec.actionsText dbg (Spec.proper c) ++ Spec.statusText itf (Spec.proper c) st := ⟨_, rfl⟩
  obtain ⟨t', htt'⟩ : ∃ t, t = Spec.actionsText dbg' (Spec.proper c') ++ Spec.statusText itf' (Spec.proper c') st' :=
    ⟨_, rfl⟩
  rw [String.append_assoc, ← htt] at ht
  rw [String.append_assoc, ← htt'] at ht'
  have hnil : ∀ c : Command, Spec.proper c ≠ [] ↔ ∃ a ∈ c.actions, Spec.interfaceStatus? a = none := by
    intro c
    simp [Spec.proper]
  have hempty : ∀ (c : Command) st, Spec.IsFirst Spec.interfaceStatus? c.actions st →
      (c.actions = [] ↔ Spec.proper c = [] ∧ st = none) := by
    intro c st h
    constructor
    · intro h0
      refine ⟨by simp [Spec.proper, h0], ?_⟩
      cases st with
      | none => rfl
      | some s => obtain ⟨pre, a, post, he, -⟩ := h; simp [h0] at he
    · rintro ⟨h0, rfl⟩
      apply Classical.byContradiction
      intro hne
      obtain ⟨a, ha⟩ := List.exists_mem_of_ne_nil _ hne
      exact (hnil c).2 ⟨a, ha, h a ha⟩ h0
  have hshow : t.toList = t'.toList → ((∃ a ∈ c.actions, Spec.interfaceStatus? a = none) ↔
        ∃ a ∈ c'.actions, Spec.interfaceStatus? a = none) ∧ (c.actions = [] ↔ c'.actions = []) := by
    intro he
    have h1 := Spec.tail_head dbg itf (Spec.proper c) st
    have h2 := Spec.tail_head dbg' itf' (Spec.proper c') st'
    rw [← htt] at h1
    rw [← htt', ← he] at h2
    have hiff : Spec.proper c ≠ [] ↔ Spec.proper c' ≠ [] := h1.1.symm.trans h2.1
    refine ⟨(hnil c).symm.trans (hiff.trans (hnil c')), ?_⟩
    rw [hempty c st hst, hempty c' st' hst']
    constructor
    · rintro ⟨h0, hs⟩
      have h0' : Spec.proper c' = [] := by
        apply Classical.byContradiction
        intro hn; exact hiff.2 hn h0
      exact ⟨h0', (h2.2 h0').1 ((h1.2 h0).2 hs)⟩
    · rintro ⟨h0', hs⟩
      have h0 : Spec.proper c = [] := by
        apply Classical.byContradiction
        intro hn; exact hiff.1 hn h0'
      exact ⟨h0, (h1.2 h0).1 ((h2.2 h0').2 hs)⟩
  cases Spec.hasProgress_unique hp hq
  cases Spec.hasProgress_unique hp' hq'
  rw [ht, ht'] at h
  obtain ⟨h1, h2, h3⟩ := Spec.split_text h
  exact ⟨h1, h2, hshow (by rw [h3])⟩

example : response.display (fun _ => "?") (fun _ => "!") =
    "Command with tag 7 (completed, with error)\n\tactions:\n\t\t?\n\t\t?\n\t\t?\n\t\t?\n\n\tinterface status: !\n" := by
  decide +kernel

#print axioms C17_interface_status
#print axioms C17_request_tag
#print axioms C17_response_tag
#print axioms C17_ids
#print axioms C17_without_interface_status
#print axioms C45_text
#print axioms C45_unambiguous

end Dash7
