import Verif.Props.Accessors
import Verif.Props.Normalise

/-!
# C87: passing on a part of what was received
-/

namespace Dash7
open Sample

theorem List.mem_dropLast_filter {α : Type} {p : α → Bool} {a : α} :
    ∀ {l : List α}, a ∈ (l.filter p).dropLast → a ∈ l.dropLast := by
  intro l
  induction l with
  | nil => simp
  | cons x xs ih =>
    intro h
    cases hx : xs with
    | nil =>
      subst hx
      cases hp : p x <;> simp [hp] at h
    | cons y ys =>
      rw [← hx]
      have hne : xs ≠ [] := by simp [hx]
      rw [List.dropLast_cons_of_ne_nil hne]
      cases hp : p x with
      | false =>
        rw [List.filter_cons_of_neg (by simp [hp])] at h
        exact List.mem_cons_of_mem _ (ih h)
      | true =>
        rw [List.filter_cons_of_pos hp] at h
        cases hf : xs.filter p with
        | nil => rw [hf] at h; simp at h
        | cons z zs =>
          rw [List.dropLast_cons_of_ne_nil (by simp [hf])] at h
          rcases List.mem_cons.1 h with rfl | h
          · exact List.mem_cons_self
          · exact List.mem_cons_of_mem _ (ih h)

theorem Decoded.filter_sum (ps : List (Action × Nat)) (keep : Action → Bool) :
    ((ps.filter fun p => keep p.1).map Prod.fst) = (ps.map Prod.fst).filter keep ∧
      ((ps.filter fun p => keep p.1).map Prod.snd).sum ≤ (ps.map Prod.snd).sum := by
  induction ps with
  | nil => simp
  | cons p ps ih =>
    cases hk : keep p.1 with
    | true => simp [hk, ih.1, ih.2]
    | false =>
      simp only [List.filter_cons, hk, List.map_cons, List.sum_cons]
      exact ⟨ih.1, by have := ih.2; simp at this ⊢; omega⟩

/-- **C87** Whichever actions of a received command are kept, in the order they came in: what is left
can be encoded, decodes to just that, and is not longer than what was received, apart from one byte
for each large system file kept. Statuses of unknown interfaces must not be kept, and the command must
not hold a TX status. -/
theorem C87_select_partial (cfg : Cfg) (data : List U8) (c : Command)
    (h : Command.tryFrom cfg data = .ok c) (ht : ∀ a ∈ c.actions, a.isTx = false)
    (keep : Action → Bool) (hk : ∀ a ∈ c.actions, keep a = true → a.isOther = false) :
    ∃ bytes, (Command.mk (c.actions.filter keep)).toBytes cfg = .ok bytes ∧
      Command.tryFrom cfg bytes = .ok ⟨c.actions.filter keep⟩ ∧
      bytes.length ≤ data.length + (c.actions.filter keep).countP Spec.holdsLargeFile := by
  obtain ⟨n, hf⟩ := Command.tryFrom_fromBytes h
  obtain ⟨p, q, -, hR, -, hind, -⟩ := Command.fromBytes_conv hf ht
  obtain ⟨bytes, hb, hb'⟩ := C01_command_roundtrip cfg ⟨c.actions.filter keep⟩
    ⟨fun a ha => by
      obtain ⟨h1, h2⟩ := List.mem_filter.1 ha
      exact hR.wf a h1 (hk a h1 h2),
    fun a ha => hind a (List.mem_dropLast_filter ha)⟩
  refine ⟨bytes, hb, hb', ?_⟩
  obtain ⟨ps, hps, hd, hsum⟩ := Command.fromBytes_decoded hf
  obtain ⟨e1, e2⟩ := Decoded.filter_sum ps keep
  obtain ⟨bs, hbs, hlen⟩ := Decoded.write_list (ps := ps.filter fun p => keep p.1)
    fun p hp => hd p (List.mem_filter.1 hp).1
  rw [e1, ← hps] at hbs hlen
  have hb2 : W.toBytes (W.list (Action.write cfg) (c.actions.filter keep)) = .ok bytes := hb
  rw [hbs] at hb2
  cases hb2
  rw [packBits_length]
  omega

/-- **C87** Actions of several received commands can be put together, in any order and any number of times, to
one that can be sent and is decoded to just these actions; an indirect forward can only be the last. -/
theorem C87_merge_partial (cfg : Cfg) (as : List Action)
    (h : ∀ a ∈ as, ∃ data c, Command.tryFrom cfg data = .ok c ∧ (∀ b ∈ c.actions, b.isTx = false) ∧
      a ∈ c.actions ∧ a.isOther = false)
    (hl : Spec.forwardLast as) :
    ∃ bytes, (Command.mk as).toBytes cfg = .ok bytes ∧ Command.tryFrom cfg bytes = .ok ⟨as⟩ := by
  refine C01_command_roundtrip cfg ⟨as⟩ ⟨fun a ha => ?_, hl⟩
  obtain ⟨data, c, hc, ht, hm, ho⟩ := h a ha
  obtain ⟨n, hf⟩ := Command.tryFrom_fromBytes hc
  obtain ⟨p, q, -, hR, -⟩ := Command.fromBytes_conv hf ht
  exact hR.wf a hm ho

theorem Spec.isOther_status {a : Action} (h : a.isOther = true) : Spec.interfaceStatus? a ≠ none := by
  cases a with
  | status o =>
    obtain ⟨t, op, st⟩ := o
    cases st <;> simp_all [Action.isOther, Op.Status.isOther, Spec.interfaceStatus?]
  | _ => simp [Action.isOther] at h

/-- **C87** In particular a received command can be passed on without the statuses of its interfaces,
of unknown interfaces too. -/
theorem C87_pass_on_partial (cfg : Cfg) (data : List U8) (c : Command)
    (h : Command.tryFrom cfg data = .ok c) (ht : ∀ a ∈ c.actions, a.isTx = false) :
    ∃ bytes, (Command.mk c.actionsWithoutInterfaceStatus).toBytes cfg = .ok bytes ∧
      Command.tryFrom cfg bytes = .ok ⟨c.actionsWithoutInterfaceStatus⟩ ∧
      bytes.length ≤ data.length + c.actions.countP Spec.holdsLargeFile := by
  rw [C17_without_interface_status]
  obtain ⟨bytes, h1, h2, h3⟩ := C87_select_partial cfg data c h ht
    (fun a => (Spec.interfaceStatus? a).isNone) fun a _ hn => by
      cases ho : a.isOther with
      | false => rfl
      | true => exact absurd (Option.isNone_iff_eq_none.1 hn) (Spec.isOther_status ho)
  have := (List.filter_sublist (p := fun a => (Spec.interfaceStatus? a).isNone)
    (l := c.actions)).countP_le (p := Spec.holdsLargeFile)
  exact ⟨bytes, h1, h2, by omega⟩

theorem Spec.isFirst_filter {α : Type} {f : Action → Option α} {p : Action → Bool} {as : List Action}
    (hp : ∀ a, f a ≠ none → p a = true) {o : Option α} (h : Spec.IsFirst f as o) :
    Spec.IsFirst f (as.filter p) o := by
  cases o with
  | none => exact fun a ha => h a (List.mem_filter.1 ha).1
  | some x =>
    obtain ⟨before, a, after, rfl, hb, ha⟩ := h
    refine ⟨before.filter p, a, after.filter p, ?_, fun b hb' => hb b (List.mem_filter.1 hb').1, ha⟩
    simp [List.filter_append, hp a (by simp [ha])]

/-- **C87** What is passed on is answered like what was received: the tags stay what they were, no
status is left, and taking the statuses out once more changes nothing. -/
theorem C87_tags (c : Command) :
    let c' : Command := ⟨c.actionsWithoutInterfaceStatus⟩
    c'.requestTag = c.requestTag ∧ c'.responseTag = c.responseTag ∧ c'.tagId = c.tagId ∧
      c'.isLastResponse = c.isLastResponse ∧ c'.interfaceStatus = none ∧
      c'.actionsWithoutInterfaceStatus = c'.actions := by
  intro c'
  have hc' : c'.actions = c.actions.filter fun a => (Spec.interfaceStatus? a).isNone :=
    C17_without_interface_status c
  have key : ∀ {α : Type} {f : Action → Option α} {o o' : Option α},
      (∀ a, f a ≠ none → (Spec.interfaceStatus? a).isNone = true) → Spec.IsFirst f c.actions o →
      Spec.IsFirst f c'.actions o' → o' = o := by
    intro α f o o' hp h h'
    rw [hc'] at h'
    exact Spec.isFirst_unique h' (Spec.isFirst_filter hp h)
  have hq : ∀ a, Spec.requestTag? a ≠ none → (Spec.interfaceStatus? a).isNone = true := by
    intro a h; cases a <;> first | rfl | exact absurd rfl h
  have hs : ∀ a, Spec.responseTag? a ≠ none → (Spec.interfaceStatus? a).isNone = true := by
    intro a h; cases a <;> first | rfl | exact absurd rfl h
  have h1 := key hq (C17_request_tag c) (C17_request_tag c')
  have h2 := key hs (C17_response_tag c) (C17_response_tag c')
  refine ⟨h1, h2, ?_, ?_, ?_, ?_⟩
  · simp only [Command.tagId, Command.requestId, Command.responseId, h1, h2]
  · obtain ⟨-, -, h3, h4⟩ := C17_ids c
    obtain ⟨-, -, h3', h4'⟩ := C17_ids c'
    have hr := C17_response_tag c
    have hr' := C17_response_tag c'
    rw [h2] at hr'
    cases ho : c.responseTag with
    | some o => rw [ho] at hr hr'; rw [(h3 o hr).2, (h3' o hr').2]
    | none => rw [ho] at hr hr'; rw [(h4 hr).2, (h4' hr').2]
  · refine Spec.isFirst_unique (C17_interface_status c') fun a ha => ?_
    rw [hc'] at ha
    exact Option.isNone_iff_eq_none.1 (List.mem_filter.1 ha).2
  · rw [C17_without_interface_status, hc', List.filter_filter]
    simp

/-- **C87** fails for a command holding a TX status (wizzilab): what is passed on does not decode. -/
theorem C87_tx_violates :
    ∃ data c bytes, Command.tryFrom wizzilab data = .ok c ∧
      (Command.mk c.actionsWithoutInterfaceStatus).toBytes wizzilab = .ok bytes ∧
      ∃ e, Command.tryFrom wizzilab bytes = .error e :=
  ⟨[0x66, 0x00, 0x40, 0x00, 0x00],
    ⟨[.txStatus ⟨⟨0⟩, ⟨0x10, .other []⟩⟩, .nop ⟨⟨false, false⟩, ⟨0⟩⟩]⟩, [64, 152, 64, 0, 0],
    by decide +kernel, by decide +kernel, .fault .invalidParam, by decide +kernel⟩

/-- A response with the status of an unknown interface: as a whole it cannot be passed on
(`C03_other_status_violates`), without the status it can. -/
example :
    let c : Command := ⟨[.responseTag ⟨⟨true, false⟩, ⟨35⟩, 7⟩,
      .status ⟨.interface, ⟨34⟩, .interface ⟨.unknown, .other [0x01, 0xBB]⟩⟩,
      .returnFileData ⟨⟨false, false⟩, ⟨32⟩, ⟨0x41, ⟨5⟩⟩, .other [1, 2]⟩]⟩
    let data : List U8 := [0xA3, 7, 0x62, 0x40, 0x02, 0x01, 0xBB, 0x20, 0x41, 0x05, 2, 1, 2]
    Command.tryFrom spec data = .ok c ∧ (∀ a ∈ c.actions, a.isTx = false) ∧
      (Command.mk c.actionsWithoutInterfaceStatus).toBytes spec =
        .ok [0xA3, 7, 0x20, 0x41, 0x05, 2, 1, 2] ∧ c.tagId = some 7 := by
  decide +kernel

#print axioms C87_select_partial
#print axioms C87_merge_partial
#print axioms C87_pass_on_partial
#print axioms C87_tags
#print axioms C87_tx_violates

end Dash7
