import Verif.Spec.Retag
import Verif.Props.FrameAccept
import Verif.Props.Layout
import Verif.Props.Samples

/-!
# C82: the bits in front of the opcode can be changed in place
-/

namespace Dash7
open Spec Sample

theorem ofBytes_withTop (x y : Bool) (b : U8) (rest : List U8) :
    ∃ p q s, Form.ofBytes (b :: rest) = p :: q :: s ∧ Form.ofBytes (withTop x y b :: rest) = x :: y :: s := by
  refine ⟨_, _, _, rfl, ?_⟩
  have h : ∀ x y b, [(withTop x y b).getLsbD 7, (withTop x y b).getLsbD 6, (withTop x y b).getLsbD 5,
      (withTop x y b).getLsbD 4, (withTop x y b).getLsbD 3, (withTop x y b).getLsbD 2, (withTop x y b).getLsbD 1,
      (withTop x y b).getLsbD 0] = [x, y, b.getLsbD 5, b.getLsbD 4, b.getLsbD 3, b.getLsbD 2, b.getLsbD 1, b.getLsbD 0] := by
    decide +kernel
  show [_, _, _, _, _, _, _, _] ++ _ = _
  rw [h]
  rfl

theorem Form.ofBytes_append (a b : List U8) : Form.ofBytes (a ++ b) = Form.ofBytes a ++ Form.ofBytes b := by
  simp [Form.ofBytes]

theorem Form.all_two {F : Form} {fs : List Form} {a b : Bool} {s : List Bool}
    (hF : ∀ c, F c → c.length = 2) (h : Form.all (F :: fs) (a :: b :: s)) : F [a, b] ∧ Form.all fs s := by
  obtain ⟨u, v, hc, hu, hv⟩ := h
  have hl := hF u hu
  match u, hl with
  | [p, q], _ =>
    simp only [List.cons_append, List.nil_append, List.cons.injEq] at hc
    obtain ⟨rfl, rfl, rfl⟩ := hc
    exact ⟨hu, hv⟩

theorem Form.all_bit {F : Form} {fs : List Form} {a : Bool} {s : List Bool}
    (hF : ∀ c, F c → c.length = 1) (h : Form.all (F :: fs) (a :: s)) : F [a] ∧ Form.all fs s := by
  obtain ⟨u, v, hc, hu, hv⟩ := h
  have hl := hF u hu
  match u, hl with
  | [p], _ =>
    simp only [List.cons_append, List.nil_append, List.cons.injEq] at hc
    obtain ⟨rfl, rfl⟩ := hc
    exact ⟨hu, hv⟩

theorem Form.flags_length {a b : Bool} (c : List Bool) (h : Form.all [Form.flag a, Form.flag b] c) : c.length = 2 := by
  obtain ⟨_, _, rfl, rfl, _, _, rfl, rfl, rfl⟩ := h
  rfl

theorem Form.flags (a b : Bool) : Form.all [Form.flag a, Form.flag b] [a, b] :=
  ⟨[a], [b], rfl, rfl, [b], [], rfl, rfl, rfl⟩

theorem Form.retag_flags {g r p q : Bool} {fs : List Form} {s : List Bool} (x y : Bool)
    (h : Form.all (Form.all [Form.flag g, Form.flag r] :: fs) (p :: q :: s)) :
    Form.all (Form.all [Form.flag x, Form.flag y] :: fs) (x :: y :: s) :=
  ⟨[x, y], s, rfl, Form.flags x y, (Form.all_two Form.flags_length h).2⟩

theorem Form.retag_field {n m : Nat} {p q : Bool} {fs : List Form} {s : List Bool} (x y : Bool)
    (hm : Form.value [x, y] = m) (h : Form.all (Form.field 2 n :: fs) (p :: q :: s)) :
    Form.all (Form.field 2 m :: fs) (x :: y :: s) :=
  ⟨[x, y], s, rfl, ⟨rfl, hm⟩, (Form.all_two (fun _ h => h.1) h).2⟩

/-- The forms of an action with other bits in front of the opcode are the forms of the action with other bits. -/
theorem Form.retag {cfg : Cfg} {a a' : Action} {p q x y : Bool} {s : List Bool}
    (h : Form.action cfg a (p :: q :: s)) (hr : Spec.retag x y a = some a') : Form.action cfg a' (x :: y :: s) := by
  cases a <;> first
    | (cases hr; done)
    | (simp only [Spec.retag, Option.some.injEq] at hr
       subst hr
       first
         | exact Form.retag_flags x y h
         | exact Form.retag_field x y (by cases x <;> cases y <;> rfl) h
         | exact ⟨[x], y :: s, rfl, rfl, [y], s, rfl, rfl,
             (Form.all_bit (fun _ h => congrArg List.length h) (Form.all_bit (fun _ h => h) h).2).2⟩
         | exact ⟨[x], y :: s, rfl, rfl, [y], s, rfl, rfl,
             (Form.all_bit (fun _ h => h) (Form.all_bit (fun _ h => congrArg List.length h) h).2).2⟩)
    | (simp only [Spec.retag] at hr
       split at hr
       · rename_i hx
         simp only [Option.some.injEq] at hr
         subst hr hx
         exact Form.retag_flags _ y h
       · cases hr)

theorem retag_isTx {a a' : Action} {x y : Bool} (hr : Spec.retag x y a = some a') : a.isTx = false ∧ a'.isTx = false := by
  cases a <;> simp only [Spec.retag] at hr <;> first
    | (cases hr; done)
    | (cases hr; exact ⟨rfl, rfl⟩)
    | (split at hr <;> cases hr; exact ⟨rfl, rfl⟩)

/-- **C82** Whatever the bytes of an action are (they need not be those this crate writes), the two bits in front of the
opcode can be changed in place: the same action comes out, with these flags. -/
theorem C82_action (cfg : Cfg) (b : U8) (rest : List U8) (a a' : Action) (x y : Bool)
    (h : Action.tryFrom cfg (b :: rest) = .ok a) (hr : retag x y a = some a') :
    Action.tryFrom cfg (withTop x y b :: rest) = .ok a' := by
  obtain ⟨wire, junk, hs, hF, hl⟩ := (C54_try_from cfg _ a).1 h
  obtain ⟨p, q, s, h1, h2⟩ := ofBytes_withTop x y b rest
  obtain ⟨t1, t2⟩ := retag_isTx hr
  rw [t1] at hl
  have h8 : 8 ≤ wire.length := by
    have := (Action.form_dvd hF t1)
    omega
  match wire, h8 with
  | u :: v :: w, _ =>
    rw [h1] at hs
    simp only [List.cons_append, List.cons.injEq] at hs
    obtain ⟨rfl, rfl, rfl⟩ := hs
    exact (C54_try_from cfg _ a').2 ⟨x :: y :: w, junk, h2, Form.retag hF hr, by rw [t2]; exact hl⟩

/-! ## Writing -/

/-- The first byte differs in the upper bits. -/
def SameBut (x y : Bool) (p q : Option (List U8)) : Prop :=
  ∀ b bs, p = some (b :: bs) → q = some (withTop x y b :: bs)

theorem SameBut.join {x y : Bool} {c d : U8} {ps : List (Option (List U8))} (h : withTop x y c = d) :
    SameBut x y (Wire.join (some [c] :: ps)) (Wire.join (some [d] :: ps)) := by
  intro b bs hb
  unfold Wire.join at hb ⊢
  cases hj : Wire.join ps with
  | none => rw [hj] at hb; cases hb
  | some t =>
    rw [hj] at hb
    cases hb
    rw [h]
    rfl

theorem SameBut.single {x y : Bool} {c d : U8} (h : withTop x y c = d) : SameBut x y (some [c]) (some [d]) := by
  intro b bs hb
  cases hb
  rw [h]

theorem withTop_withTop (x y g r : Bool) (c : U8) : withTop x y (withTop g r c) = withTop x y c := by
  revert x y g r c
  decide +kernel

theorem action1_eq (g r : Bool) (code : Nat) (h : code < 64) : ∃ c : U8, Wire.action1 g r code = some [c] ∧
    ∀ x y, ∃ d : U8, Wire.action1 x y code = some [d] ∧ withTop x y c = d := by
  have key : ∀ (k : Fin 64) (g r : Bool), Wire.action1 g r k = some [withTop g r (BitVec.ofNat 8 k)] := by
    decide +kernel
  exact ⟨_, key ⟨code, h⟩ g r, fun x y => ⟨_, key ⟨code, h⟩ x y, withTop_withTop ..⟩⟩

theorem SameBut.flags {g r x y : Bool} {code : Nat} {ps : List (Option (List U8))} (h : code < 64) :
    SameBut x y (Wire.join (Wire.action1 g r code :: ps)) (Wire.join (Wire.action1 x y code :: ps)) := by
  obtain ⟨c, hc, hd⟩ := action1_eq g r code h
  obtain ⟨d, hd, he⟩ := hd x y
  rw [hc, hd]
  exact .join he

theorem SameBut.flag {g r x y : Bool} {code : Nat} (h : code < 64) :
    SameBut x y (Wire.action1 g r code) (Wire.action1 x y code) := by
  obtain ⟨c, hc, hd⟩ := action1_eq g r code h
  obtain ⟨d, hd, he⟩ := hd x y
  rw [hc, hd]
  exact .single he

theorem SameBut.step (t : Op.ChunkStep) (x y : Bool) : SameBut x y (Wire.byte [(2, Wire.chunkStep t), (6, 48)])
    (Wire.byte [(2, Wire.chunkStep (stepOf x y)), (6, 48)]) := by
  cases t <;> cases x <;> cases y <;> exact SameBut.single (by decide)

theorem SameBut.logic (t : Op.LogicOp) (x y : Bool) : SameBut x y (Wire.byte [(2, Wire.logicOp t), (6, 49)])
    (Wire.byte [(2, Wire.logicOp (logicOf x y)), (6, 49)]) := by
  cases t <;> cases x <;> cases y <;> exact SameBut.single (by decide)

theorem Wire.retag {v : Variant} {big : Bool} {a a' : Action} {x y : Bool} (hr : Spec.retag x y a = some a') :
    SameBut (writtenTop x y a).1 (writtenTop x y a).2 (Wire.action v big a) (Wire.action v big a') := by
  cases a
  case status => cases hr
  case txStatus => cases hr
  case chunk o => cases hr; exact SameBut.step o.step x y
  case logic o => cases hr; exact SameBut.logic o.logic x y
  case nop o => cases hr; exact SameBut.flag (by decide)
  case extension o => cases hr; exact SameBut.flag (by decide)
  case indirectForward o =>
    simp only [Spec.retag] at hr
    split at hr
    · cases hr; exact SameBut.flags (by decide)
    · cases hr
  all_goals
    cases hr
    simp only [Wire.action, Wire.fileId, Wire.fileData, Wire.fileProperties, Wire.actionQuery, Wire.header]
    exact SameBut.flags (by decide)

/-- **C82** The same holds for the bytes written: the action with other flags is written as the same bytes but for these
bits of the first one. -/
theorem C82_written (cfg : Cfg) (b : U8) (bs : List U8) (a a' : Action) (x y : Bool)
    (h : a.toBytes cfg = .ok (b :: bs)) (hr : retag x y a = some a') :
    a'.toBytes cfg = .ok (withTop (writtenTop x y a).1 (writtenTop x y a).2 b :: bs) := by
  obtain ⟨t1, t2⟩ := retag_isTx hr
  rw [C51_action_layout cfg a t1] at h
  rw [C51_action_layout cfg a' t2]
  cases hw : Wire.action cfg.variant cfg.bigEndianHost a with
  | none => rw [hw] at h; cases h
  | some w =>
    rw [hw] at h
    cases h
    rw [Wire.retag hr b bs hw]
    rfl

theorem Form.actions_append {cfg : Cfg} {as bs : List Action} {v w : List Bool} (h1 : Form.actions cfg as v)
    (h2 : Form.actions cfg bs w) : Form.actions cfg (as ++ bs) (v ++ w) := by
  induction as generalizing v with
  | nil => cases h1; exact h2
  | cons a as ih =>
    obtain ⟨u, t, rfl, hu, ht⟩ := h1
    exact ⟨u, t ++ w, by simp, hu, ih ht⟩

theorem Form.actions_split {cfg : Cfg} {as bs : List Action} {w : List Bool} (h : Form.actions cfg (as ++ bs) w) :
    ∃ u v, w = u ++ v ∧ Form.actions cfg as u ∧ Form.actions cfg bs v := by
  induction as generalizing w with
  | nil => exact ⟨[], w, rfl, rfl, h⟩
  | cons a as ih =>
    obtain ⟨u, t, rfl, hu, ht⟩ := h
    obtain ⟨v, z, rfl, hv, hz⟩ := ih ht
    exact ⟨u ++ v, z, by simp, ⟨u, v, rfl, hu, hv⟩, hz⟩

theorem Form.actions_unique {cfg : Cfg} {as : List Action} {u v x y : List Bool} (h1 : Form.actions cfg as u)
    (h2 : Form.actions cfg as v) (h : u ++ x = v ++ y) : u = v := by
  induction as generalizing u v with
  | nil => cases h1; cases h2; rfl
  | cons a as ih =>
    obtain ⟨u, t, rfl, hu, ht⟩ := h1
    obtain ⟨v, s, rfl, hv, hs⟩ := h2
    rw [List.append_assoc, List.append_assoc] at h
    obtain ⟨-, rfl⟩ := C54_unambiguous cfg a a _ _ _ _ hu hv h
    rw [ih ht hs (List.append_cancel_left h)]

theorem retag_forward {a a' : Action} {x y : Bool} (hr : Spec.retag x y a = some a') :
    a'.isIndirectForward = a.isIndirectForward := by
  cases a <;> simp only [Spec.retag] at hr <;> first
    | (cases hr; done)
    | (cases hr; rfl)
    | (split at hr <;> cases hr; rfl)

theorem forwardLast_swap {as cs : List Action} {a a' : Action} (h : a'.isIndirectForward = a.isIndirectForward)
    (hf : Spec.forwardLast (as ++ a :: cs)) : Spec.forwardLast (as ++ a' :: cs) := by
  unfold Spec.forwardLast at hf ⊢
  intro c hc
  rw [List.dropLast_append_cons] at hf hc
  cases cs with
  | nil => exact hf c (by simpa using hc)
  | cons d ds =>
    simp only [List.dropLast_cons_cons, List.mem_append, List.mem_cons] at hf hc
    rcases hc with hc | rfl | hc
    · exact hf c (.inl hc)
    · rw [h]; exact hf a (.inr (.inl rfl))
    · exact hf c (.inr (.inr hc))

theorem endsWithForward_swap {as cs : List Action} {a a' : Action} (h : a'.isIndirectForward = a.isIndirectForward)
    (hf : Spec.endsWithForward (as ++ a :: cs)) : Spec.endsWithForward (as ++ a' :: cs) := by
  obtain ⟨c, hc, hi⟩ := hf
  cases cs with
  | nil =>
    simp only [List.getLast?_append, List.getLast?_singleton, Option.some_or, Option.some.injEq] at hc
    subst hc
    exact ⟨a', by simp, by rw [h]; exact hi⟩
  | cons d ds => exact ⟨c, by simpa [List.getLast?_append] using hc, hi⟩

theorem not_forward_before {as cs : List Action} {a : Action} (hf : Spec.forwardLast (as ++ a :: cs)) :
    ¬ Spec.endsWithForward as := by
  rintro ⟨c, hc, hi⟩
  have := hf c (by rw [List.dropLast_append_cons]; exact List.mem_append_left _ (List.mem_of_getLast? hc))
  rw [this] at hi
  cases hi

/-- **C82** The same in the middle of a command: behind the bytes of other actions, the bits in front of an opcode can be
changed, and nothing else changes. -/
theorem C82_command (cfg : Cfg) (data : List U8) (b : U8) (rest : List U8) (as cs : List Action) (a a' : Action)
    (x y : Bool) (ht : ∀ c ∈ as ++ a :: cs, c.isTx = false) (h0 : Command.tryFrom cfg data = .ok ⟨as⟩)
    (h : Command.tryFrom cfg (data ++ b :: rest) = .ok ⟨as ++ a :: cs⟩) (hr : retag x y a = some a') :
    Command.tryFrom cfg (data ++ withTop x y b :: rest) = .ok ⟨as ++ a' :: cs⟩ := by
  obtain ⟨wire, junk, hd, hF, hf, hj⟩ := (C55_try_from_partial cfg _ _ ht).1 h
  obtain ⟨w0, j0, hd0, hF0, -, hj0⟩ :=
    (C55_try_from_partial cfg _ _ fun c hc => ht c (List.mem_append_left _ hc)).1 h0
  obtain rfl : j0 = [] := hj0.resolve_right fun h => not_forward_before hf h.1
  rw [List.append_nil] at hd0
  subst hd0
  obtain ⟨u, v, huv, hu, hv⟩ := Form.actions_split hF
  have hb := congrArg Form.ofBytes hd
  simp only [Form.ofBytes_append, huv, List.append_assoc] at hb
  obtain rfl := Form.actions_unique hF0 hu hb
  have hle : data.length ≤ wire.length := by
    have := congrArg List.length huv
    simp only [Form.ofBytes_eq, bytesBits_length, List.length_append] at this
    omega
  obtain ⟨wv, rfl⟩ : ∃ wv, wire = data ++ wv := by
    refine ⟨wire.drop data.length, ?_⟩
    have := congrArg (List.take data.length) hd
    rw [List.take_left, List.take_append_of_le_length hle] at this
    conv => lhs; rw [← List.take_append_drop data.length wire, ← this]
  rw [Form.ofBytes_append] at huv
  obtain rfl := List.append_cancel_left huv
  rw [List.append_assoc] at hd
  have hd := List.append_cancel_left hd
  obtain ⟨va, vc, hvv, hva, hvc⟩ := hv
  have h8 : 0 < va.length := (Action.form_dvd hva (retag_isTx hr).1).2
  have h8' : 8 ∣ va.length := (Action.form_dvd hva (retag_isTx hr).1).1
  cases wv with
  | nil => rw [show Form.ofBytes [] = [] from rfl] at hvv; have := congrArg List.length hvv; simp at this; omega
  | cons b' wr =>
    simp only [List.cons_append, List.cons.injEq] at hd
    obtain ⟨rfl, rfl⟩ := hd
    obtain ⟨p, q, s, h1, h2⟩ := ofBytes_withTop x y b wr
    rw [h1] at hvv
    match va, Nat.le_of_dvd h8 h8' with
    | c :: d :: va, _ =>
      simp only [List.cons_append, List.cons.injEq] at hvv
      obtain ⟨rfl, rfl, rfl⟩ := hvv
      refine (C55_try_from_partial cfg _ _ ?_).2
        ⟨data ++ withTop x y b :: wr, junk, by simp, ?_, forwardLast_swap (retag_forward hr) hf, ?_⟩
      · intro c hc
        simp only [List.mem_append, List.mem_cons] at hc ht
        rcases hc with hc | rfl | hc
        · exact ht c (.inl hc)
        · exact (retag_isTx hr).2
        · exact ht c (.inr (.inr hc))
      · rw [Form.ofBytes_append, h2]
        exact Form.actions_append hF0 ⟨x :: y :: va, vc, rfl, Form.retag hva hr, hvc⟩
      · refine hj.imp id fun h => ⟨endsWithForward_swap (retag_forward hr) h.1, ?_⟩
        simpa using h.2

/-- The response flag of a request to read a file (with an offset in a longer form than this crate writes) is set, the
group flag is cleared. -/
example : Action.tryFrom spec [0x81, 0x20, 0x40, 0x00, 0x04] =
      .ok (.readFileData ⟨⟨true, false⟩, ⟨1⟩, ⟨0x20, ⟨0⟩⟩, ⟨4⟩⟩) ∧ withTop false true 0x81 = 0x41 ∧
    Action.tryFrom spec [0x41, 0x20, 0x40, 0x00, 0x04] =
      .ok (.readFileData ⟨⟨false, true⟩, ⟨1⟩, ⟨0x20, ⟨0⟩⟩, ⟨4⟩⟩) := by decide +kernel

/-- A chunk that goes on becomes the last one. -/
example : (Action.chunk ⟨.continue, ⟨48⟩⟩).toBytes spec = .ok [0x30] ∧
    retag true false (.chunk ⟨.continue, ⟨48⟩⟩) = some (.chunk ⟨.end, ⟨48⟩⟩) ∧
    (Action.chunk ⟨.end, ⟨48⟩⟩).toBytes spec = .ok [0xB0] := by decide +kernel

/-- Behind a request tag, an action is asked to respond. -/
example : Command.tryFrom spec [0x34, 0x07] = .ok ⟨[.requestTag ⟨false, ⟨52⟩, 7⟩]⟩ ∧
    Command.tryFrom spec ([0x34, 0x07] ++ 0x10 :: [0x42, 0x00]) =
      .ok ⟨[.requestTag ⟨false, ⟨52⟩, 7⟩] ++ .existFile ⟨⟨false, false⟩, ⟨16⟩, 0x42⟩ :: [.nop ⟨⟨false, false⟩, ⟨0⟩⟩]⟩ ∧
    Command.tryFrom spec ([0x34, 0x07] ++ withTop false true 0x10 :: [0x42, 0x00]) =
      .ok ⟨[.requestTag ⟨false, ⟨52⟩, 7⟩] ++ .existFile ⟨⟨false, true⟩, ⟨16⟩, 0x42⟩ :: [.nop ⟨⟨false, false⟩, ⟨0⟩⟩]⟩ := by
  decide +kernel

/-- The first bit of an indirect forward is no flag of this kind: an overloading configuration would have to follow. -/
example : (Action.tryFrom spec [0x33, 0xD7]).isOk = true ∧
    Action.tryFrom spec [withTop true false 0x33, 0xD7] = .error .incomplete := by decide +kernel

#print axioms C82_action
#print axioms C82_written
#print axioms C82_command

end Dash7
