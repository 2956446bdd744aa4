import Verif.Spec.Redirect
import Verif.Lemmas.Items
import Verif.Props.Flip
import Verif.Props.Retag

/-!
# C96: the file or tag an action names can be changed in place
-/

namespace Dash7
open Spec Sample

/-- In every form of the first kind, the second byte can be replaced by `b`, which gives a form of the second. -/
def Second (b : U8) (F G : Form) : Prop :=
  ∀ c, F c → ∃ p q s, c = p ++ (q ++ s) ∧ p.length = 8 ∧ q.length = 8 ∧ G (p ++ (Form.ofBytes [b] ++ s))

theorem Form.field_own (b : U8) : Form.field 8 b.toNat (Form.ofBytes [b]) := by
  revert b; unfold Form.field; decide +kernel

namespace Second

theorem header {b : U8} {h : ActionHeader} {o : OpCode} {k n : Nat} {Fs : List Form} :
    Second b (Form.all (Form.header h :: Form.opcode o k :: Form.field 8 n :: Fs))
      (Form.all (Form.header h :: Form.opcode o k :: Form.field 8 b.toNat :: Fs)) := by
  rintro c ⟨u, _, rfl, hu, v, _, rfl, hv, q, s, rfl, hq, hs⟩
  have l1 := Form.flags_length u hu
  have l2 := hv.2.1
  exact ⟨u ++ v, q, s, by simp, by simp [l1, l2], hq.1, u, _, List.append_assoc _ _ _, hu, v, _, rfl, hv, _, s, rfl,
    Form.field_own b, hs⟩

theorem offset {b : U8} {h : ActionHeader} {o : OpCode} {k n : Nat} {Gs Fs Fs' : List Form}
    (hF : ∀ c, Form.all Fs c → Form.all Fs' c) :
    Second b (Form.all (Form.header h :: Form.opcode o k :: Form.all (Form.field 8 n :: Gs) :: Fs))
      (Form.all (Form.header h :: Form.opcode o k :: Form.all (Form.field 8 b.toNat :: Gs) :: Fs')) := by
  rintro c ⟨u, _, rfl, hu, v, _, rfl, hv, _, s, rfl, ⟨q, g, rfl, hq, hg⟩, hs⟩
  have l1 := Form.flags_length u hu
  have l2 := hv.2.1
  exact ⟨u ++ v, q, g ++ s, by simp, by simp [l1, l2], hq.1, u, _, List.append_assoc _ _ _, hu, v, _, rfl, hv,
    Form.ofBytes [b] ++ g, s, by simp, ⟨_, g, rfl, Form.field_own b, hg⟩, hF s hs⟩

theorem fileData {big : Bool} {b : U8} {o o' : Op.FileData} {k : Nat} (h : withFile b o = some o') :
    Second b (Form.fileData big k o) (Form.fileData big k o') := by
  unfold withFile at h
  split at h
  case h_2 => cases h
  rename_i f hf
  cases h
  refine Second.offset fun c => ?_
  rintro ⟨w, _, rfl, ⟨n, l, s, rfl, hl, t, _, rfl, ht, rfl⟩, rfl⟩
  refine ⟨_, [], rfl, ⟨n, l, _, rfl, hl, t, [], rfl, ?_, rfl⟩, rfl⟩
  unfold inFile at hf
  split at hf
  · rename_i d hd
    split at hf
    · cases hf
    · rename_i hs
      cases hf
      rw [hd] at ht
      obtain ⟨g, t, rfl, ⟨rfl, -⟩, ht⟩ := ht
      exact ⟨[], t, rfl, ⟨rfl, hs⟩, ht⟩
  · rename_i i p hd
    split at hf
    · rename_i hi
      cases hf
      rw [hd] at ht
      obtain ⟨g, t, rfl, ⟨rfl, -⟩, ht⟩ := ht
      exact ⟨[], t, rfl, ⟨rfl, by show b.toNat = 0x20 + (b.toNat - 0x20); omega⟩, ht⟩
    · cases hf
  · cases hf

end Second

/-- The forms of a redirected action. -/
theorem Form.redirect {cfg : Cfg} {a a' : Action} {b : U8} (hr : Spec.redirect b a = some a') :
    Second b (Form.action cfg a) (Form.action cfg a') := by
  cases a <;> first
    | (cases hr; done)
    | (cases hr; exact Second.header)
    | (cases hr; exact Second.offset fun _ h => h)
    | (simp only [Spec.redirect, Option.map_eq_some_iff] at hr
       obtain ⟨o', ho, rfl⟩ := hr
       exact Second.fileData ho)
    | (cases hr
       rintro c ⟨u, _, rfl, hu, v, _, rfl, hv, q, s, rfl, hq, hs⟩
       have l1 := Form.flags_length u hu
       have l2 := hv.2.1
       exact ⟨u ++ v, q, s, by simp, by simp [l1, l2], hq.1, u, _, List.append_assoc _ _ _, hu, v, _, rfl, hv, _, s, rfl,
         Form.field_own b, hs⟩)
    | (cases hr
       rintro c ⟨u, _, rfl, rfl, w, _, rfl, hw, v, _, rfl, hv, q, s, rfl, hq, hs⟩
       have l1 : w.length = 1 := hw
       have l2 := hv.2.1
       exact ⟨[_] ++ (w ++ v), q, s, by rw [List.append_assoc, List.append_assoc], by simp [l1, l2], hq.1, [_], _, List.append_assoc _ _ _, rfl, w, _,
         List.append_assoc _ _ _, hw, v, _, rfl,
         hv, _, s, rfl, Form.field_own b, hs⟩)

theorem redirect_isTx {a a' : Action} {b : U8} (hr : Spec.redirect b a = some a') :
    a.isTx = false ∧ a'.isTx = false ∧ a.isIndirectForward = false ∧ a'.isIndirectForward = false := by
  cases a <;> first
    | (cases hr; done)
    | (cases hr; exact ⟨rfl, rfl, rfl, rfl⟩)
    | (simp only [Spec.redirect, Option.map_eq_some_iff] at hr
       obtain ⟨o', ho, rfl⟩ := hr
       exact ⟨rfl, rfl, rfl, rfl⟩)

/-- Bits of bytes, of which the second is replaced. -/
theorem ofBytes_second {x b0 b : U8} {rest : List U8} {p q s : List Bool}
    (h : Form.ofBytes (x :: b0 :: rest) = p ++ (q ++ s)) (hp : p.length = 8) (hq : q.length = 8) :
    Form.ofBytes (x :: b :: rest) = p ++ (Form.ofBytes [b] ++ s) := by
  have e : ∀ c : U8, Form.ofBytes (x :: c :: rest) = Form.ofBytes [x] ++ (Form.ofBytes [c] ++ Form.ofBytes rest) := by
    intro c
    rw [← Form.ofBytes_append, ← Form.ofBytes_append]; rfl
  have l : ∀ c : U8, (Form.ofBytes [c]).length = 8 := fun _ => rfl
  rw [e] at h ⊢
  obtain ⟨h1, h2⟩ := List.append_inj h (by rw [l, hp])
  obtain ⟨-, h3⟩ := List.append_inj h2 (by rw [l, hq])
  rw [h1, h3]

/-- **C96** Whatever the bytes of an action are (they need not be those this crate writes), the second one, if it is the id
of a file or a tag, can be replaced by another: the same action comes out, for that file or tag. -/
theorem C96_action (cfg : Cfg) (x b0 b : U8) (rest : List U8) (a a' : Action)
    (h : Action.tryFrom cfg (x :: b0 :: rest) = .ok a) (hr : redirect b a = some a') :
    Action.tryFrom cfg (x :: b :: rest) = .ok a' := by
  obtain ⟨wire, junk, hs, hF, hl⟩ := (C54_try_from cfg _ a).1 h
  obtain ⟨p, q, s, rfl, hp, hq, hG⟩ := Form.redirect hr wire hF
  obtain ⟨t1, t2, -⟩ := redirect_isTx hr
  rw [List.append_assoc, List.append_assoc] at hs
  refine (C54_try_from cfg _ a').2 ⟨_, junk, ?_, hG, ?_⟩
  · rw [ofBytes_second hs hp hq]; simp
  · rw [t1] at hl; rw [t2]
    simpa using hl

/-- In a command, the bytes of one action can be replaced by any others that are bytes of one. -/
theorem Command.exchange (cfg : Cfg) (data tail : List U8) (as cs : List Action) (a : Action)
    (ht : ∀ c ∈ as ++ a :: cs, c.isTx = false) (h0 : Command.tryFrom cfg data = .ok ⟨as⟩)
    (h : Command.tryFrom cfg (data ++ tail) = .ok ⟨as ++ a :: cs⟩) :
    ∃ wire rest, tail = wire ++ rest ∧ Form.action cfg a (Form.ofBytes wire) ∧
      ∀ wire' a', Form.action cfg a' (Form.ofBytes wire') → a'.isTx = false →
        a'.isIndirectForward = a.isIndirectForward →
        Command.tryFrom cfg (data ++ (wire' ++ rest)) = .ok ⟨as ++ a' :: cs⟩ := by
  obtain ⟨wire, junk, hd, hF, hf, hj⟩ := (C55_try_from_partial cfg _ _ ht).1 h
  obtain ⟨w0, j0, hd0, hF0, -, hj0⟩ :=
    (C55_try_from_partial cfg _ _ fun c hc => ht c (List.mem_append_left _ hc)).1 h0
  obtain rfl : j0 = [] := hj0.resolve_right fun h => not_forward_before hf h.1
  rw [List.append_nil] at hd0
  subst hd0
  obtain ⟨u, v, huv, hu, hv⟩ := Form.actions_split hF
  have hb := congrArg Form.ofBytes hd
  simp only [Form.ofBytes_append, huv, List.append_assoc] at hb
  obtain rfl := Form.actions_unique hF0 hu hb
  have hle : data.length ≤ wire.length := by
    have := congrArg List.length huv
    simp only [Form.ofBytes_eq, bytesBits_length, List.length_append] at this
    omega
  obtain ⟨wv, rfl⟩ : ∃ wv, wire = data ++ wv := by
    refine ⟨wire.drop data.length, ?_⟩
    have := congrArg (List.take data.length) hd
    rw [List.take_left, List.take_append_of_le_length hle] at this
    conv => lhs; rw [← List.take_append_drop data.length wire, ← this]
  rw [Form.ofBytes_append] at huv
  obtain rfl := List.append_cancel_left huv
  rw [List.append_assoc] at hd
  have hd := List.append_cancel_left hd
  obtain ⟨va, vc, hvv, hva, hvc⟩ := hv
  obtain ⟨n, hn⟩ := (Action.form_dvd hva (ht a (by simp))).1
  have hlen := congrArg List.length hvv
  rw [Form.ofBytes_length, List.length_append] at hlen
  have hsplit := List.take_append_drop n wv
  rw [← hsplit, Form.ofBytes_append] at hvv
  obtain ⟨e1, e2⟩ := List.append_inj hvv (by rw [Form.ofBytes_length, List.length_take]; omega)
  refine ⟨wv.take n, wv.drop n ++ junk, by rw [← List.append_assoc, hsplit]; exact hd, by rw [e1]; exact hva, ?_⟩
  intro wire' a' hw' hx' hi'
  refine (C55_try_from_partial cfg _ _ ?_).2
    ⟨data ++ (wire' ++ wv.drop n), junk, by simp, ?_, forwardLast_swap hi' hf, ?_⟩
  · intro c hc
    simp only [List.mem_append, List.mem_cons] at hc ht
    rcases hc with hc | rfl | hc
    · exact ht c (.inl hc)
    · exact hx'
    · exact ht c (.inr (.inr hc))
  · rw [Form.ofBytes_append, Form.ofBytes_append]
    exact Form.actions_append hF0 ⟨_, _, rfl, hw', by rw [e2]; exact hvc⟩
  · refine hj.imp id fun h => ⟨endsWithForward_swap hi' h.1, ?_⟩
    simpa using h.2

/-- **C96** The same in the middle of a command: behind the bytes of other actions, the file or tag an action names can be
changed, and nothing else changes. -/
theorem C96_command (cfg : Cfg) (data : List U8) (x b0 b : U8) (rest : List U8) (as cs : List Action) (a a' : Action)
    (ht : ∀ c ∈ as ++ a :: cs, c.isTx = false) (h0 : Command.tryFrom cfg data = .ok ⟨as⟩)
    (h : Command.tryFrom cfg (data ++ x :: b0 :: rest) = .ok ⟨as ++ a :: cs⟩) (hr : redirect b a = some a') :
    Command.tryFrom cfg (data ++ x :: b :: rest) = .ok ⟨as ++ a' :: cs⟩ := by
  obtain ⟨wire, more, hw, hF, hex⟩ := Command.exchange cfg data _ as cs a ht h0 h
  obtain ⟨p, q, s, hs, hp, hq, hG⟩ := Form.redirect hr _ hF
  obtain ⟨-, t2, t3, t4⟩ := redirect_isTx hr
  have hl := congrArg List.length hs
  rw [Form.ofBytes_length, List.length_append, List.length_append] at hl
  match wire, (by omega : 2 ≤ wire.length) with
  | y :: c0 :: w, _ =>
    simp only [List.cons_append, List.cons.injEq] at hw
    obtain ⟨rfl, rfl, rfl⟩ := hw
    have := hex (x :: b :: w) a' (by rw [ofBytes_second hs hp hq]; exact hG) t2 (t4.trans t3.symm)
    simpa using this

/-! ## Writing -/

/-- The second byte is replaced. -/
def SameButSecond (b : U8) (p q : Option (List U8)) : Prop :=
  ∀ x b0 bs, p = some (x :: b0 :: bs) → q = some (x :: b :: bs)

theorem SameButSecond.join {b i c : U8} {ps : List (Option (List U8))} :
    SameButSecond b (Wire.join (some [c] :: some [i] :: ps)) (Wire.join (some [c] :: some [b] :: ps)) := by
  intro x b0 bs hb
  unfold Wire.join Wire.join at hb ⊢
  cases hj : Wire.join ps with
  | none => rw [hj] at hb; cases hb
  | some t => rw [hj] at hb; cases hb; rfl

theorem SameButSecond.nested {b i c : U8} {l : Option (List U8)} {ps : List (Option (List U8))} :
    SameButSecond b (Wire.join (some [c] :: Wire.join [some [i], l] :: ps))
      (Wire.join (some [c] :: Wire.join [some [b], l] :: ps)) := by
  intro x b0 bs hb
  cases l with
  | none => cases hb
  | some l =>
    unfold Wire.join at hb ⊢
    cases hj : Wire.join ps with
    | none => simp [Wire.join, hj] at hb
    | some t => simp [Wire.join, hj] at hb ⊢; obtain ⟨rfl, -, rfl⟩ := hb; exact ⟨rfl, rfl⟩

theorem inFile_wire {big : Bool} {b : U8} {f g : File} (h : inFile b f = some g) : Wire.file big g = Wire.file big f := by
  unfold inFile at h
  split at h
  · split at h <;> cases h; rfl
  · split at h <;> cases h; rfl
  · cases h

theorem SameButSecond.one {b i : U8} {g r : Bool} {k : Nat} (hk : k < 64) {ps : List (Option (List U8))} :
    SameButSecond b (Wire.join (Wire.action1 g r k :: Wire.raw [i] :: ps))
      (Wire.join (Wire.action1 g r k :: Wire.raw [b] :: ps)) := by
  obtain ⟨c, hc, -⟩ := action1_eq g r k hk
  rw [hc]
  exact .join

theorem SameButSecond.deep {b i : U8} {g r : Bool} {k : Nat} (hk : k < 64) {l : Option (List U8)}
    {ps : List (Option (List U8))} :
    SameButSecond b (Wire.join (Wire.action1 g r k :: Wire.join [Wire.raw [i], l] :: ps))
      (Wire.join (Wire.action1 g r k :: Wire.join [Wire.raw [b], l] :: ps)) := by
  obtain ⟨c, hc, -⟩ := action1_eq g r k hk
  rw [hc]
  exact .nested

theorem SameButSecond.fileData {big : Bool} {b : U8} {k : Nat} {o o' : Op.FileData} (hk : k < 64)
    (h : withFile b o = some o') : SameButSecond b (Wire.fileData big k o) (Wire.fileData big k o') := by
  unfold withFile at h
  split at h
  case h_2 => cases h
  rename_i f hf
  cases h
  unfold Wire.fileData Wire.header Wire.fileOffset
  rw [inFile_wire hf]
  exact .deep hk

theorem Wire.redirect {v : Variant} {big : Bool} {a a' : Action} {b : U8} (hr : Spec.redirect b a = some a') :
    SameButSecond b (Wire.action v big a) (Wire.action v big a') := by
  cases a
  case writeFileData o =>
    obtain ⟨o', ho, rfl⟩ := Option.map_eq_some_iff.1 hr
    refine .fileData ?_ ho; decide
  case writeFileDataFlush o =>
    obtain ⟨o', ho, rfl⟩ := Option.map_eq_some_iff.1 hr
    refine .fileData ?_ ho; decide
  case returnFileData o =>
    obtain ⟨o', ho, rfl⟩ := Option.map_eq_some_iff.1 hr
    refine .fileData ?_ ho; decide
  case readFileData o =>
    cases hr
    simp only [Wire.action, Wire.header, Wire.fileOffset]
    refine .deep ?_; decide
  case copyFile o =>
    cases hr
    simp only [Wire.action, Wire.header]
    obtain ⟨c, hc, -⟩ := action1_eq o.header.group o.header.response 23 (by decide)
    rw [hc]
    intro x b0 bs hb
    cases hb
    rfl
  all_goals first
    | (cases hr; done)
    | (cases hr
       simp only [Wire.action, Wire.fileId, Wire.fileProperties, Wire.header]
       refine .one ?_; decide)

/-- **C96** The same holds for the bytes written: the action on another file, or with another tag, is written as the same
bytes but for the second. -/
theorem C96_written (cfg : Cfg) (x b0 b : U8) (bs : List U8) (a a' : Action)
    (h : a.toBytes cfg = .ok (x :: b0 :: bs)) (hr : redirect b a = some a') :
    a'.toBytes cfg = .ok (x :: b :: bs) := by
  obtain ⟨t1, t2, -⟩ := redirect_isTx hr
  rw [C51_action_layout cfg a t1] at h
  rw [C51_action_layout cfg a' t2]
  cases hw : Wire.action cfg.variant cfg.bigEndianHost a with
  | none => rw [hw] at h; cases h
  | some w =>
    rw [hw] at h
    cases h
    rw [Wire.redirect hr x b0 bs hw]
    rfl

/-- A request to read file 0x20 (with an offset in a longer form than this crate writes) becomes one for file 0x41. -/
example : Action.tryFrom spec [0x81, 0x20, 0x40, 0x00, 0x04] =
      .ok (.readFileData ⟨⟨true, false⟩, ⟨1⟩, ⟨0x20, ⟨0⟩⟩, ⟨4⟩⟩) ∧
    redirect 0x41 (.readFileData ⟨⟨true, false⟩, ⟨1⟩, ⟨0x20, ⟨0⟩⟩, ⟨4⟩⟩) =
      some (.readFileData ⟨⟨true, false⟩, ⟨1⟩, ⟨0x41, ⟨0⟩⟩, ⟨4⟩⟩) ∧
    Action.tryFrom spec [0x81, 0x41, 0x40, 0x00, 0x04] =
      .ok (.readFileData ⟨⟨true, false⟩, ⟨1⟩, ⟨0x41, ⟨0⟩⟩, ⟨4⟩⟩) := by decide +kernel

/-- Behind a tag, an access profile goes to another place. -/
example : ∃ x t a', tag.toBytes spec = .ok t ∧ echo.toBytes spec = .ok x ∧ redirect 0x22 echo = some a' ∧
    Command.tryFrom spec t = .ok ⟨[tag]⟩ ∧ Command.tryFrom spec (t ++ x) = .ok ⟨[tag] ++ echo :: []⟩ ∧
    x.take 2 = [0x04, 0x20] ∧ Command.tryFrom spec (t ++ 0x04 :: 0x22 :: x.drop 2) = .ok ⟨[tag] ++ a' :: []⟩ :=
  ⟨_, _, _, rfl, rfl, rfl, by decide +kernel, by decide +kernel, by decide +kernel, by decide +kernel⟩

/-- Why bytes without a structure do not go to a file that has one, nor an access profile elsewhere: they would be taken
for the content of that file, and what is left over for further actions; or the action is refused. -/
theorem C96_structure_needed (cfg : Cfg) :
    Action.tryFrom cfg [0x04, 0x40, 0x00, 0x08, 1, 2, 3, 4, 5, 6, 7, 8] =
      .ok (.writeFileData ⟨⟨false, false⟩, ⟨4⟩, ⟨0x40, ⟨0⟩⟩, .other [1, 2, 3, 4, 5, 6, 7, 8]⟩) ∧
    Action.tryFrom cfg [0x04, 0x00, 0x00, 0x08, 1, 2, 3, 4, 5, 6, 7, 8] =
      .ok (.writeFileData ⟨⟨false, false⟩, ⟨4⟩, ⟨0x00, ⟨0⟩⟩, .uId (.uId 0x0102030405060708)⟩) ∧
    Action.tryFrom cfg [0x04, 0x01, 0x00, 0x08, 1, 2, 3, 4, 5, 6, 7, 8] = .error .incomplete ∧
    Command.tryFrom cfg [0x04, 0x06, 0x00, 0x08, 1, 2, 0, 0, 0, 0, 0, 0] =
      .ok ⟨.writeFileData ⟨⟨false, false⟩, ⟨4⟩, ⟨0x06, ⟨0⟩⟩, .vId (.vId 0x0102)⟩ ::
        List.replicate 6 (.nop ⟨⟨false, false⟩, ⟨0⟩⟩)⟩ := by
  rcases cfg with ⟨v, a, b, c, d⟩
  cases v <;> cases a <;> cases b <;> cases c <;> cases d <;>
    exact ⟨by decide +kernel, by decide +kernel, by decide +kernel, by decide +kernel⟩

/-! ## Data -/

/-- An action carrying data without a structure. -/
theorem refill_iff {a a' : Action} {d' : List U8} (h : refill d' a = some a') :
    ∃ code o d, o.data = .other d ∧
      (∀ cfg, Form.action cfg a = Form.fileData cfg.bigEndianHost code o ∧
        Form.action cfg a' = Form.fileData cfg.bigEndianHost code { o with data := .other d' }) ∧
      (∀ v big, Wire.action v big a = Wire.fileData big code o ∧
        Wire.action v big a' = Wire.fileData big code { o with data := .other d' }) ∧
      Spec.withFileData a o ∧ Spec.withFileData a' { o with data := .other d' } := by
  unfold refill at h
  split at h
  case h_4 => cases h
  all_goals
    cases h
    exact ⟨_, _, _, rfl, fun _ => ⟨rfl, rfl⟩, fun _ _ => ⟨rfl, rfl⟩, by simp [Spec.withFileData],
      by simp [Spec.withFileData]⟩

theorem withFileData_isTx {a : Action} {o : Op.FileData} (h : Spec.withFileData a o) :
    a.isTx = false ∧ a.isIndirectForward = false := by
  rcases h with rfl | rfl | rfl <;> exact ⟨rfl, rfl⟩

/-- The data stand at the end of the forms, and can be replaced by as many other bytes. -/
theorem Form.refill {big : Bool} {code : Nat} {o : Op.FileData} {d : List U8} (hd : o.data = .other d) {c : List Bool}
    (h : Form.fileData big code o c) :
    ∃ p, c = p ++ Form.ofBytes d ∧ ∀ d' : List U8, d'.length = d.length →
      Form.fileData big code { o with data := .other d' } (p ++ Form.ofBytes d') := by
  obtain ⟨u, _, rfl, hu, v, _, rfl, hv, w, _, rfl, hw, _, _, rfl, ⟨n, l, _, rfl, hl, t, _, rfl, ht, rfl⟩, rfl⟩ := h
  rw [hd] at ht
  obtain ⟨_, _, rfl, ⟨rfl, hs⟩, _, _, rfl, ⟨_, _, rfl, ⟨rfl, hn⟩, _, _, rfl, rfl, rfl⟩, rfl⟩ := ht
  refine ⟨u ++ (v ++ (w ++ l)), by simp, fun d' he => ?_⟩
  refine ⟨u, v ++ (w ++ (l ++ Form.ofBytes d')), by simp, hu, v, _, rfl, hv, w, _, rfl, hw, _, [],
    (List.append_nil _).symm, ⟨n, l, _, rfl, hl, _, [], (List.append_nil _).symm, ?_, rfl⟩, rfl⟩
  exact ⟨[], _, rfl, ⟨rfl, hs⟩, _, [], (List.append_nil _).symm,
    ⟨[], _, rfl, ⟨rfl, he.trans hn⟩, _, [], (List.append_nil _).symm, rfl, rfl⟩, rfl⟩

/-- The same on bytes. -/
theorem Form.refill_bytes {big : Bool} {code : Nat} {o : Op.FileData} {d : List U8} (hd : o.data = .other d)
    {wire : List U8} (h : Form.fileData big code o (Form.ofBytes wire)) :
    ∃ front, wire = front ++ d ∧ ∀ d' : List U8, d'.length = d.length →
      Form.fileData big code { o with data := .other d' } (Form.ofBytes (front ++ d')) := by
  obtain ⟨p, hp, hex⟩ := Form.refill hd h
  have hl := congrArg List.length hp
  rw [List.length_append, Form.ofBytes_length, Form.ofBytes_length] at hl
  have hs := List.take_append_drop (wire.length - d.length) wire
  rw [← hs, Form.ofBytes_append] at hp
  obtain ⟨e1, e2⟩ := List.append_inj hp (by rw [Form.ofBytes_length, List.length_take]; omega)
  have e3 : wire.drop (wire.length - d.length) = d := by
    rw [Form.ofBytes_eq, Form.ofBytes_eq] at e2
    exact bytesBits_inj e2
  refine ⟨wire.take (wire.length - d.length), ?_, fun d' he => ?_⟩
  · rw [e3] at hs; exact hs.symm
  · rw [Form.ofBytes_append, e1]; exact hex d' he

/-- **C96** for the data of a write or return: in what decodes to it there is a place where these bytes stand, and as many
others put there instead come out as the data, with nothing else changed. -/
theorem C96_data (cfg : Cfg) (bytes : List U8) (a : Action) (o : Op.FileData) (d : List U8)
    (h : Action.tryFrom cfg bytes = .ok a) (ho : Spec.withFileData a o) (hd : o.data = .other d) :
    ∃ front rest, bytes = front ++ (d ++ rest) ∧ ∀ (d' : List U8) (a' : Action), d'.length = d.length →
      refill d' a = some a' → Action.tryFrom cfg (front ++ (d' ++ rest)) = .ok a' := by
  obtain ⟨wire, junk, hs, hF, hl⟩ := (C54_try_from cfg _ a).1 h
  have tx := (withFileData_isTx ho).1
  rw [tx] at hl
  obtain ⟨n, hn⟩ := (Action.form_dvd hF tx).1
  have hlen := congrArg List.length hs
  rw [Form.ofBytes_length, List.length_append] at hlen
  have hsplit := List.take_append_drop n bytes
  rw [← hsplit, Form.ofBytes_append] at hs
  obtain ⟨e1, e2⟩ := List.append_inj hs (by rw [Form.ofBytes_length, List.length_take]; omega)
  obtain ⟨code, hc⟩ : ∃ code, Form.action cfg a = Form.fileData cfg.bigEndianHost code o := by
    rcases ho with rfl | rfl | rfl <;> exact ⟨_, rfl⟩
  rw [← e1, hc] at hF
  obtain ⟨front, hf, hex⟩ := Form.refill_bytes hd hF
  refine ⟨front, bytes.drop n, ?_, fun d' a' he hr => ?_⟩
  · rw [← List.append_assoc, ← hf, hsplit]
  · obtain ⟨code', o1, d1, -, hA, -, w1, w2⟩ := refill_iff hr
    have : o1 = o := by
      rcases ho with rfl | rfl | rfl <;> rcases w1 with h | h | h <;> cases h <;> rfl
    subst this
    have hcode : code' = code := by
      have h1 := (hA cfg).1
      rw [hc] at h1
      have h2 := hF
      rw [h1] at h2
      obtain ⟨_, _, e, k1, _, _, _, k2, -⟩ := hF
      obtain ⟨_, _, e', k1', _, _, _, k2', -⟩ := h2
      exact k2'.1.symm.trans k2.1
    subst hcode
    refine (C54_try_from cfg _ a').2 ⟨Form.ofBytes (front ++ d'), junk, ?_, ?_, ?_⟩
    · rw [← List.append_assoc, Form.ofBytes_append, e2]
    · rw [(hA cfg).2]; exact hex d' he
    · rw [(withFileData_isTx w2).1]; exact hl

/-- **C96** for the data of a write or return in the middle of a command. -/
theorem C96_command_data (cfg : Cfg) (data tail : List U8) (as cs : List Action) (a : Action) (o : Op.FileData) (d : List U8)
    (ht : ∀ c ∈ as ++ a :: cs, c.isTx = false) (h0 : Command.tryFrom cfg data = .ok ⟨as⟩)
    (h : Command.tryFrom cfg (data ++ tail) = .ok ⟨as ++ a :: cs⟩) (ho : Spec.withFileData a o) (hd : o.data = .other d) :
    ∃ front rest, tail = front ++ (d ++ rest) ∧ ∀ (d' : List U8) (a' : Action), d'.length = d.length →
      refill d' a = some a' → Command.tryFrom cfg (data ++ (front ++ (d' ++ rest))) = .ok ⟨as ++ a' :: cs⟩ := by
  obtain ⟨wire, more, hw, hF, hex⟩ := Command.exchange cfg data _ as cs a ht h0 h
  obtain ⟨code, hc⟩ : ∃ code, Form.action cfg a = Form.fileData cfg.bigEndianHost code o := by
    rcases ho with rfl | rfl | rfl <;> exact ⟨_, rfl⟩
  rw [hc] at hF
  obtain ⟨front, hf, hff⟩ := Form.refill_bytes hd hF
  refine ⟨front, more, by rw [hw, hf, List.append_assoc], fun d' a' he hr => ?_⟩
  obtain ⟨code', o1, d1, -, hA, -, w1, w2⟩ := refill_iff hr
  have : o1 = o := by
    rcases ho with rfl | rfl | rfl <;> rcases w1 with h | h | h <;> cases h <;> rfl
  subst this
  have hcode : code' = code := by
    have h1 := (hA cfg).1
    rw [hc] at h1
    have h2 := hF
    rw [h1] at h2
    obtain ⟨_, _, e, k1, _, _, _, k2, -⟩ := hF
    obtain ⟨_, _, e', k1', _, _, _, k2', -⟩ := h2
    exact k2'.1.symm.trans k2.1
  subst hcode
  have := hex (front ++ d') a' (by rw [(hA cfg).2]; exact hff d' he) (withFileData_isTx w2).1
    ((withFileData_isTx w2).2.trans (withFileData_isTx ho).2.symm)
  rw [List.append_assoc] at this
  exact this

/-- **C96** What is written for other data of the same length differs in the data only. -/
theorem C96_written_data (cfg : Cfg) (x : List U8) (a a' : Action) (o : Op.FileData) (d d' : List U8)
    (hx : a.toBytes cfg = .ok x) (ho : Spec.withFileData a o) (hd : o.data = .other d) (he : d'.length = d.length)
    (hr : refill d' a = some a') : ∃ front, x = front ++ d ∧ a'.toBytes cfg = .ok (front ++ d') := by
  obtain ⟨code, o1, d1, hd1, -, hW, w1, w2⟩ := refill_iff hr
  have : o1 = o := by
    rcases ho with rfl | rfl | rfl <;> rcases w1 with h | h | h <;> cases h <;> rfl
  subst this
  rw [C51_action_layout cfg a (withFileData_isTx w1).1, (hW _ _).1] at hx
  rw [C51_action_layout cfg a' (withFileData_isTx w2).1, (hW _ _).2]
  unfold Wire.fileData at hx ⊢
  rw [hd] at hx
  cases hj : Wire.join [Wire.header o1.header code, Wire.fileOffset o1.offset, Wire.prefixed (Wire.file cfg.bigEndianHost (.other d))] with
  | none => rw [hj] at hx; cases hx
  | some w =>
    rw [hj] at hx
    cases hx
    obtain ⟨p, _, hp, j1, rfl⟩ := Wire.join_cons hj
    obtain ⟨q, _, hq, j2, rfl⟩ := Wire.join_cons j1
    obtain ⟨r, _, hr', j3, rfl⟩ := Wire.join_cons j2
    cases j3
    obtain ⟨l, _, hl, j4, rfl⟩ :=
      Wire.join_cons (show Wire.join [Wire.length (d.length % 2 ^ 32), some d] = some r from hr')
    obtain ⟨_, _, e, j5, rfl⟩ := Wire.join_cons j4
    cases j5
    cases e
    refine ⟨p ++ (q ++ l), by simp, ?_⟩
    have : Wire.prefixed (Wire.file cfg.bigEndianHost (.other d')) = some (l ++ d') := by
      show Wire.join [Wire.length (d'.length % 2 ^ 32), some d'] = _
      rw [he, hl]
      simp [Wire.join]
    rw [hp, hq, this]
    simp [Wire.join, Wire.result]

/-- Data replaced behind a length in a longer form than this crate writes, with a byte behind the action. -/
example : Action.tryFrom spec [0x04, 0x40, 0x00, 0x40, 0x02, 7, 8, 9] =
      .ok (.writeFileData ⟨⟨false, false⟩, ⟨4⟩, ⟨0x40, ⟨0⟩⟩, .other [7, 8]⟩) ∧
    refill [5, 6] (.writeFileData ⟨⟨false, false⟩, ⟨4⟩, ⟨0x40, ⟨0⟩⟩, .other [7, 8]⟩) =
      some (.writeFileData ⟨⟨false, false⟩, ⟨4⟩, ⟨0x40, ⟨0⟩⟩, .other [5, 6]⟩) ∧
    Action.tryFrom spec [0x04, 0x40, 0x00, 0x40, 0x02, 5, 6, 9] =
      .ok (.writeFileData ⟨⟨false, false⟩, ⟨4⟩, ⟨0x40, ⟨0⟩⟩, .other [5, 6]⟩) ∧
    Command.tryFrom spec [0x00, 0x04, 0x40, 0x00, 0x40, 0x02, 5, 6, 0x00] =
      .ok ⟨[.nop ⟨⟨false, false⟩, ⟨0⟩⟩] ++ .writeFileData ⟨⟨false, false⟩, ⟨4⟩, ⟨0x40, ⟨0⟩⟩, .other [5, 6]⟩ ::
        [.nop ⟨⟨false, false⟩, ⟨0⟩⟩]⟩ := by decide +kernel

/-- An action whose encoding the hypotheses of `C96_written_data` allow. -/
example : Action.toBytes spec (.returnFileData ⟨⟨false, false⟩, ⟨32⟩, ⟨0x40, ⟨0⟩⟩, .other [7, 8]⟩) =
      .ok [0x20, 0x40, 0x00, 0x02, 7, 8] ∧
    Action.toBytes spec (.returnFileData ⟨⟨false, false⟩, ⟨32⟩, ⟨0x40, ⟨0⟩⟩, .other [5, 6]⟩) =
      .ok [0x20, 0x40, 0x00, 0x02, 5, 6] := by decide +kernel

#print axioms C96_data
#print axioms C96_command_data
#print axioms C96_written_data
#print axioms C96_action
#print axioms C96_command
#print axioms C96_written
#print axioms C96_structure_needed

end Dash7
