import Verif.Props.FlipLarge

/-!
# C91: how much shorter a message could be
-/

namespace Dash7

open Sample

/-- The bytes an action could be sent with less: one for an access profile or a PHY status of 64 bytes or more, the length
of which takes two bytes and is not looked at. -/
def Spec.spare (a : Action) : Nat := if Ignored.large a then 1 else 0

/-- What `Spec.spare` says, kind by kind. -/
theorem Spec.spare_iff (a : Action) : Spec.spare a = 1 ↔ ∃ o, Spec.withFileData a o ∧
    ((∃ i p, o.data = .accessProfile i p) ∨ ∃ p, o.data = .phyStatus p ∧ 64 ≤ 15 + 3 * p.channelStatus.length) := by
  have key : ∀ o : Op.FileData, (match o.data with
        | .accessProfile _ _ => true
        | .phyStatus p => decide (17 ≤ p.channelStatus.length)
        | _ => false) = true ↔
      ((∃ i p, o.data = .accessProfile i p) ∨ ∃ p, o.data = .phyStatus p ∧ 64 ≤ 15 + 3 * p.channelStatus.length) := by
    intro o
    cases o.data with
    | accessProfile i p => simp
    | phyStatus p => simp; omega
    | _ => simp
  have h1 : Spec.spare a = 1 ↔ Ignored.large a = true := by unfold Spec.spare; split <;> simp_all
  rw [h1]
  cases a with
  | writeFileData o =>
    refine (key o).trans ⟨fun h => ⟨o, .inl rfl, h⟩, ?_⟩
    rintro ⟨o', e | e | e, h⟩ <;> cases e
    exact h
  | writeFileDataFlush o =>
    refine (key o).trans ⟨fun h => ⟨o, .inr (.inl rfl), h⟩, ?_⟩
    rintro ⟨o', e | e | e, h⟩ <;> cases e
    exact h
  | returnFileData o =>
    refine (key o).trans ⟨fun h => ⟨o, .inr (.inr rfl), h⟩, ?_⟩
    rintro ⟨o', e | e | e, h⟩ <;> cases e
    exact h
  | _ => simp [Ignored.large, Spec.withFileData]

/-! ## Nothing much shorter has the form of the action -/

theorem Ignored.form_long {cfg : Cfg} {a : Action} (hw : a.WF cfg) {w : List Bool} (h : Form.action cfg a w) :
    (Ignored.action cfg.variant a).length ≤ w.length + 8 * Spec.spare a := by
  unfold Spec.spare
  cases hl : Ignored.large a with
  | false =>
    have := (Tight.action cfg a hw.isTx hw.plain hl).min w h
    omega
  | true =>
    rw [if_pos rfl]
    obtain ⟨x, hx, -⟩ := C02_action_roundtrip cfg a hw
    obtain ⟨code, o, L⟩ := Ignored.Large.of hw hl
    obtain ⟨c0, hp, hc0, -⟩ := L.parts hw hx
    have hm := Ignored.action_length hw hx
    rw [L.form] at h
    obtain ⟨k, k', c, hq⟩ := Form.parts_of (junk := []) (fun n c => L.any _ _ n 0 c) (List.append_nil w).symm h
    have h1 := congrArg List.length hp.pre
    have h2 := congrArg List.length hq.pre
    have h3 := hp.long
    have h4 := hq.long
    have h5 := lengthExtra_min _ k hq.hk (Form.field_lt hq.offset)
    have h6 := (Tight.file _ _ _ _).min c hq.content
    simp only [List.length_drop, List.length_append, List.length_nil, Form.ofBytes_length] at h1 h2 h3 h4
    omega

theorem Ignored.forms_long {cfg : Cfg} {as : List Action} (hw : ∀ a ∈ as, a.WF cfg) : ∀ {w : List Bool},
    Form.actions cfg as w →
    (as.flatMap (Ignored.action cfg.variant)).length ≤ w.length + 8 * (as.map Spec.spare).sum := by
  induction as with
  | nil => rintro w rfl; simp
  | cons a as ih =>
    rintro w ⟨x, y, rfl, hx, hy⟩
    have h1 := Ignored.form_long (hw a (by simp)) hx
    have h2 := ih (fun b hb => hw b (by simp [hb])) hy
    simp only [List.flatMap_cons, List.length_append, List.map_cons, List.sum_cons]
    omega

/-! ## One byte in place of the two of the length -/

/-- The encoding of such an action with one byte, `b`, in place of the two that tell how long the file is. -/
def Ignored.shorter (a : Action) (x : List U8) (b : U8) : List U8 :=
  x.take (Ignored.before a) ++ b :: x.drop (Ignored.before a + 2)

theorem Form.FileParts.shorter {big : Bool} {code : Nat} {o : Op.FileData} {x c : List Bool} {k : Nat}
    (h : Form.FileParts big code o x k 1 c []) {s : List Bool} (h8 : s.length = 8) (hs : Form.field 2 0 (s.take 2)) :
    Form.FileParts big code o (x.take (24 + 8 * k) ++ (s ++ x.drop (40 + 8 * k))) k 0 c [] := by
  have hl := h.long
  have l : (x.take (24 + 8 * k)).length = 24 + 8 * k := by rw [List.length_take]; omega
  have hpart : ∀ j n, j + n ≤ 24 + 8 * k →
      ((x.take (24 + 8 * k) ++ (s ++ x.drop (40 + 8 * k))).drop j).take n = (x.drop j).take n := by
    intro j n hn
    apply List.ext_getElem?
    intro m
    simp only [List.getElem?_take, List.getElem?_drop]
    split
    · rw [List.getElem?_append_left (by omega), List.getElem?_take, if_pos (by omega)]
    · rfl
  refine ⟨h.hk, by omega, ?_, ?_, ?_, ?_, ?_, h.content, ?_⟩
  · simp only [List.length_append, l, h8]; omega
  · rw [hpart 0 16 (by omega)]; exact h.start
  · rw [hpart 16 2 (by omega)]; exact h.sel
  · rw [hpart 18 _ (by omega)]; exact h.offset
  · rw [List.drop_left' l, List.take_append_of_le_length (by omega)]; exact hs
  · rw [← List.append_assoc, List.drop_left' (by rw [List.length_append, l, h8]; omega)]
    rw [← h.pre, show 32 + 8 * k + 8 * 1 = 40 + 8 * k by omega]

theorem Form.shorter {cfg : Cfg} {a : Action} (hw : a.WF cfg) (hl : Ignored.large a = true) {x : List U8}
    (hx : a.toBytes cfg = .ok x) {b : U8} (hb : b.toNat < 64) :
    Form.action cfg a (Form.ofBytes (Ignored.shorter a x b)) ∧ x.length = (Ignored.shorter a x b).length + 1 := by
  obtain ⟨code, o, h⟩ := Ignored.Large.of hw hl
  obtain ⟨c, hp, -⟩ := h.parts hw hx
  have hlong := hp.long
  rw [Form.ofBytes_length] at hlong
  have split : ∀ n, n ≤ x.length → (Form.ofBytes x).take (8 * n) = Form.ofBytes (x.take n) ∧
      (Form.ofBytes x).drop (8 * n) = Form.ofBytes (x.drop n) := by
    intro n hn
    have e := congrArg Form.ofBytes (List.take_append_drop n x)
    rw [Form.ofBytes_append] at e
    have hl : (Form.ofBytes (x.take n)).length = 8 * n := by rw [Form.ofBytes_length, List.length_take]; omega
    exact ⟨by rw [← e]; exact List.take_left' hl, by rw [← e]; exact List.drop_left' hl⟩
  have hb2 : Form.field 2 0 ((Form.ofBytes [b]).take 2) := by
    have : ∀ b : U8, b.toNat < 64 → Form.value ((Form.ofBytes [b]).take 2) = 0 := by decide +kernel
    exact ⟨by rw [List.length_take, Form.ofBytes_length]; rfl, this b hb⟩
  refine ⟨?_, ?_⟩
  · have hq := hp.shorter (s := Form.ofBytes [b]) (by rw [Form.ofBytes_length]; rfl) hb2
    obtain ⟨w, e, hf⟩ := Form.of_parts (fun n c => h.any _ _ 0 n c) hq
    rw [List.append_nil] at e
    rw [h.form, Ignored.shorter, h.before, ← List.singleton_append, Form.ofBytes_append, Form.ofBytes_append,
      ← (split _ (by omega)).1, ← (split _ (by omega)).2,
      show 8 * (3 + Spec.lengthExtra o.offset.offset.val.toNat) = 24 + 8 * Spec.lengthExtra o.offset.offset.val.toNat by omega,
      show 8 * (3 + Spec.lengthExtra o.offset.offset.val.toNat + 2) = 40 + 8 * Spec.lengthExtra o.offset.offset.val.toNat by omega, e]
    exact hf
  · rw [Ignored.shorter, h.before, List.length_append, List.length_cons, List.length_take, List.length_drop]
    omega

/-- Some bytes of that length have the form of the action. -/
theorem Form.shortest {cfg : Cfg} {a : Action} (hw : a.WF cfg) {x : List U8} (hx : a.toBytes cfg = .ok x) :
    ∃ y : List U8, Form.action cfg a (Form.ofBytes y) ∧ x.length = y.length + Spec.spare a := by
  unfold Spec.spare
  cases hl : Ignored.large a with
  | true => exact ⟨_, Form.shorter hw hl hx (b := 0) (by decide)⟩
  | false =>
    obtain ⟨bs, hws, h8, -, hd⟩ := Action.decode_write hw
    obtain ⟨bytes, hb, rfl⟩ := W.toBytes_ok hws h8
    cases hx.symm.trans hb
    exact ⟨x, by rw [Form.ofBytes_eq]; exact (Action.decode_iff cfg a _ []).1 (hd []), rfl⟩

theorem Form.shortest_all {cfg : Cfg} {as : List Action} (hw : ∀ a ∈ as, a.WF cfg) :
    ∃ y : List U8, Form.actions cfg as (Form.ofBytes y) ∧
      (as.flatMap (Ignored.action cfg.variant)).length = 8 * (y.length + (as.map Spec.spare).sum) := by
  induction as with
  | nil => exact ⟨[], rfl, rfl⟩
  | cons a as ih =>
    obtain ⟨y, h1, h2⟩ := ih fun x hx => hw x (by simp [hx])
    obtain ⟨x, hx, -⟩ := C02_action_roundtrip cfg a (hw a (by simp))
    obtain ⟨z, h3, h4⟩ := Form.shortest (hw a (by simp)) hx
    have hm := Ignored.action_length (hw a (by simp)) hx
    refine ⟨z ++ y, ?_, ?_⟩
    · rw [Form.ofBytes_append]
      exact ⟨_, _, rfl, h3, h1⟩
    · simp only [List.flatMap_cons, List.length_append, List.map_cons, List.sum_cons]
      omega

/-! ## C91 -/

/-- **C91** for actions: every other byte string decoding to the action is at least as long as the encoding, but for the one
byte of `Spec.spare`. -/
theorem C91_action (cfg : Cfg) (a : Action) (hw : a.WF cfg) (x : List U8) (hx : a.toBytes cfg = .ok x) (y : List U8)
    (hy : Action.tryFrom cfg y = .ok a) : x.length ≤ y.length + Spec.spare a := by
  obtain ⟨w, junk, e, hf, -⟩ := (C54_try_from cfg y a).1 hy
  have h1 := Ignored.form_long hw hf
  have h2 := Ignored.action_length hw hx
  have h3 := congrArg List.length e
  rw [Form.ofBytes_length, List.length_append] at h3
  omega

/-- **C91** Without such a file the encoding is the shortest. -/
theorem C91_action_partial (cfg : Cfg) (a : Action) (hw : a.WF cfg) (hl : Spec.spare a = 0) (x : List U8)
    (hx : a.toBytes cfg = .ok x) (y : List U8) (hy : Action.tryFrom cfg y = .ok a) : x.length ≤ y.length := by
  have := C91_action cfg a hw x hx y hy
  omega

/-- **C91** fails for every action with such a file: one byte below 64 will do in place of the two of the length. -/
theorem C91_action_violates (cfg : Cfg) (a : Action) (hw : a.WF cfg) (hl : Spec.spare a = 1) (x : List U8)
    (hx : a.toBytes cfg = .ok x) (b : U8) (hb : b.toNat < 64) :
    Action.tryFrom cfg (Ignored.shorter a x b) = .ok a ∧ x.length = (Ignored.shorter a x b).length + 1 := by
  have hl : Ignored.large a = true := by unfold Spec.spare at hl; split at hl <;> simp_all
  obtain ⟨h1, h2⟩ := Form.shorter hw hl hx hb
  exact ⟨(C54_try_from cfg _ a).2 ⟨_, [], (List.append_nil _).symm, h1, by simp⟩, h2⟩

/-- **C91** for commands: no byte string decoding to the command is shorter than its encoding by more than one byte for every
action with such a file, and one is shorter by that much. -/
theorem C91_command (cfg : Cfg) (c : Command) (hw : c.WF cfg) (x : List U8) (hx : c.toBytes cfg = .ok x) :
    (∀ y, Command.tryFrom cfg y = .ok c → x.length ≤ y.length + (c.actions.map Spec.spare).sum) ∧
    ∃ y, Command.tryFrom cfg y = .ok c ∧ x.length = y.length + (c.actions.map Spec.spare).sum := by
  have ht : ∀ b ∈ c.actions, b.isTx = false := fun b h => (hw.1 b h).isTx
  have hm := Ignored.command_length hw.1 hx
  unfold Ignored.command at hm
  constructor
  · intro y hy
    obtain ⟨w, junk, e, hf, -⟩ := (C55_try_from_partial cfg y c ht).1 hy
    have h1 := Ignored.forms_long hw.1 hf
    have h3 := congrArg List.length e
    rw [List.length_append] at h3
    rw [Form.ofBytes_length] at h1
    omega
  · obtain ⟨y, h1, h2⟩ := Form.shortest_all hw.1
    exact ⟨y, (C55_try_from_partial cfg y c ht).2 ⟨y, [], (List.append_nil _).symm, h1, hw.2, .inl rfl⟩, by omega⟩

/-- **C91** Without such a file among its actions the encoding of a command is the shortest. -/
theorem C91_command_partial (cfg : Cfg) (c : Command) (hw : c.WF cfg) (hl : ∀ a ∈ c.actions, Spec.spare a = 0)
    (x : List U8) (hx : c.toBytes cfg = .ok x) (y : List U8) (hy : Command.tryFrom cfg y = .ok c) :
    x.length ≤ y.length := by
  have h := (C91_command cfg c hw x hx).1 y hy
  have : (c.actions.map Spec.spare).sum = 0 := by
    have e : c.actions.map Spec.spare = List.replicate c.actions.length 0 :=
      List.eq_replicate_iff.2 ⟨by simp, by simpa using hl⟩
    rw [e]; simp
  omega

/-- The access profile of `C86_selector_violates`: 70 bytes, of which the length `40 41` can be one byte, here `3F`; the
result has 69 bytes. -/
example : echo.WF spec ∧ Spec.spare echo = 1 ∧
    echo.toBytes spec = .ok ([0x04, 0x20, 0x00, 0x40, 0x41, 0x41, 0x41] ++ List.replicate 63 0x10) ∧
    Ignored.shorter echo ([0x04, 0x20, 0x00, 0x40, 0x41, 0x41, 0x41] ++ List.replicate 63 0x10) 0x3F =
      [0x04, 0x20, 0x00, 0x3F, 0x41, 0x41] ++ List.replicate 63 0x10 ∧
    Action.tryFrom spec ([0x04, 0x20, 0x00, 0x3F, 0x41, 0x41] ++ List.replicate 63 0x10) = .ok echo :=
  ⟨by decide +kernel, rfl, by decide +kernel, rfl, by decide +kernel⟩

/-- A read of 300 bytes: six bytes are the fewest, though seven will do too, with the 300 in three bytes. -/
example : readData.WF spec ∧ Spec.spare readData = 0 ∧ readData.toBytes spec = .ok [0x81, 0x41, 0x43, 0xE8, 0x41, 0x2C] ∧
    Action.tryFrom spec [0x81, 0x41, 0x43, 0xE8, 0x80, 0x01, 0x2C] = .ok readData :=
  ⟨by decide +kernel, rfl, by decide +kernel, by decide +kernel⟩

/-- A command with two such files: two bytes could be spared. -/
example : Command.WF spec ⟨[tag, echo, readData, echo]⟩ ∧
    (([tag, echo, readData, echo] : List Action).map Spec.spare).sum = 2 ∧
    (∃ x, (Command.mk [tag, echo, readData, echo]).toBytes spec = .ok x) := by
  have hw : Command.WF spec ⟨[tag, echo, readData, echo]⟩ := by decide +kernel
  obtain ⟨x, hx, -⟩ := C01_command_roundtrip spec _ hw
  exact ⟨hw, rfl, x, hx⟩

end Dash7

#print axioms Dash7.C91_action
#print axioms Dash7.C91_action_partial
#print axioms Dash7.C91_action_violates
#print axioms Dash7.C91_command
#print axioms Dash7.C91_command_partial
