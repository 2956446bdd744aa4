import Verif.Lemmas.Flip3
import Verif.Lemmas.FlipSize
import Verif.Lemmas.Items
import Verif.Props.Accept
import Verif.Props.Roundtrip
import Verif.Props.Retag
import Verif.Props.Size

/-!
# C86: a flipped bit does not go unnoticed
-/

namespace Dash7

open Sample

/-! ## Bits and bytes -/

theorem Ignored.byte_flip (b : U8) (i : Nat) (hi : i < 8) :
    Form.ofBytes [b ^^^ (0x80 >>> i)] = (Form.ofBytes [b]).modify i not := by
  have h : ∀ j : Fin 8, ∀ b : U8, Form.ofBytes [b ^^^ (0x80 >>> j.val)] = (Form.ofBytes [b]).modify j not := by
    decide +kernel
  exact h ⟨i, hi⟩ b

theorem Ignored.flip_bits (bytes : List U8) (i : Nat) :
    Form.ofBytes (Ignored.flip bytes i) = (Form.ofBytes bytes).modify i not := by
  have h1 : ∀ b : U8, (Form.ofBytes [b]).length = 8 := fun b => rfl
  unfold Ignored.flip
  induction bytes generalizing i with
  | nil => simp [Form.ofBytes]
  | cons b bs ih =>
    have e : ∀ (c : U8) (cs : List U8), Form.ofBytes (c :: cs) = Form.ofBytes [c] ++ Form.ofBytes cs :=
      fun c cs => Form.ofBytes_append [c] cs
    by_cases hi : i < 8
    · have h0 : i / 8 = 0 := Nat.div_eq_of_lt hi
      have ha : ∀ (l r : List Bool) (k : Nat), k < l.length → (l ++ r).modify k not = l.modify k not ++ r := by
        intro l
        induction l with
        | nil => intro r k hk; simp at hk
        | cons y l ih =>
          intro r k hk
          cases k with
          | zero => rfl
          | succ k => simp [ih r k (by simpa using hk)]
      rw [h0, Nat.mod_eq_of_lt hi, List.modify_zero_cons, e, e b, Ignored.byte_flip b i hi, ha _ _ _ (by rw [h1]; exact hi)]
    · obtain ⟨j, rfl⟩ : ∃ j, i = j + 8 := ⟨i - 8, by omega⟩
      have hd : (j + 8) / 8 = j / 8 + 1 := by omega
      have hm : (j + 8) % 8 = j % 8 := by omega
      rw [hd, hm, List.modify_succ_cons, e, e b, ih]
      rfl

theorem Ignored.flip_split {bytes : List U8} {i : Nat} (hi : i < 8 * bytes.length) :
    ∃ p x q, p.length = i ∧ Form.ofBytes bytes = p ++ x :: q ∧
      Form.ofBytes (Ignored.flip bytes i) = p ++ (!x) :: q := by
  have hl := Form.ofBytes_length bytes
  refine ⟨(Form.ofBytes bytes).take i, (Form.ofBytes bytes)[i]'(by omega), (Form.ofBytes bytes).drop (i + 1), ?_, ?_, ?_⟩
  · rw [List.length_take]; omega
  · rw [← List.drop_eq_getElem_cons, List.take_append_drop]
  · rw [Ignored.flip_bits, List.modify_eq_take_cons_drop (by omega)]

theorem Ignored.flip_length (bytes : List U8) (i : Nat) : (Ignored.flip bytes i).length = bytes.length := by
  simp [Ignored.flip]

/-- With nothing to spare, a string with one bit flipped fits just if the bit is marked. -/
theorem Tight.flip {F : Form} {m : List Bool} (h : Tight F m) {bytes : List U8} {i : Nat} (hi : i < 8 * bytes.length)
    (hF : F (Form.ofBytes bytes)) (hm : m.length = 8 * bytes.length) :
    F (Form.ofBytes (Ignored.flip bytes i)) ↔ m[i]? = some true := by
  obtain ⟨p, x, q, rfl, h1, h2⟩ := Ignored.flip_split hi
  rw [h2]
  refine h.one p x q (h1 ▸ hF) ?_
  rw [← h1, Form.ofBytes_length, hm]

/-! ## Actions and commands -/

/-- What encodes to something has one mark for each of its bits. -/
theorem Ignored.action_length {cfg : Cfg} {a : Action} (hw : a.WF cfg) {x : List U8} (hx : a.toBytes cfg = .ok x) :
    (Ignored.action cfg.variant a).length = 8 * x.length := by
  have h := C85_action cfg a
  rw [hx] at h
  cases hs : Size.action cfg.variant a with
  | none => rw [hs] at h; cases h
  | some n =>
    rw [hs] at h
    have e : x.length = n := by simpa [Size.result, Except.map] using h
    rw [e]; exact Marked.action cfg a hw n hs

theorem Ignored.command_length {cfg : Cfg} {c : Command} (hw : ∀ a ∈ c.actions, a.WF cfg) {x : List U8}
    (hx : c.toBytes cfg = .ok x) : (Ignored.command cfg.variant c).length = 8 * x.length := by
  have h := C85_command_sum cfg c fun a ha => (hw a ha).isTx
  rw [hx] at h
  cases hs : Size.sum (c.actions.map (Size.action cfg.variant)) with
  | none => rw [hs] at h; cases h
  | some n =>
    rw [hs] at h
    have e : x.length = n := by simpa [Size.result, Except.map] using h
    rw [e]; exact Marked.actions cfg c.actions hw n hs

theorem Action.WF.plain {cfg : Cfg} {a : Action} (h : a.WF cfg) : a.isOther = true → cfg.unitPatConsumes = false := by
  intro ho
  cases a <;> simp only [Action.isOther, Bool.false_eq_true] at ho
  next o =>
  obtain ⟨h1, t, s⟩ := o
  cases s with
  | interface o =>
    obtain ⟨t, s⟩ := o
    cases s with
    | other b => exact h.2.2.2.1
    | _ => simp [Op.Status.isOther] at ho
  | _ => simp [Op.Status.isOther] at ho

/-- **C86** for actions (all but those carrying an access profile or a PHY status of 64 bytes or more):
let one bit of the encoding be flipped. What arrives decodes to the action sent just if the bit is one
of those the decoder does not look at; any other flipped bit is noticed: an error, or another action. -/
theorem C86_action_partial (cfg : Cfg) (a : Action) (hw : a.WF cfg) (hl : Ignored.large a = false)
    (x : List U8) (hx : a.toBytes cfg = .ok x) (i : Nat) (hi : i < 8 * x.length) :
    Action.tryFrom cfg (Ignored.flip x i) = .ok a ↔ (Ignored.action cfg.variant a)[i]? = some true := by
  have ht := hw.isTx
  have tight := Tight.action cfg a ht hw.plain hl
  have hm := Ignored.action_length hw hx
  have key : ∀ y : List U8, y.length = x.length →
      (Action.tryFrom cfg y = .ok a ↔ Form.action cfg a (Form.ofBytes y)) := by
    intro y hy
    rw [C54_try_from]
    constructor
    · rintro ⟨wire, junk, he, hf, -⟩
      have h1 := tight.min wire hf
      have h2 := congrArg List.length he
      rw [Form.ofBytes_length, List.length_append] at h2
      have : junk = [] := List.eq_nil_of_length_eq_zero (by omega)
      subst this
      rw [he, List.append_nil]; exact hf
    · intro hf
      exact ⟨Form.ofBytes y, [], by simp, hf, by simp⟩
  obtain ⟨x', hx', hr⟩ := C02_action_roundtrip cfg a hw
  rw [hx] at hx'; cases hx'
  rw [key _ (Ignored.flip_length x i)]
  exact tight.flip hi ((key x rfl).1 hr) hm

/-- **C86** for commands (none of whose actions carries an access profile or a PHY status of 64 bytes or
more). -/
theorem C86_command_partial (cfg : Cfg) (c : Command) (hw : c.WF cfg) (hl : ∀ a ∈ c.actions, Ignored.large a = false)
    (x : List U8) (hx : c.toBytes cfg = .ok x) (i : Nat) (hi : i < 8 * x.length) :
    Command.tryFrom cfg (Ignored.flip x i) = .ok c ↔ (Ignored.command cfg.variant c)[i]? = some true := by
  have ht : ∀ a ∈ c.actions, a.isTx = false := fun a ha => (hw.1 a ha).isTx
  have tight := Tight.actions cfg c.actions fun a ha => ⟨ht a ha, (hw.1 a ha).plain, hl a ha⟩
  have hm := Ignored.command_length hw.1 hx
  have key : ∀ y : List U8, y.length = x.length →
      (Command.tryFrom cfg y = .ok c ↔ Form.actions cfg c.actions (Form.ofBytes y)) := by
    intro y hy
    rw [C55_try_from_partial cfg y c ht]
    constructor
    · rintro ⟨wire, junk, rfl, hf, -⟩
      have h1 := tight.min _ hf
      have hm : (c.actions.flatMap (Ignored.action cfg.variant)).length = 8 * x.length := hm
      rw [Form.ofBytes_length] at h1
      rw [List.length_append] at hy
      have : junk = [] := List.eq_nil_of_length_eq_zero (by omega)
      subst this
      rw [List.append_nil]; exact hf
    · intro hf
      exact ⟨y, [], by simp, hf, hw.2, .inl rfl⟩
  obtain ⟨x', hx', hr⟩ := C01_command_roundtrip cfg c hw
  rw [hx] at hx'; cases hx'
  rw [key _ (Ignored.flip_length x i)]
  exact tight.flip hi ((key x rfl).1 hr) hm

/-- The bits of most actions are all looked at. -/
example (cfg : Cfg) (o : Op.Nop) : Ignored.action cfg.variant (.nop o) = List.replicate 8 false := rfl

/-- A command with actions of seven kinds meets the hypotheses; bit 1 of it is reserved, bit 0 is not. -/
example : command.WF spec ∧ (∀ a ∈ command.actions, Ignored.large a = false) ∧
    (∃ x, command.toBytes spec = .ok x ∧ 1 < 8 * x.length) ∧
    (Ignored.command .spec command)[1]? = some true ∧ (Ignored.command .spec command)[0]? = some false := by
  refine ⟨by decide +kernel, by decide +kernel, ?_, by decide +kernel, by decide +kernel⟩
  obtain ⟨x, hx, -⟩ := C01_command_roundtrip spec command (by decide +kernel)
  refine ⟨x, hx, ?_⟩
  have := C85_at_least spec command x hx
  have : command.actions.length = 7 := rfl
  omega

/-- The tag's reserved bit and its end-of-packet bit. -/
example : Action.tryFrom spec (Ignored.flip [0xB4, 7] 1) = .ok tag ∧
    Action.tryFrom spec (Ignored.flip [0xB4, 7] 0) ≠ .ok tag := by decide +kernel

/-! ## What goes unnoticed -/

/-- The length in front of a file with a structure of its own is not looked at: any of its six value bits
may be flipped. -/
theorem C86_length_violates :
    ∃ a x, a.WF spec ∧ a.toBytes spec = .ok x ∧
      ∀ i, 26 ≤ i → i < 32 → Action.tryFrom spec (Ignored.flip x i) = .ok a := by
  let a : Action := .returnFileData ⟨⟨false, false⟩, ⟨32⟩, ⟨0, ⟨0⟩⟩, .uId (.uId 0x0011223344556677)⟩
  have hw : a.WF spec := by decide +kernel
  have hx : a.toBytes spec = .ok [0x20, 0, 0, 8, 0x00, 0x11, 0x22, 0x33, 0x44, 0x55, 0x66, 0x77] := by decide +kernel
  refine ⟨a, _, hw, hx, fun i h1 h2 => (C86_action_partial spec a hw rfl _ hx i ?_).2 ?_⟩
  · simp; omega
  · have h : ∀ j : Fin 6, (Ignored.action spec.variant a)[26 + j.val]? = some true := by decide +kernel
    have := h ⟨i - 26, by omega⟩
    rwa [show 26 + (i - 26) = i from by omega] at this

/-- An access profile that may be read one byte further on. -/
def Sample.echo : Action :=
  .writeFileData ⟨⟨false, false⟩, ⟨4⟩, ⟨32, ⟨0⟩⟩, .accessProfile 0
    ⟨⟨.band915, .loRate, .rfu⟩,
      #v[⟨0x41, ⟨16, false⟩⟩, ⟨0x10, ⟨16, false⟩⟩, ⟨0x10, ⟨16, false⟩⟩, ⟨0x10, ⟨16, false⟩⟩],
      Vector.replicate 8 ⟨0x1010, 0x1010, 0x10, 0x10, 0x10⟩⟩⟩

/-- Why files of 64 bytes and more are left out: there even one of the two bits telling how long the
length operand is may be flipped unnoticed, shifting all that follows by one byte. The decoder does not
look at the length and, an action needing not fill its input (C18), not at the last byte. -/
theorem C86_selector_violates :
    echo.WF spec ∧ ∃ x, echo.toBytes spec = .ok x ∧ (Ignored.action .spec echo)[25]? = some false ∧
      Action.tryFrom spec (Ignored.flip x 25) = .ok echo :=
  ⟨by decide +kernel, [0x04, 0x20, 0x00, 0x40, 0x41, 0x41, 0x41] ++ List.replicate 63 0x10, by decide +kernel,
    by decide +kernel, by decide +kernel⟩

end Dash7

#print axioms Dash7.C86_action_partial
#print axioms Dash7.C86_command_partial
#print axioms Dash7.C86_length_violates
#print axioms Dash7.C86_selector_violates
