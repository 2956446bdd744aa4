import Verif.Props.Default

/-!
# C62: default values on the wire
-/

namespace Dash7
open Sample

/-- The parts that say what kind of address follows, and the permission, which begins with its id. -/
def Spec.defaultMarks (v : Variant) : Item → Option (List U8)
  | .addressType | .foregroundFrameControl | .backgroundFrameControl => some [0x40]
  | .addressee => some [0x10, 0]
  | .dash7InterfaceConfiguration => some (if v = .subiot then [0, 0, 0x10, 0] else [0, 0, 0, 0x10, 0])
  | .netControl => some (if v = .wizzilab then [0x10] else [0x10, 0])
  | .hoppingControl => some [0x10]
  | .backgroundFrame => some [0, 0x40, 0, 0, 0, 0]
  | .permission => some [0x42, 0, 0, 0, 0, 0, 0, 0, 0]
  | _ => none

/-- The bytes of a default are zeros, or those of `Spec.defaultMarks`. -/
def Item.defaultZero (cfg : Cfg) (i : Item) : Bool :=
  match i.default? with
  | some v =>
    match i.toBytes cfg v with
    | .ok bytes =>
      match Spec.defaultMarks cfg.variant i with
      | some marks => decide (bytes = marks)
      | none => bytes.all (· == 0)
    | .error _ => false
  | none => true

theorem Item.defaultZero_all (i : Item) : (Cfg.all.all fun cfg => i.defaultZero cfg) = true := by
  cases i <;> decide +kernel

/-- **C62** On the wire a default is zeros, but for the two bits saying that there is no address and the id of a
permission. -/
theorem C62_zero (cfg : Cfg) (i : Item) (v : i.Val) (hv : i.default? = some v) :
    ∃ bytes, i.toBytes cfg v = .ok bytes ∧
      (Spec.defaultMarks cfg.variant i = none → ∀ b ∈ bytes, b = 0) ∧
      ∀ marks, Spec.defaultMarks cfg.variant i = some marks → bytes = marks := by
  have h := List.all_eq_true.1 (Item.defaultZero_all i) cfg cfg.mem_all
  unfold Item.defaultZero at h
  rw [hv] at h
  cases hb : i.toBytes cfg v with
  | error e => simp [hb] at h
  | ok bytes =>
    refine ⟨bytes, rfl, fun hm => ?_, fun marks hm => ?_⟩
    · simpa [hb, hm] using h
    · simpa [hb, hm] using h

/-- **C62** An action around a default operand is its opcode followed by zeros; a permission request has the id of the
permission behind the level. -/
theorem C62_zero_action (cfg : Cfg) : ∀ a ∈ Action.defaults, ∃ rest,
    a.toBytes cfg = .ok (BitVec.ofNat 8 (Spec.opcodeOf a) :: rest) ∧
      if a = .permissionRequest .default then rest = [0, 0x42, 0, 0, 0, 0, 0, 0, 0, 0] else ∀ b ∈ rest, b = 0 := by
  have h : ∀ cfg : Cfg, ∀ a ∈ Action.defaults, (match a.toBytes cfg with
      | .ok (b :: rest) => decide (b = BitVec.ofNat 8 (Spec.opcodeOf a)) &&
          if a = .permissionRequest .default then decide (rest = [0, 0x42, 0, 0, 0, 0, 0, 0, 0, 0])
          else rest.all (· == 0)
      | _ => false) = true := Cfg.forall (by decide +kernel)
  intro a ha
  have := h cfg a ha
  split at this
  · rename_i b rest hb
    rw [Bool.and_eq_true, decide_eq_true_eq] at this
    obtain ⟨rfl, h2⟩ := this
    refine ⟨rest, hb, ?_⟩
    split
    · rename_i h3; rw [if_pos h3] at h2; simpa using h2
    · rename_i h3; rw [if_neg h3] at h2; simpa using h2
  · cases this

/-- **C62** The default frames. -/
theorem C62_zero_frame (cfg : Cfg) : Trans.Frame.default.toBytes cfg = .ok [0, 0, 0] ∧
    Net.Frame.default.toBytes cfg = .ok [0x10, 0, 0, 0, 0] ∧
    ForegroundFrame.default.toBytes cfg = .ok [0, 0, 0x40, 0x10, 0, 0, 0, 0, 0, 0] := by
  revert cfg
  exact Cfg.forall (by decide +kernel)

example : Item.fileHeader.default? = some Data.FileHeader.default ∧
    Spec.defaultMarks spec.variant .fileHeader = none ∧
    Item.fileHeader.toBytes spec Data.FileHeader.default = .ok (List.replicate 12 0) := by decide +kernel
example : Action.permissionRequest .default ∈ Action.defaults ∧ Action.copyFile .default ∈ Action.defaults ∧
    (Action.copyFile .default).toBytes spec = .ok [23, 0, 0] := by decide +kernel

end Dash7

#print axioms Dash7.C62_zero
#print axioms Dash7.C62_zero_action
#print axioms Dash7.C62_zero_frame
