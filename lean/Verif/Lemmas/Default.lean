import Verif.Model.Default
import Verif.Props.Survive

/-!
# Going through all builds and all types
-/

namespace Dash7

/-- All builds. -/
def Cfg.all : List Cfg :=
  [Variant.spec, .subiot, .wizzilab].flatMap fun v => [false, true].flatMap fun a => [false, true].flatMap fun b =>
    [false, true].flatMap fun c => [false, true].map fun d => ⟨v, a, b, c, d⟩

theorem Cfg.mem_all (cfg : Cfg) : cfg ∈ Cfg.all := by
  rcases cfg with ⟨v, a, b, c, d⟩
  cases v <;> cases a <;> cases b <;> cases c <;> cases d <;> decide

/-- What holds of every build of the list holds of every build. -/
theorem Cfg.forall {p : Cfg → Prop} (h : ∀ cfg ∈ Cfg.all, p cfg) (cfg : Cfg) : p cfg := h cfg cfg.mem_all

instance Item.decEq (i : Item) : DecidableEq i.Val := by
  cases i <;> (simp only [Item.Val]; infer_instance)

/-- Written and read back. -/
def Item.survives (cfg : Cfg) (i : Item) (v : i.Val) : Bool :=
  match i.toBytes cfg v with
  | .ok bytes =>
    match i.fromBytes cfg (bytes, 0) with
    | .ok (_, w) => decide (w = v)
    | .error _ => false
  | .error _ => false

theorem Item.survives_iff (cfg : Cfg) (i : Item) (v : i.Val) : i.survives cfg v = true ↔
    ∃ bytes, i.toBytes cfg v = .ok bytes ∧ ∃ rest, i.fromBytes cfg (bytes, 0) = .ok (rest, v) := by
  unfold Item.survives
  constructor
  · intro h
    split at h
    · next bytes hb =>
      refine ⟨bytes, hb, ?_⟩
      split at h
      · next rest w hr => rw [← of_decide_eq_true h]; exact ⟨rest, hr⟩
      · cases h
    · cases h
  · rintro ⟨bytes, hb, rest, hr⟩
    rw [hb]
    simp only
    rw [hr]
    simp

/-- The default, where there is one, is written and read back. -/
def Item.defaultSurvives (cfg : Cfg) (i : Item) : Bool :=
  match i.default? with
  | some v => i.survives cfg v
  | none => true

theorem Item.defaultSurvives_all (i : Item) (h1 : i ≠ .loRaWANOTAA) (h2 : i ≠ .loRaWANABP) :
    (Cfg.all.all fun cfg => i.defaultSurvives cfg) = true := by
  cases i <;> first | exact absurd rfl h1 | exact absurd rfl h2 | decide +kernel

end Dash7
