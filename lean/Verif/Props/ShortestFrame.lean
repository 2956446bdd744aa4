import Verif.Props.AlikeFrame
import Verif.Props.Shortest

/-!
# C91 for frames
-/

namespace Dash7

open Sample

/-- What is read below a limit are the forms of the actions. -/
theorem Spec.actionsBelow.forms {cfg : Cfg} {limit : Nat} {as : List Action} {pos : Nat} {wire : List U8}
    (h : Spec.actionsBelow cfg limit pos as wire) : Form.actions cfg as (Form.ofBytes wire) := by
  induction as generalizing pos wire with
  | nil => cases h; rfl
  | cons a as ih =>
    obtain ⟨-, w, more, rfl, h1, h2⟩ := h
    exact ⟨_, _, Form.ofBytes_append _ _, h1, ih h2⟩

/-- The length of the marks of a command. -/
theorem Alike.command_long {cfg : Cfg} {c : Command} (hw : ∀ a ∈ c.actions, a.WF cfg) {wire : List U8}
    (h : Form.actions cfg c.actions (Form.ofBytes wire)) :
    (Alike.command cfg.variant c).length ≤ 8 * wire.length + 8 * (c.actions.map Spec.spare).sum := by
  have h1 := Ignored.forms_long hw h
  rw [Form.ofBytes_length] at h1
  have h2 := Alike.command_marks cfg.variant c.actions
  unfold Ignored.command at h2
  unfold Alike.command
  omega

/-- The length of the marks of a foreground frame. -/
theorem Alike.foreground_long {cfg : Cfg} {f : ForegroundFrame} (hw : ∀ a ∈ f.frame.frame.command.actions, a.WF cfg)
    {head wire crc : List U8} (h : Spec.foregroundForm cfg f head wire crc) :
    (Alike.foreground cfg.variant f).length ≤ 8 * (head.length + wire.length + crc.length) +
      8 * (f.frame.frame.command.actions.map Spec.spare).sum := by
  obtain ⟨h1, h2, -, -, h3⟩ := h
  have l1 := (Whole.cons (Whole.foregroundHeader f.header) (Whole.cons
    (Whole.netHeader cfg.variant f.frame.header) (Whole.last (Whole.transHeader f.frame.frame.header)))).min _ h1
  have l2 := Alike.command_long hw h2.forms
  have l3 := (Rigid.hostNumber cfg.bigEndianHost 2 f.crc16.toNat).len _ h3
  rw [Form.ofBytes_length] at l1 l3
  simp only [List.length_append] at l1
  unfold Alike.foreground Alike.network
  simp only [List.length_append]
  have : (Alike.heed 16).length = 16 := rfl
  omega

/-- **C91** for foreground frames outside wizzilab builds: no byte string decoding to the frame is shorter than the encoding
with the bytes that get lost behind it (`C34_partial`), but for the bytes of `Spec.spare`. -/
theorem C91_foreground (cfg : Cfg) (hv : cfg.variant ≠ .wizzilab) (f : ForegroundFrame) (hw : f.WF cfg)
    (x : List U8) (hx : f.toBytes cfg = .ok x) (y : List U8) (lost : Nat)
    (hlost : lost = f.frame.frame.command.actions.length * (if cfg.endCounts then 2 else 1)) :
    (ForegroundFrame.tryFrom cfg y = .ok f →
      x.length + lost ≤ y.length + (f.frame.frame.command.actions.map Spec.spare).sum) ∧
    (∀ rest, ForegroundFrame.fromBytes cfg (y, 0) = .ok ((rest, 0), f) →
      x.length + lost + rest.length ≤ y.length + (f.frame.frame.command.actions.map Spec.spare).sum) := by
  have hact : ∀ a ∈ f.frame.frame.command.actions, a.WF cfg := hw.2.2.2.1
  have hm : (Alike.foreground cfg.variant f).length = 8 * x.length := by
    have hs := C85_foreground cfg f
    rw [hx] at hs
    cases e : Size.foreground cfg.variant f with
    | none => rw [e] at hs; cases hs
    | some n =>
      rw [e] at hs
      have hs : x.length = (n + 7) / 8 := by simpa [Size.result, Size.bytes, Except.map] using hs
      have h8 := Alike.foreground_dvd hv hact e
      rw [Alike.foreground_size hact e]
      omega
  have hge : ∀ pos, lost ≤ Spec.frameLost cfg f.header.length.val.toNat pos f.frame.frame.command.actions.length := by
    intro pos
    rw [hlost]
    unfold Spec.frameLost Spec.dropped
    by_cases hr : Spec.limitReached f.header.length.val.toNat pos
    · rw [if_pos hr]; exact Nat.le_refl _
    · rw [if_neg hr]; split <;> omega
  constructor
  · intro h
    obtain ⟨head, wire, crc, junk, rfl, hf, hj⟩ := (C57_foreground_accepts cfg hv y f).1 h
    have := Alike.foreground_long hact hf
    have := hge (head ++ wire).length
    simp only [List.length_append] at *
    omega
  · intro rest h
    obtain ⟨head, wire, crc, junk, more, rfl, hf, e, hj⟩ := (C57_foreground_from_bytes cfg hv y _ f).1 h
    cases e
    have := Alike.foreground_long hact hf
    have := hge (head ++ wire).length
    simp only [List.length_append] at *
    omega

/-- **C91** Without such a file, and with a length field telling where the command ends, the encoding is the shortest form
of a foreground frame: nothing shorter decodes to the frame, and with the bytes that get lost it does itself. -/
theorem C91_foreground_partial (cfg : Cfg) (hv : cfg.variant ≠ .wizzilab) (f : ForegroundFrame) (hw : f.WF cfg)
    (hl : ∀ a ∈ f.frame.frame.command.actions, Spec.spare a = 0)
    (x : List U8) (hx : f.toBytes cfg = .ok x) (hL : f.header.length.val.toNat + 2 = x.length)
    (lost : Nat) (hlost : lost = f.frame.frame.command.actions.length * (if cfg.endCounts then 2 else 1)) :
    (∀ y, ForegroundFrame.tryFrom cfg y = .ok f → x.length + lost ≤ y.length) ∧
    ∀ junk : List U8, junk.length = lost → ForegroundFrame.tryFrom cfg (x ++ junk) = .ok f := by
  have h0 : (f.frame.frame.command.actions.map Spec.spare).sum = 0 := by
    have e : f.frame.frame.command.actions.map Spec.spare = List.replicate f.frame.frame.command.actions.length 0 :=
      List.eq_replicate_iff.2 ⟨by simp, by simpa using hl⟩
    rw [e]; simp
  refine ⟨fun y h => ?_, fun junk hj => ?_⟩
  · have := (C91_foreground cfg hv f hw x hx y lost hlost).1 h
    omega
  · obtain ⟨x', hx', hr⟩ := C34_partial cfg hv f hw
    rw [hx] at hx'; cases hx'
    rw [(hr hL junk lost hlost).2, if_pos hj]

/-- A frame meeting these hypotheses, and a longer form of it: the length in two bytes instead of one. -/
example : (Sample.foreground 25 ⟨[tag]⟩).WF spec ∧
    (∀ a ∈ (Sample.foreground 25 ⟨[tag]⟩).frame.frame.command.actions, Spec.spare a = 0) ∧
    ∃ x, (Sample.foreground 25 ⟨[tag]⟩).toBytes spec = .ok x ∧
      (Sample.foreground 25 ⟨[tag]⟩).header.length.val.toNat + 2 = x.length ∧
      ForegroundFrame.tryFrom spec (x ++ [0]) = .ok (Sample.foreground 25 ⟨[tag]⟩) ∧
      ForegroundFrame.tryFrom spec ([0x40, 25] ++ x.drop 1 ++ [0]) = .ok (Sample.foreground 25 ⟨[tag]⟩) :=
  ⟨by decide +kernel, by decide +kernel, _, rfl, by decide +kernel, by decide +kernel, by decide +kernel⟩

/-- **C91** fails for foreground frames too: here 65 bytes of an access profile are announced by one byte instead of two.
The length field of this frame tells where the command ends in the shorter form. -/
theorem C91_foreground_violates (cfg : Cfg) (hv : cfg.variant ≠ .wizzilab) :
    (Sample.foreground 93 ⟨[echo]⟩).WF cfg ∧
    (match (Sample.foreground 93 ⟨[echo]⟩).toBytes cfg with
      | .error _ => false
      | .ok x => decide (
          ForegroundFrame.tryFrom cfg
              (x.take 27 ++ [0x3F] ++ x.drop 29 ++ List.replicate (if cfg.endCounts then 2 else 1) 0) =
            .ok (Sample.foreground 93 ⟨[echo]⟩) ∧
          (x.take 27 ++ [0x3F] ++ x.drop 29).length + 1 = x.length)) = true := by
  rcases cfg with ⟨v, a, b, c, d⟩
  cases v
  · cases a <;> cases b <;> cases c <;> cases d <;> decide +kernel
  · cases a <;> cases b <;> cases c <;> cases d <;> decide +kernel
  · exact absurd rfl hv

/-- **C91** for network frames outside wizzilab builds. -/
theorem C91_network (cfg : Cfg) (hv : cfg.variant ≠ .wizzilab) (f : Net.Frame) (hw : f.WF cfg)
    (x : List U8) (hx : f.toBytes cfg = .ok x) (y : List U8) (hy : Net.Frame.tryFrom cfg y = .ok f) :
    x.length + (if f.frame.command.actions = [] then 0 else Spec.dropped cfg f.frame.command.actions.length) ≤
      y.length + (f.frame.command.actions.map Spec.spare).sum := by
  have hact : ∀ a ∈ f.frame.command.actions, a.WF cfg := hw.2.2.1
  have hm : (Alike.network cfg.variant f).length = 8 * x.length := by
    have hs := C85_network cfg f
    rw [hx] at hs
    cases e : Size.network cfg.variant f with
    | none => rw [e] at hs; cases hs
    | some n =>
      rw [e] at hs
      have hs : x.length = (n + 7) / 8 := by simpa [Size.result, Size.bytes, Except.map] using hs
      have h8 := Alike.network_dvd hv hact e
      rw [Alike.network_size hact e]
      omega
  obtain ⟨head, wire, junk, rfl, h1, h2, -, h3⟩ := (C57_network_accepts cfg hv y f).1 hy
  have l1 := (Whole.cons (Whole.netHeader cfg.variant f.header) (Whole.last (Whole.transHeader f.frame.header))).min _ h1
  have l2 := Alike.command_long hact h2
  rw [Form.ofBytes_length] at l1
  unfold Alike.network at hm
  simp only [List.length_append] at *
  rcases h3 with ⟨e, rfl⟩ | ⟨⟨a, ha, -⟩, hj⟩
  · rw [if_pos e]; omega
  · rw [if_neg (by intro e; rw [e] at ha; cases ha)]; omega

/-- A network frame meeting these hypotheses: an indirect forward ends the command, and one byte gets lost. -/
example : (Net.Frame.mk Sample.netHeader ⟨Sample.transHeader, ⟨[indirect]⟩⟩).WF spec ∧
    ∃ x, (Net.Frame.mk Sample.netHeader ⟨Sample.transHeader, ⟨[indirect]⟩⟩).toBytes spec = .ok x ∧
      Net.Frame.tryFrom spec (x ++ [0]) = .ok ⟨Sample.netHeader, ⟨Sample.transHeader, ⟨[indirect]⟩⟩⟩ :=
  ⟨by decide +kernel, _, rfl, by decide +kernel⟩

#print axioms C91_foreground
#print axioms C91_foreground_partial
#print axioms C91_foreground_violates
#print axioms C91_network

end Dash7
