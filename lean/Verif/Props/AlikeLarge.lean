import Verif.Lemmas.AlikeLarge
import Verif.Lemmas.FlipAll
import Verif.Props.Alike

/-!
# C94 for actions carrying an access profile or a PHY status of 64 bytes or more
-/

namespace Dash7

open Sample

/-- The bits `y` have the parts of a write or return of a file that `x` has: the first two bytes, the offset in `k` bytes
more than one, a length of the file in `k'` bytes more than one of which only this matters, and the content. In `x`,
the offset takes `k0` bytes more than one, and the length of the file one more. -/
def Alike.SameFile (o : Op.FileData) (k0 : Nat) (x y : List Bool) (k k' : Nat) : Prop :=
  y.take 16 = x.take 16 ∧
  Form.field 2 k ((y.drop 16).take 2) ∧
  Form.field (6 + 8 * k) o.offset.offset.val.toNat ((y.drop 18).take (6 + 8 * k)) ∧
  Form.field 2 k' ((y.drop (24 + 8 * k)).take 2) ∧
  Alike.Same (Alike.content o.data) (x.drop (40 + 8 * k0))
    ((y.drop (32 + 8 * k + 8 * k')).take (Alike.content o.data).length)

/-- **C94** for actions carrying an access profile or a PHY status of 64 bytes or more, whose encoding has two bytes of
length of the file: besides those which have these parts in the same places, there are just those with one byte of this
length, which have a byte more of the offset, or one byte of any value at the end. -/
theorem C94_large_action (cfg : Cfg) (a : Action) (hw : a.WF cfg) (hl : Spec.spare a = 1) (o : Op.FileData)
    (ho : Spec.withFileData a o) (x : List U8) (hx : a.toBytes cfg = .ok x) (y : List U8) (hy : y.length = x.length)
    (k0 : Nat) (hk0 : k0 = Spec.lengthExtra o.offset.offset.val.toNat) :
    Action.tryFrom cfg y = .ok a ↔ ∃ k k', (k, k') ∈ [(k0, 1), (k0, 0), (k0 + 1, 0)] ∧
      Alike.SameFile o k0 (Form.ofBytes x) (Form.ofBytes y) k k' := by
  have hlarge : (∃ i p, o.data = .accessProfile i p) ∨ ∃ p, o.data = .phyStatus p := by
    obtain ⟨o', ho', h⟩ := (Spec.spare_iff a).1 hl
    have : o' = o := by
      rcases ho with rfl | rfl | rfl <;> rcases ho' with h | h | h <;> cases h <;> rfl
    subst this
    rcases h with h | ⟨p, h, -⟩
    · exact .inl h
    · exact .inr ⟨p, h⟩
  have hl' : Ignored.large a = true := by unfold Spec.spare at hl; split at hl <;> simp_all
  obtain ⟨code, o', h⟩ := Ignored.Large.of hw hl'
  have : o' = o := by
    rcases ho with rfl | rfl | rfl <;> rcases h.op with h | h | h <;> cases h <;> rfl
  subst this
  obtain ⟨c0, hp, -⟩ := h.parts hw hx
  rw [← hk0] at hp
  have len0 := Long.large hlarge c0 hp.content
  have tot := hp.total
  rw [Form.ofBytes_length] at tot
  have hpre := hp.pre
  rw [List.append_nil, show 32 + 8 * k0 + 8 * 1 = 40 + 8 * k0 by omega] at hpre
  have whole := Whole.file cfg.bigEndianHost o'.offset.fileId.toNat 0 o'.data
  rw [h.tryFrom]
  constructor
  · rintro ⟨c, junk, ⟨k, k', hq⟩, hj⟩
    have len := Long.large hlarge c hq.content
    have l1 := hq.long
    have l2 := congrArg List.length hq.pre
    rw [List.length_append, List.length_drop, Form.ofBytes_length] at l2
    rw [Form.ofBytes_length] at l1
    have hmin := lengthExtra_min _ k hq.hk (Form.field_lt hq.offset)
    rw [← hk0] at hmin
    refine ⟨k, k', ?_, ?_, hq.sel, hq.offset, hq.sel', ?_⟩
    · simp only [List.mem_cons, Prod.mk.injEq, List.not_mem_nil, or_false]
      omega
    · have hr : Rigid (Form.all [Form.header o'.header, Form.opcode o'.opcode code,
          Form.field 8 o'.offset.fileId.toNat]) 16 :=
        ((Rigid.header _).cons ((Rigid.opcode _ _).cons ((Rigid.field 8 _).cons Rigid.nil))).cast rfl
      have := hr.eq _ _ hq.start hp.start
      rwa [List.drop_zero, List.drop_zero] at this
    · rw [hpre, hq.pre, ← len, List.take_left]
      exact (whole.all c0 c hp.content len0 len).1 hq.content
  · rintro ⟨k, k', hkk, h1, h2, h3, h4, h5⟩
    simp only [List.mem_cons, Prod.mk.injEq, List.not_mem_nil, or_false] at hkk
    have hk : k < 4 := by
      have := Form.field_lt h2; omega
    have len : (((Form.ofBytes y).drop (32 + 8 * k + 8 * k')).take (Alike.content o'.data).length).length =
        (Alike.content o'.data).length := by
      rw [List.length_take, List.length_drop, Form.ofBytes_length]; omega
    rw [hpre] at h5
    refine ⟨_, ((Form.ofBytes y).drop (32 + 8 * k + 8 * k')).drop (Alike.content o'.data).length, ⟨k, k', hk, by omega, ?_, ?_,
      h2, h3, h4, (whole.all c0 _ hp.content len0 len).2 h5, (List.take_append_drop _ _).symm⟩, ?_⟩
    · rw [Form.ofBytes_length]; omega
    · have := hp.start
      rw [List.drop_zero] at this ⊢
      rw [h1]; exact this
    · rw [List.length_drop, List.length_drop, Form.ofBytes_length]; omega

/-- An action meeting these hypotheses, and its other forms: here, as in the encoding but for the value of the length, with
one byte of length and one behind the action, and with one byte of length and two of the offset. -/
example : echo.WF spec ∧ Spec.spare echo = 1 ∧
    (∃ o, Spec.withFileData echo o ∧ Spec.lengthExtra o.offset.offset.val.toNat = 0) ∧
    ∃ x, echo.toBytes spec = .ok x ∧ x.take 5 = [0x04, 0x20, 0x00, 0x40, 0x41] ∧
      Action.tryFrom spec ([0x04, 0x20, 0x00, 0x7F, 0xFF] ++ x.drop 5) = .ok echo ∧
      Action.tryFrom spec ([0x04, 0x20, 0x00, 0x3F] ++ x.drop 5 ++ [0xFF]) = .ok echo ∧
      Action.tryFrom spec ([0x04, 0x20, 0x40, 0x00, 0x3F] ++ x.drop 5) = .ok echo := by
  refine ⟨by decide +kernel, by decide +kernel, ⟨_, .inl rfl, by decide⟩, _, rfl, ?_, ?_, ?_, ?_⟩ <;> decide +kernel

#print axioms C94_large_action

end Dash7
