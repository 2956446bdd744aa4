import Verif.Props.Checksum
import Verif.Props.HopeCommand
import Verif.Props.Offset
import Verif.Props.Retag

/-!
# C77 in every build

The readers of a wizzilab build do not stand at a byte boundary when the command begins. If seeking drops the bits kept
back, the CRC is two bytes nevertheless, and no action is read from them. If it keeps them, the CRC may overlap the last
action.
-/

namespace Dash7
open Sample Spec

theorem asked_split (cfg : Cfg) (limit : Nat) (s : List Bool) :
    ∃ pre, s = pre ++ asked cfg limit s ∧ ∀ t, t.length = (asked cfg limit s).length → asked cfg limit (pre ++ t) = t := by
  unfold asked
  split
  · refine ⟨s.take (s.length % 8), by rw [wholeBytes, List.take_append_drop], fun t ht => ?_⟩
    rw [wholeBytes_length] at ht
    have hl : (s.take (s.length % 8)).length = s.length % 8 := by rw [List.length_take]; omega
    rw [wholeBytes, List.length_append, hl]
    exact List.drop_left' (by rw [hl]; omega)
  · exact ⟨[], rfl, fun _ _ => rfl⟩

theorem endTest_length (cfg : Cfg) {s t : List Bool} (h : s.length = t.length) : endTest cfg s = endTest cfg t := by
  have : s = [] ↔ t = [] := by rw [← List.length_eq_zero_iff, h, List.length_eq_zero_iff]
  unfold endTest
  rw [h]
  simp only [ne_eq, this]

/-- If seeking drops the bits kept back, what stands behind the command has no part in it. -/
theorem reading_front {cfg : Cfg} (hc : cfg.seekClears = true) {limit size : Nat} {stop : Bool} {as : List Action}
    {s left : List Bool} {n : Nat} (h : reading cfg limit size stop as s left n) :
    ∃ pre, s = pre ++ left ∧
      ∀ left', left'.length = left.length → reading cfg limit size stop as (pre ++ left') left' n := by
  induction as generalizing stop s n with
  | nil =>
    obtain ⟨rfl, h⟩ := h
    obtain ⟨pre, hs, ha⟩ := asked_split cfg limit s
    refine ⟨pre, hs, fun left' hl => ⟨(ha left' hl).symm, ?_⟩⟩
    have hb : bytePosition size left' = bytePosition size (asked cfg limit s) := by
      unfold bytePosition; rw [hl]
    have hn : left' = [] ↔ asked cfg limit s = [] := by
      rw [← List.length_eq_zero_iff, hl, List.length_eq_zero_iff]
    rw [hb, endTest_length cfg hl, hn]
    exact h
  | cons a as ih =>
    obtain ⟨h1, h2, h3, h4, wire, more, m, h5, h6, h7, rfl⟩ := h
    obtain ⟨pre', rfl, hi⟩ := ih h7
    obtain ⟨pre, hs, ha⟩ := asked_split cfg limit s
    generalize hs1 : asked cfg limit s = s1 at *
    have hw := h5
    rw [steppedBack, if_pos hc] at hw
    have hs1' : s1 = s1.take (s1.length % 8) ++ (wire ++ (pre' ++ left)) := by
      rw [← hw, wholeBytes, List.take_append_drop]
    have hl1 : (s1.take (s1.length % 8)).length = s1.length % 8 := by rw [List.length_take]; omega
    have h8 := (operand_ends h6).1
    refine ⟨pre ++ (s1.take (s1.length % 8) ++ (wire ++ pre')), ?_, fun left' hl => ?_⟩
    · rw [hs]
      conv => lhs; rw [hs1']
      simp only [List.append_assoc]
    · have hlen : (s1.take (s1.length % 8) ++ (wire ++ (pre' ++ left'))).length = s1.length := by
        conv => rhs; rw [hs1']
        simp only [List.length_append, hl]
      have hask : asked cfg limit (pre ++ (s1.take (s1.length % 8) ++ (wire ++ pre')) ++ left') =
          s1.take (s1.length % 8) ++ (wire ++ (pre' ++ left')) := by
        rw [show pre ++ (s1.take (s1.length % 8) ++ (wire ++ pre')) ++ left' =
          pre ++ (s1.take (s1.length % 8) ++ (wire ++ (pre' ++ left'))) by simp only [List.append_assoc]]
        exact ha _ hlen
      have hstep : steppedBack cfg (s1.take (s1.length % 8) ++ (wire ++ (pre' ++ left'))) = wire ++ (pre' ++ left') := by
        rw [steppedBack, if_pos hc, wholeBytes, hlen]
        exact List.drop_left' hl1
      have hfront : ∀ t : List Bool, ((s1.take (s1.length % 8) ++ (wire ++ t)).drop 2).take 6 =
          ((s1.take (s1.length % 8) ++ wire).drop 2).take 6 := by
        intro t
        have hge : 8 ≤ (s1.take (s1.length % 8) ++ wire).length := by rw [List.length_append]; omega
        rw [← List.append_assoc, List.drop_append_of_le_length (by omega),
          List.take_append_of_le_length (by rw [List.length_drop]; omega)]
      unfold reading
      dsimp only
      rw [hask]
      refine ⟨?_, h2, by omega, ?_, wire, pre' ++ left', m, hstep, h6, hi left' hl, ?_⟩
      · have : bytePosition size (s1.take (s1.length % 8) ++ (wire ++ (pre' ++ left'))) = bytePosition size s1 := by
          unfold bytePosition; rw [hlen]
        rw [this]; exact h1
      · rw [hfront, ← hfront (pre' ++ left), ← hs1']; exact h4
      · rw [endTest_length cfg hlen]

/-- ... and it begins at a byte boundary, -/
theorem reading_even {cfg : Cfg} (hc : cfg.seekClears = true) {limit size : Nat} {stop : Bool} {as : List Action}
    {s left : List Bool} {n : Nat} (h : reading cfg limit size stop as s left n) (hs : stop = true → 8 ∣ s.length) :
    8 ∣ left.length := by
  induction as generalizing stop s n with
  | nil =>
    obtain ⟨rfl, h⟩ := h
    by_cases hl : limit = 0
    · subst hl
      rw [asked_unlimited] at h ⊢
      rcases h with ⟨h, -⟩ | ⟨-, h | h, -⟩
      · exact absurd h (not_limit_zero _)
      · rw [h]; exact ⟨0, rfl⟩
      · exact hs h
    · rw [asked, if_pos ⟨hl, hc⟩, wholeBytes_length]; omega
  | cons a as ih =>
    obtain ⟨-, -, -, -, wire, more, m, h5, h6, h7, -⟩ := h
    refine ih h7 fun hi => ?_
    rw [steppedBack, if_pos hc] at h5
    have hl := congrArg List.length h5
    rw [wholeBytes_length, List.length_append] at hl
    have := (operand_ends h6).2.1 (by cases a <;> first | rfl | cases hi)
    omega

theorem Form.ofBytes_split {data : List U8} {x y : List Bool} (h : Form.ofBytes data = x ++ y) (hy : 8 ∣ y.length) :
    ∃ front behind, data = front ++ behind ∧ Form.ofBytes front = x ∧ Form.ofBytes behind = y := by
  have hl := congrArg List.length h
  rw [Form.ofBytes_eq, bytesBits_length, List.length_append] at hl
  have hx : 8 * (x.length / 8) = x.length := by omega
  refine ⟨data.take (x.length / 8), data.drop (x.length / 8), (List.take_append_drop _ _).symm, ?_, ?_⟩
  · rw [Form.ofBytes_eq] at h ⊢
    rw [bytesBits_take, h, hx, List.take_left' rfl]
  · rw [Form.ofBytes_eq] at h ⊢
    rw [bytesBits_drop, h, hx, List.drop_left' rfl]

/-- **C77** (partial: nothing is checked) Also in wizzilab builds, if seeking drops the bits kept back: the two bytes
behind the command are the CRC, in the byte order of the host. Whatever they are, and whatever the bytes behind them
are, the frame is accepted, and with others only the CRC changes. -/
theorem C77_wizzilab_partial (cfg : Cfg) (hc : cfg.seekClears = true) (data : List U8) (f : ForegroundFrame)
    (h : ForegroundFrame.tryFrom cfg data = .ok f) :
    ∃ front c d behind, data = front ++ (c :: d :: behind) ∧ f.crc16 = Spec.hostPair cfg.bigEndianHost c d ∧
      ∀ c' d' behind', behind'.length = behind.length →
        ForegroundFrame.tryFrom cfg (front ++ (c' :: d' :: behind')) =
          .ok { f with crc16 := Spec.hostPair cfg.bigEndianHost c' d' } := by
  obtain ⟨left, n, ⟨h1, b1, crc, m1, e1, g1, ⟨h2, b2, m2, e2, g2, ⟨h3, b3, m3, e3, g3, hr, k3⟩, k2⟩, hcrc, k1⟩, hn⟩ :=
    (C58_foreground cfg data f).1 h
  have h16 : crc.length = 16 := by
    obtain ⟨cs, rfl, hl, -⟩ := hcrc
    rw [Form.ofBytes_eq, bytesBits_length] at hl ⊢
    have : (if cfg.bigEndianHost then cs else cs.reverse).length = cs.length := by
      cases cfg.bigEndianHost <;> simp
    omega
  have hev := reading_even hc hr (by simp)
  obtain ⟨pre, rfl, hi⟩ := reading_front hc hr
  have hall : Form.ofBytes data = (h1 ++ (h2 ++ (h3 ++ pre))) ++ (crc ++ left) := by
    rw [e1, e2, e3]; simp only [List.append_assoc]
  obtain ⟨front, back, rfl, hf, hb⟩ := Form.ofBytes_split hall hev
  rw [List.length_append] at hev
  obtain ⟨cd, behind, rfl, rfl, hbehind⟩ := Form.ofBytes_split hb (by omega)
  obtain ⟨c, d, rfl⟩ := hostNumber_two hcrc
  refine ⟨front, c, d, behind, rfl, (hostPair_form _ _ _ _).1 hcrc, fun c' d' behind' hl => ?_⟩
  have hbl : (Form.ofBytes behind').length = left.length := by
    rw [← hbehind, Form.ofBytes_eq, Form.ofBytes_eq, bytesBits_length, bytesBits_length, hl]
  have hlen : (front ++ (c' :: d' :: behind')).length = (front ++ ([c, d] ++ behind)).length := by simp [hl]
  have hap : Form.ofBytes (front ++ (c' :: d' :: behind')) =
      h1 ++ (h2 ++ (h3 ++ (pre ++ (Form.ofBytes [c', d'] ++ Form.ofBytes behind')))) := by
    rw [Form.ofBytes_append, hf, show c' :: d' :: behind' = [c', d'] ++ behind' from rfl, Form.ofBytes_append]
    simp only [List.append_assoc]
  have hr' := hi (Form.ofBytes [c', d'] ++ Form.ofBytes behind') (by
    rw [List.length_append, List.length_append, hbl]; rfl)
  refine (C58_foreground cfg _ _).2 ⟨Form.ofBytes behind', n, ⟨h1, _, Form.ofBytes [c', d'], m1, hap, g1,
    ⟨h2, _, m2, rfl, g2, ⟨h3, _, m3, rfl, g3, ?_, k3⟩, k2⟩, (hostPair_form _ _ _ _).2 rfl, k1⟩, ?_⟩
  · rw [hlen]; exact hr'
  · rw [hlen]; exact hn

/-- **C77** In a wizzilab build where seeking keeps the bits back it is worse: the CRC begins with the last bit of the
last action, so that another CRC makes another command. -/
theorem C77_overlap_violates (cfg : Cfg) (hv : cfg.variant = .wizzilab) (hc : cfg.seekClears = false) :
    ∃ data data' f f' front crc crc' behind, ForegroundFrame.tryFrom cfg data = .ok f ∧
      ForegroundFrame.tryFrom cfg data' = .ok f' ∧ Form.ofBytes data = front ++ (crc ++ behind) ∧
      Form.ofBytes data' = front ++ (crc' ++ behind) ∧ Form.hostNumber cfg.bigEndianHost 2 f.crc16.toNat crc ∧
      Form.hostNumber cfg.bigEndianHost 2 f'.crc16.toNat crc' ∧
      f.frame.frame.command.actions = [.nop ⟨⟨false, false⟩, ⟨0⟩⟩] ∧
      f'.frame.frame.command.actions = [.nop ⟨⟨true, false⟩, ⟨0⟩⟩] := by
  have key : ∀ b : U8, b = 0 ∨ b = 1 → ∃ f,
      ForegroundFrame.tryFrom cfg [0x0A, 0x05, 0x40, 0, 0, 0, 0, 0, 0, b, 0, 0] = .ok f ∧
      f.crc16 = Spec.hostPair cfg.bigEndianHost (b <<< 7) 0 ∧
      f.frame.frame.command.actions = [.nop ⟨⟨b == 1, false⟩, ⟨0⟩⟩] := by
    intro b hb
    have : ((ForegroundFrame.tryFrom cfg [0x0A, 0x05, 0x40, 0, 0, 0, 0, 0, 0, b, 0, 0]).toOption.map fun f =>
        (f.crc16, f.frame.frame.command.actions)) =
        some (Spec.hostPair cfg.bigEndianHost (b <<< 7) 0, [.nop ⟨⟨b == 1, false⟩, ⟨0⟩⟩]) := by
      rcases cfg with ⟨v, big, e, c, u⟩
      dsimp only at hv hc
      subst hv hc
      rcases hb with rfl | rfl <;> revert big e u <;> decide +kernel
    cases hx : ForegroundFrame.tryFrom cfg [0x0A, 0x05, 0x40, 0, 0, 0, 0, 0, 0, b, 0, 0] with
    | error e => rw [hx] at this; cases this
    | ok f =>
      rw [hx] at this
      simp only [Except.toOption, Option.map_some, Option.some.injEq, Prod.mk.injEq] at this
      exact ⟨f, rfl, this⟩
  obtain ⟨f, h1, h2, h3⟩ := key 0 (.inl rfl)
  obtain ⟨f', h1', h2', h3'⟩ := key 1 (.inr rfl)
  refine ⟨_, _, f, f', (Form.ofBytes [0x0A, 0x05, 0x40, 0, 0, 0, 0, 0, 0, 0]).take 79, Form.ofBytes [0, 0],
    Form.ofBytes [0x80, 0], [false], h1, h1', by decide, by decide, (hostPair_form _ _ _ _).2 h2,
    (hostPair_form _ _ _ _).2 h2', h3, h3'⟩

/-- A frame of a wizzilab build, with two CRCs. -/
example : (ForegroundFrame.tryFrom wizzilab [0x0A, 0x05, 0x40, 0, 0, 0, 0, 0, 0, 0, 0x12, 0x34]).isOk = true ∧
    (ForegroundFrame.tryFrom wizzilab [0x0A, 0x05, 0x40, 0, 0, 0, 0, 0, 0, 0, 0xFF, 0xFE]).isOk = true ∧
    wizzilab.seekClears = true := by decide +kernel

#print axioms C77_wizzilab_partial
#print axioms C77_overlap_violates

end Dash7
