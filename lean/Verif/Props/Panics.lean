import Verif.Props.Offset
import Verif.Props.Cli

/-!
# When `from_bytes` panics

C36 and C53 fail: `from_bytes` of actions and commands panics at some offsets, and `from_bytes` of frames on ordinary
input. Here is exactly when.
-/

namespace Dash7
open Sample Spec

theorem padRest_panics (data : List U8) (off n : Nat) (e : Err) :
    padRest (data, off) n = .error e ↔ e = .fault .panic ∧ cutsTooFar data off n := by
  unfold padRest cutsTooFar sliceFrom
  dsimp only
  rw [Nat.mul_comm]
  have hidx : (if n % 8 = 0 then n / 8 else (n - n % 8) / 8) = n / 8 := by split <;> omega
  rw [hidx]
  split
  · rename_i hle
    constructor
    · intro h; cases h
    · rintro ⟨-, h, -⟩; omega
  · rename_i hle
    split
    · rename_i s hs
      split at hs
      · constructor
        · intro h; cases h
        · rintro ⟨-, -, h⟩; omega
      · cases hs
    · rename_i e' hs
      split at hs
      · cases hs
      · cases hs
        constructor
        · intro h; cases h; exact ⟨rfl, by omega, by omega⟩
        · rintro ⟨rfl, -⟩; rfl

theorem fromBytes_panics {α : Type} {m : R α} (data : List U8) (off : Nat)
    (hm : ∀ r f, r.OK → m r = .error (.fault f) → f = .parse ∨ f = .invalidParam) :
    fromBytes m (data, off) = .error (.fault .panic) ↔
      ∃ count a, fromReader m data off = .ok (count, a) ∧ cutsTooFar data off count := by
  have ht := fromReader_total data off hm
  unfold fromBytes
  unfold fromReader at ht ⊢
  dsimp only
  cases hs : startAt off m (Rd.new data) with
  | error e =>
    rw [hs] at ht
    constructor
    · intro h
      cases h
      rcases ht with ⟨v, h⟩ | ⟨e, h, h'⟩
      · cases h
      · cases h
        rcases h' with h' | h' | h' <;> cases h'
    · rintro ⟨count, a, h, -⟩
      cases h
  | ok x =>
    obtain ⟨a, r⟩ := x
    dsimp only
    constructor
    · intro h
      split at h
      · cases h
      · rename_i e he
        cases h
        exact ⟨_, a, rfl, ((padRest_panics _ _ _ _).1 he).2⟩
    · rintro ⟨count, b, h, hc⟩
      cases h
      rw [(padRest_panics _ _ _ _).2 ⟨rfl, hc⟩]

/-- **C36** Exactly when `from_bytes` of an action or a command panics: the value can be read, but in looking ahead at
least eight bits behind the input were counted, and fewer than were skipped in front. In all other cases it returns. -/
theorem C36_panics_exactly (cfg : Cfg) (data : List U8) (off : Nat) :
    (Action.fromBytes cfg (data, off) = .error (.fault .panic) ↔
      ∃ count a, Action.fromReader cfg data off = .ok (count, a) ∧
        8 * data.length + 8 ≤ count ∧ count < 8 * data.length + off) ∧
    (Command.fromBytes cfg (data, off) = .error (.fault .panic) ↔
      ∃ count c, Command.fromReader cfg data off = .ok (count, c) ∧
        8 * data.length + 8 ≤ count ∧ count < 8 * data.length + off) := by
  have hc : ∀ n, cutsTooFar data off n ↔ 8 * data.length + 8 ≤ n ∧ n < 8 * data.length + off := by
    intro n
    unfold cutsTooFar
    omega
  constructor
  · have := fromBytes_panics (m := Action.read cfg) data off fun _ _ h hr => Action.read_fault h hr
    simp only [hc] at this
    exact this
  · have := fromBytes_panics (m := Command.read cfg 0) data off fun _ _ h hr => Command.read_fault h hr
    simp only [hc] at this
    exact this

/-- **C36** A panic is all that can go wrong: otherwise there is a value or a refusal. -/
theorem C36_no_other_panic (cfg : Cfg) (data : List U8) (off : Nat) :
    (Total (Action.fromBytes cfg (data, off)) ∨ Action.fromBytes cfg (data, off) = .error (.fault .panic)) ∧
    (Total (Command.fromBytes cfg (data, off)) ∨ Command.fromBytes cfg (data, off) = .error (.fault .panic)) := by
  have key : ∀ {α : Type} (m : R α), Total (fromReader m data off) →
      Total (fromBytes m (data, off)) ∨ fromBytes m (data, off) = .error (.fault .panic) := by
    intro α m ht
    unfold fromBytes
    unfold fromReader at ht
    dsimp only
    cases hs : startAt off m (Rd.new data) with
    | error e => rw [hs] at ht; exact .inl (by
        rcases ht with ⟨v, h⟩ | ⟨e, h, h'⟩
        · cases h
        · cases h; exact .inr ⟨_, rfl, h'⟩)
    | ok x =>
      obtain ⟨a, r⟩ := x
      dsimp only
      split
      · exact .inl (.inl ⟨_, rfl⟩)
      · rename_i e he
        rw [((padRest_panics _ _ _ _).1 he).1]
        exact .inr rfl
  exact ⟨key _ (fromReader_total data off fun _ _ h hr => Action.read_fault h hr),
    key _ (fromReader_total data off fun _ _ h hr => Command.read_fault h hr)⟩

theorem derivedFromBytes_panics {α : Type} {m : R α} {T} (ht : Takes m T) (hm : R.Tame m) (data : List U8) (off : Nat) :
    derivedFromBytes m (data, off) = .error (.fault .panic) ↔
      off ≤ 8 * data.length ∧
        ∃ a left n, T data.length a ((Form.ofBytes data).drop off) left n ∧ data.length < (off + n) / 8 := by
  have hs := fun a k => ht.start data off a k
  have key : derivedFromBytes m (data, off) = .error (.fault .panic) ↔
      ∃ a k, (∃ r, startAt off m (Rd.new data) = .ok (a, r) ∧ r.bitsRead = k) ∧ data.length < k / 8 := by
    have htot := fromReader_total data off fun r f h hr => hm.err h hr
    unfold derivedFromBytes sliceFrom
    unfold fromReader at htot
    dsimp only
    cases hx : startAt off m (Rd.new data) with
    | error e =>
      rw [hx] at htot
      constructor
      · intro h
        cases h
        rcases htot with ⟨v, h⟩ | ⟨e, h, h'⟩
        · cases h
        · cases h
          rcases h' with h' | h' | h' <;> cases h'
      · rintro ⟨a, k, ⟨r, h, -⟩, -⟩
        cases h
    | ok x =>
      obtain ⟨a, r⟩ := x
      dsimp only
      constructor
      · intro h
        refine ⟨a, _, ⟨r, rfl, rfl⟩, ?_⟩
        by_cases hle : r.bitsRead / 8 ≤ data.length
        · rw [if_pos hle] at h; cases h
        · omega
      · rintro ⟨b, k, ⟨r', h, rfl⟩, hlt⟩
        cases h
        rw [if_neg (by omega)]
  rw [key]
  simp only [hs]
  constructor
  · rintro ⟨a, k, ⟨hle, left, n, hT, rfl⟩, hlt⟩
    exact ⟨hle, a, left, n, hT, hlt⟩
  · rintro ⟨hle, a, left, n, hT, hlt⟩
    exact ⟨a, _, ⟨hle, left, n, hT, rfl⟩, hlt⟩

theorem derivedFromBytes_otherwise {α : Type} {m : R α} (hm : R.Tame m) (data : List U8) (off : Nat) :
    Total (derivedFromBytes m (data, off)) ∨ derivedFromBytes m (data, off) = .error (.fault .panic) := by
  have ht := fromReader_total data off fun r f h hr => hm.err h hr
  unfold derivedFromBytes sliceFrom
  unfold fromReader at ht
  dsimp only
  cases hs : startAt off m (Rd.new data) with
  | error e =>
    rw [hs] at ht
    rcases ht with ⟨v, h⟩ | ⟨e, h, h'⟩
    · cases h
    · cases h; exact .inl (.inr ⟨_, rfl, h'⟩)
  | ok x =>
    obtain ⟨a, r⟩ := x
    dsimp only
    by_cases hle : r.bitsRead / 8 ≤ data.length
    · rw [if_pos hle]; exact .inl (.inl ⟨_, rfl⟩)
    · rw [if_neg hle]; exact .inr rfl

theorem Trans.Frame.tame (cfg : Cfg) : R.Tame (Trans.Frame.read cfg 0) := by
  unfold Trans.Frame.read
  exact R.Tame.bind (.run Trans.Header.safe) fun _ => R.Tame.bind (Command.tame cfg _) fun _ => .pure _

theorem Net.Frame.tame (cfg : Cfg) : R.Tame (Net.Frame.read cfg 0) := by
  unfold Net.Frame.read
  exact R.Tame.bind (.run (Net.Header.safe cfg)) fun _ => R.Tame.bind (Trans.Frame.tame cfg) fun _ => .pure _

/-- **C53** Exactly when `from_bytes` of a frame panics, at any bit offset: a frame can be read, but the bits counted,
those looked at ahead included, end behind the input. -/
theorem C53_panics_exactly (cfg : Cfg) (data : List U8) (off : Nat) :
    (ForegroundFrame.fromBytes cfg (data, off) = .error (.fault .panic) ↔ off ≤ 8 * data.length ∧
      ∃ f left n, foregroundReading cfg data.length f ((Form.ofBytes data).drop off) left n ∧
        data.length < (off + n) / 8) ∧
    (Net.Frame.fromBytes cfg (data, off) = .error (.fault .panic) ↔ off ≤ 8 * data.length ∧
      ∃ f left n, netReading cfg 0 data.length f ((Form.ofBytes data).drop off) left n ∧
        data.length < (off + n) / 8) ∧
    (Trans.Frame.fromBytes cfg (data, off) = .error (.fault .panic) ↔ off ≤ 8 * data.length ∧
      ∃ f left n, transReading cfg 0 data.length f ((Form.ofBytes data).drop off) left n ∧
        data.length < (off + n) / 8) :=
  ⟨derivedFromBytes_panics (ForegroundFrame.takes cfg) (ForegroundFrame.tame cfg) data off,
    derivedFromBytes_panics (Net.Frame.takes cfg 0) (Net.Frame.tame cfg) data off,
    derivedFromBytes_panics (Trans.Frame.takes cfg 0) (Trans.Frame.tame cfg) data off⟩

/-- **C53** Otherwise `from_bytes` returns a frame or a refusal. -/
theorem C53_from_bytes_partial (cfg : Cfg) (data : List U8) (off : Nat) :
    (Total (ForegroundFrame.fromBytes cfg (data, off)) ∨
      ForegroundFrame.fromBytes cfg (data, off) = .error (.fault .panic)) ∧
    (Total (Net.Frame.fromBytes cfg (data, off)) ∨ Net.Frame.fromBytes cfg (data, off) = .error (.fault .panic)) ∧
    (Total (Trans.Frame.fromBytes cfg (data, off)) ∨
      Trans.Frame.fromBytes cfg (data, off) = .error (.fault .panic)) :=
  ⟨derivedFromBytes_otherwise (ForegroundFrame.tame cfg) data off, derivedFromBytes_otherwise (Net.Frame.tame cfg) data off,
    derivedFromBytes_otherwise (Trans.Frame.tame cfg) data off⟩

/-- **C53** fails for network frames of two no-operations (in wizzilab builds, if seeking drops the bits kept back) -/
theorem C53_network_violates (cfg : Cfg) (h : cfg.variant = .wizzilab → cfg.seekClears = true) :
    Net.Frame.fromBytes cfg ([0, 0, 0, 0, 0, 0, 0, 0, 0], 0) = .error (.fault .panic) := by
  rcases cfg with ⟨v, a, b, c, d⟩
  cases v
  case wizzilab =>
    obtain rfl : c = true := h rfl
    revert a b d
    decide +kernel
  all_goals clear h; revert a b c d; decide +kernel

/-- **C53** ... and for transport frames of two no-operations, if seeking drops the bits kept back. -/
theorem C53_transport_violates (cfg : Cfg) (h : cfg.seekClears = true) :
    Trans.Frame.fromBytes cfg ([0, 0, 0, 0, 0], 0) = .error (.fault .panic) := by
  rcases cfg with ⟨v, a, b, c, d⟩
  obtain rfl : c = true := h
  cases v <;> revert a b d <;> decide +kernel

/-- The panic of C36: 24 bits skipped, an action read, 16 bits behind the input counted. -/
example (cfg : Cfg) : ∃ count c, Command.fromReader cfg [0x11, 0x22, 0x33, 0x00] 24 = .ok (count, c) ∧
    8 * 4 + 8 ≤ count ∧ count < 8 * 4 + 24 :=
  (C36_panics_exactly cfg [0x11, 0x22, 0x33, 0x00] 24).2.1 (C36_panics cfg).2
example : ∃ f left n, transReading spec 0 5 f (Form.ofBytes [0, 0, 0, 0, 0]) left n ∧ 5 < (0 + n) / 8 :=
  ((C53_panics_exactly spec [0, 0, 0, 0, 0] 0).2.2.1 (C53_transport_violates spec rfl)).2

#print axioms C36_panics_exactly
#print axioms C36_no_other_panic
#print axioms C53_panics_exactly
#print axioms C53_from_bytes_partial
#print axioms C53_network_violates
#print axioms C53_transport_violates

end Dash7
