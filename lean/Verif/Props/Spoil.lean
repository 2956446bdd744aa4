import Verif.Lemmas.Spoil
import Verif.Lemmas.Accept7
import Verif.Props.Foreground
import Verif.Props.Decoder

/-!
# C50: a bad action, wherever it is, spoils the command and the frame
-/

namespace Dash7
open Spec

/-- **C50** Whether an action is refused, and how, depends on the bits to be read only. -/
theorem C50_refuses (cfg : Cfg) (data : List U8) (off : Nat) (h : off ≤ 8 * data.length) (e : Err) :
    refuses cfg ((Form.ofBytes data).drop off) e ↔ Action.fromReader cfg data off = .error e := by
  obtain ⟨r0, hp, -, hrem, -, -⟩ := (startAt_part data off).1 h
  rw [Action.fromReader_error h, Form.ofBytes_eq, ← hrem, refuses_iff hp.ready]
  constructor
  · exact fun he => ⟨r0, hp, rfl, he⟩
  · rintro ⟨r, hr, hrr, he⟩
    rw [Action.read_error hp.ready, ← hrr, ← Action.read_error hr.ready]
    exact he

/-- **C50** `Command::from_reader` at any bit offset fails exactly if there are not as many bits to skip, or some
actions can be read one after the other and one more is to be read and cannot; and then with the error of this
action. -/
theorem C50_from_reader (cfg : Cfg) (data : List U8) (off : Nat) (e : Err) :
    Command.fromReader cfg data off = .error e ↔
      8 * data.length < off ∧ e = .incomplete ∨
      off ≤ 8 * data.length ∧ ∃ as left,
        continuing cfg 0 data.length as ((Form.ofBytes data).drop off) left ∧ refuses cfg left e := by
  unfold Command.fromReader Dash7.fromReader
  by_cases hle : off ≤ 8 * data.length
  · obtain ⟨r0, hp, hd, hrem, -, hm⟩ := (startAt_part data off).1 hle
    rw [hm]
    have hc := Command.read_refused (cfg := cfg) (L := 0) hp e
    rw [hd, hrem, ← Form.ofBytes_eq] at hc
    constructor
    · intro he
      refine .inr ⟨hle, hc.1 ?_⟩
      cases hr : Command.read cfg 0 r0 with
      | error e' => rw [hr] at he; cases he; rfl
      | ok x => rw [hr] at he; cases he
    · rintro (⟨h, -⟩ | ⟨-, h⟩)
      · omega
      · rw [hc.2 h]
  · rw [(startAt_part data off).2 hle]
    constructor
    · intro h; cases h; exact .inl ⟨by omega, rfl⟩
    · rintro (⟨-, rfl⟩ | ⟨h, -⟩)
      · rfl
      · omega

/-- **C50** So `from_bytes` and `try_from` return the error of the bad action too. -/
theorem C50_spoils (cfg : Cfg) (data : List U8) (off : Nat) (hoff : off ≤ 8 * data.length) (as : List Action)
    (left : List Bool) (e : Err) (hc : continuing cfg 0 data.length as ((Form.ofBytes data).drop off) left)
    (he : refuses cfg left e) :
    Command.fromBytes cfg (data, off) = .error e ∧ (off = 0 → Command.tryFrom cfg data = .error e) := by
  have hr := (C50_from_reader cfg data off e).2 (.inr ⟨hoff, as, left, hc, he⟩)
  have hb : Command.fromBytes cfg (data, off) = .error e := by
    unfold Command.fromReader Dash7.fromReader at hr
    unfold Command.fromBytes Dash7.fromBytes
    cases hs : startAt off (Command.read cfg 0) (Rd.new data) with
    | error e' => rw [hs] at hr; cases hr; rfl
    | ok x => rw [hs] at hr; cases hr
  refine ⟨hb, ?_⟩
  rintro rfl
  unfold Command.tryFrom
  rw [hb]

/-- **C50** And `try_from` has no other errors, but for bytes behind the command. -/
theorem C50_try_from_only (cfg : Cfg) (data : List U8) (e : Err) (h : Command.tryFrom cfg data = .error e) :
    (∃ as left, continuing cfg 0 data.length as (Form.ofBytes data) left ∧ refuses cfg left e) ∨
      e = .fault .parse ∧ ∃ count c, Command.fromReader cfg data 0 = .ok (count, c) ∧ count < 8 * data.length := by
  cases hr : Command.fromReader cfg data 0 with
  | error e' =>
    rcases (C50_from_reader cfg data 0 e').1 hr with ⟨h0, -⟩ | ⟨-, as, left, hc, he⟩
    · omega
    · have := (C50_spoils cfg data 0 (by omega) as left e' hc he).2 rfl
      rw [h] at this
      cases this
      exact .inl ⟨as, left, hc, he⟩
  | ok x =>
    obtain ⟨count, c⟩ := x
    unfold Command.tryFrom Command.fromBytes Dash7.fromBytes at h
    unfold Command.fromReader Dash7.fromReader at hr
    dsimp only at h
    cases hs : startAt 0 (Command.read cfg 0) (Rd.new data) with
    | error e' => rw [hs] at hr; cases hr
    | ok y =>
      obtain ⟨c', r⟩ := y
      rw [hs] at hr h
      simp only [Except.ok.injEq, Prod.mk.injEq] at hr
      obtain ⟨rfl, rfl⟩ := hr
      dsimp only at h
      by_cases hlt : r.bitsRead < 8 * data.length
      · refine .inr ⟨?_, _, _, rfl, hlt⟩
        rw [(padRest_given data 0 r.bitsRead _).2 ⟨fun hx => by unfold cutsTooFar at hx; omega, rfl⟩] at h
        dsimp only at h
        split at h
        · cases h; rfl
        · cases h
      · rw [(padRest_given data 0 r.bitsRead _).2 ⟨fun hx => by unfold cutsTooFar at hx; omega, rfl⟩] at h
        simp [handedBack, show 8 * data.length ≤ r.bitsRead by omega] at h

/-- A transport header, then actions, and one more to be read. -/
def Spec.transContinuing (cfg : Cfg) (limit size : Nat) (h : Trans.Header) (as : List Action) (s left : List Bool) :
    Prop := ∃ head body, s = head ++ body ∧ Form.transHeader h head ∧ continuing cfg limit size as body left

theorem Trans.Frame.read_spoiled {cfg : Cfg} {L : U32} {r : Rd} (hp : r.Part) {h : Trans.Header} {as : List Action}
    {left : List Bool} {e : Err} (hc : Spec.transContinuing cfg L.toNat r.data.length h as r.rem left)
    (he : refuses cfg left e) : Trans.Frame.read cfg L r = .error e := by
  obtain ⟨head, body, hs, hF, hc⟩ := hc
  obtain ⟨r', hr, -, hd, hm, -, hpart⟩ := Trans.Header.fits.form hp.toOK hF hs
  have := (Command.read_refused (cfg := cfg) (L := L) (hpart hp) e).2 ⟨as, left, by rw [hd, hm]; exact hc, he⟩
  simp only [Trans.Frame.read, R.bind_eq, R.bind, hr, this]

theorem Net.Frame.read_spoiled {cfg : Cfg} {L : U32} {r : Rd} (hp : r.Part) {n : Net.Header} {h : Trans.Header}
    {as : List Action} {head body left : List Bool} {e : Err} (hs : r.rem = head ++ body)
    (hF : Form.netHeader cfg.variant n head) (hc : Spec.transContinuing cfg L.toNat r.data.length h as body left)
    (he : refuses cfg left e) : Net.Frame.read cfg L r = .error e := by
  obtain ⟨r', hr, -, hd, hm, -, hpart⟩ := (Net.Header.fits cfg).form hp.toOK hF hs
  have := Trans.Frame.read_spoiled (cfg := cfg) (L := L) (hpart hp) (by rw [hd, hm]; exact hc) he
  simp only [Net.Frame.read, R.bind_eq, R.bind, hr, this]

/-- **C50** Likewise for frames: if the headers are there, some actions after them, and then one that cannot be
read, in front of the byte the length of a foreground frame names, the frame is refused with the error of that
action. -/
theorem C50_frames (cfg : Cfg) (data : List U8) (f : ForegroundHeader) (n : Net.Header) (h : Trans.Header)
    (as : List Action) (left : List Bool) (e : Err) (he : refuses cfg left e) :
    (Spec.transContinuing cfg 0 data.length h as (Form.ofBytes data) left →
      Trans.Frame.tryFrom cfg data = .error e ∧ Trans.Frame.fromBytes cfg (data, 0) = .error e) ∧
    (∀ head body, Form.ofBytes data = head ++ body → Form.netHeader cfg.variant n head →
      Spec.transContinuing cfg 0 data.length h as body left →
      Net.Frame.tryFrom cfg data = .error e ∧ Net.Frame.fromBytes cfg (data, 0) = .error e) ∧
    (∀ link head body, Form.ofBytes data = link ++ (head ++ body) → Form.foregroundHeader f link →
      Form.netHeader cfg.variant n head →
      Spec.transContinuing cfg f.length.val.toNat data.length h as body left →
      ForegroundFrame.tryFrom cfg data = .error e ∧ ForegroundFrame.fromBytes cfg (data, 0) = .error e) := by
  obtain ⟨r0, hp, hd, hrem, -, hm⟩ := (startAt_part data 0).1 (by omega)
  rw [List.drop_zero, ← Form.ofBytes_eq] at hrem
  have key : ∀ {α : Type} (m : R α), m r0 = .error e →
      derivedTryFrom m data = .error e ∧ derivedFromBytes m (data, 0) = .error e := by
    intro α m hr
    have h0 : m (Rd.new data) = .error e := by
      have := hm m
      rw [hr] at this
      simpa [startAt] using this
    unfold derivedTryFrom derivedFromBytes
    rw [hm m, hr, h0]
    exact ⟨rfl, rfl⟩
  refine ⟨fun hc => key _ ?_, fun head body hs hF hc => key _ ?_, fun link head body hs hL hF hc => key _ ?_⟩
  · exact Trans.Frame.read_spoiled hp (by rw [hd, hrem]; exact hc) he
  · exact Net.Frame.read_spoiled hp (by rw [hrem]; exact hs) hF (by rw [hd]; exact hc) he
  · obtain ⟨r', hr, -, hd', hm', -, hpart⟩ := ForegroundHeader.fits.form hp.toOK hL (by rw [hrem]; exact hs)
    have := Net.Frame.read_spoiled (cfg := cfg) (L := f.length.val) (hpart hp) hm' hF
      (by rw [hd', hd]; exact hc) he
    simp only [ForegroundFrame.read, R.bind_eq, R.bind, hr, this]

/-! ## Cases -/

open Sample

/-- A tag, then a query of no known kind: what the hypotheses of `C50_spoils` ask for is there, and not without the
tag. -/
example : ∃ as left, continuing spec 0 4 as (Form.ofBytes [0xB4, 0x07, 0x0A, 0x07]) left ∧
    refuses spec left (.fault .parse) ∧ as ≠ [] := by
  rcases (C50_from_reader spec [0xB4, 0x07, 0x0A, 0x07] 0 (.fault .parse)).1 (by decide +kernel) with
    ⟨h, -⟩ | ⟨-, as, left, hc, he⟩
  · simp at h
  · refine ⟨as, left, hc, he, ?_⟩
    rintro rfl
    obtain ⟨rfl, -⟩ := hc
    exact absurd ((C50_refuses spec [0xB4, 0x07, 0x0A, 0x07] 0 (by simp) _).1 he) (by decide +kernel)

/-- The same behind a TX status, where the bad action does not start at a byte boundary. -/
example : ∃ as left, continuing wizzilab 0 6 as (Form.ofBytes [0x66, 0x00, 0x40, 0x02, 0x90, 0x00]) left ∧
    refuses wizzilab left (.fault .invalidParam) ∧ as ≠ [] := by
  rcases (C50_from_reader wizzilab [0x66, 0x00, 0x40, 0x02, 0x90, 0x00] 0 (.fault .invalidParam)).1
    (by decide +kernel) with ⟨h, -⟩ | ⟨-, as, left, hc, he⟩
  · simp at h
  · refine ⟨as, left, hc, he, ?_⟩
    rintro rfl
    obtain ⟨rfl, -⟩ := hc
    exact absurd ((C50_refuses wizzilab [0x66, 0x00, 0x40, 0x02, 0x90, 0x00] 0 (by simp) _).1 he) (by decide +kernel)

/-- Errors of commands, and a refusal because of what comes behind an indirect forward. -/
example : Command.tryFrom spec [0xB4, 0x07, 0x0A, 0x07] = .error (.fault .parse) ∧
    Command.tryFrom wizzilab [0x66, 0x00, 0x40, 0x02, 0x90, 0x00] = .error (.fault .invalidParam) ∧
    Command.fromReader spec [0x33, 1, 2, 3, 4, 5] 0 = .ok (16, ⟨[.indirectForward ⟨⟨false, false⟩, ⟨51⟩, none⟩]⟩) ∧
    Command.tryFrom spec [0x33, 1, 2, 3, 4, 5] = .error (.fault .parse) := by decide +kernel

/-- A transport frame whose first action holds a query of no known kind: seven bits of control and two bytes come
before it. -/
example : ∃ h as left, Spec.transContinuing spec 0 7 h as (Form.ofBytes [0, 0, 0, 0x14, 0, 0, 0]) left ∧
    refuses spec left (.fault .parse) :=
  ⟨⟨⟨false, false, false, false, false, false, false⟩, 0, 0, none, none, none, none, none⟩, [],
    (Form.ofBytes [0, 0, 0, 0x14, 0, 0, 0]).drop 23,
    ⟨_, _, (List.take_append_drop 23 _).symm,
      (Trans.Header.fits _ _ []).1 (by decide +kernel), rfl, by decide +kernel, by decide +kernel⟩,
    (C50_refuses spec [0, 0, 0, 0x14, 0, 0, 0] 23 (by decide) _).2 (by decide +kernel)⟩

#print axioms C50_refuses
#print axioms C50_from_reader
#print axioms C50_spoils
#print axioms C50_try_from_only
#print axioms C50_frames

end Dash7
