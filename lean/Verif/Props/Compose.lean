import Verif.Props.Spoil
import Verif.Props.Retag
import Verif.Props.Offset
import Verif.Lemmas.Items

/-!
# C05 for whatever was received: decoding one input behind another
-/

namespace Dash7
open Sample Spec

theorem Spec.wholeBytes_append {s : List Bool} (t : List Bool) (ht : 8 ∣ t.length) :
    wholeBytes (s ++ t) = wholeBytes s ++ t := by
  unfold wholeBytes
  have h : (s ++ t).length % 8 = s.length % 8 := by rw [List.length_append]; omega
  rw [h, List.drop_append_of_le_length (Nat.mod_le _ _)]

theorem Spec.wholeBytes_length (s : List Bool) : (wholeBytes s).length = s.length - s.length % 8 := by
  rw [wholeBytes, List.length_drop]

theorem Spec.steppedBack_append (cfg : Cfg) {s : List Bool} (hs : 8 ≤ s.length) (t : List Bool) (ht : 8 ∣ t.length) :
    steppedBack cfg (s ++ t) = steppedBack cfg s ++ t := by
  unfold steppedBack
  have h : (s ++ t).length % 8 = s.length % 8 := by rw [List.length_append]; omega
  have hw := wholeBytes_length s
  rw [wholeBytes_append t ht, h]
  split
  · rfl
  · rw [List.take_append_of_le_length (by omega), List.append_assoc]

theorem Spec.endTest_append (cfg : Cfg) {s : List Bool} (hs : s ≠ []) (t : List Bool) (ht : 8 ∣ t.length) :
    endTest cfg (s ++ t) = endTest cfg s := by
  unfold endTest
  have h : (s ++ t).length % 8 = s.length % 8 := by rw [List.length_append]; omega
  rw [h]
  have : s ++ t ≠ [] := by simp [hs]
  simp [hs]

theorem Spec.asked_zero (cfg : Cfg) (s : List Bool) : asked cfg 0 s = s := by simp [asked]

theorem Spec.not_limitReached (pos : Nat) : ¬ limitReached 0 pos := fun h => h.1 rfl

/-- Without a limit the size of the source plays no role. -/
theorem Spec.reading_size {cfg : Cfg} {size size' : Nat} : ∀ {as : List Action} {stop : Bool}
    {s left : List Bool} {n : Nat}, reading cfg 0 size stop as s left n → reading cfg 0 size' stop as s left n := by
  intro as
  induction as with
  | nil =>
    rintro stop s left n ⟨h1, h2⟩
    exact ⟨h1, .inr ((h2.resolve_left fun h => not_limitReached _ h.1).imp (fun _ => not_limitReached _) id)⟩
  | cons a as ih =>
    rintro stop s left n ⟨-, h2, h3, h4, wire, more, m, h5, h6, h7, h8⟩
    exact ⟨not_limitReached _, h2, h3, h4, wire, more, m, h5, h6, ih h7, h8⟩

theorem Spec.reading_append {cfg : Cfg} {size : Nat} {bs : List Action} {t left' : List Bool} {m : Nat}
    (ht : 8 ∣ t.length) (hb : reading cfg 0 size false bs t left' m) :
    ∀ {as : List Action} {s left : List Bool} {n : Nat}, (∀ a ∈ as, a.isIndirectForward = false) →
      reading cfg 0 size false as s left n →
      reading cfg 0 size false (as ++ bs) (s ++ t) left' (n + m) := by
  intro as
  induction as with
  | nil =>
    rintro s left n - ⟨h1, h2⟩
    obtain ⟨-, h3, h4⟩ := h2.resolve_left fun h => not_limitReached _ h.1
    have h3 : left = [] := h3.resolve_right (by simp)
    subst h3
    rw [asked_zero] at h1
    subst h1 h4
    simpa [endTest] using hb
  | cons a as ih =>
    rintro s left n ha ⟨-, h2, h3, h4, wire, more, k, h5, h6, h7, h8⟩
    rw [asked_zero] at h3 h4 h5 h8
    rw [ha a (by simp)] at h7
    refine ⟨not_limitReached _, rfl, ?_, ?_, wire, more ++ t, k + m, ?_, h6, ?_, ?_⟩
    · rw [asked_zero, List.length_append]; omega
    · rw [asked_zero, ← h4, List.drop_append_of_le_length (by omega),
        List.take_append_of_le_length (by rw [List.length_drop]; omega)]
    · rw [asked_zero, steppedBack_append cfg h3 t ht, h5, List.append_assoc]
    · rw [ha a (by simp)]
      exact ih (fun x hx => ha x (by simp [hx])) h7
    · have : s ≠ [] := by intro h; simp [h] at h3
      rw [asked_zero, endTest_append cfg this t ht, h8]
      omega

theorem Spec.continuing_append {cfg : Cfg} {size : Nat} {bs : List Action} {t left' : List Bool}
    (ht : 8 ∣ t.length) (hb : ∃ size, continuing cfg 0 size bs t left') :
    ∀ {as : List Action} {s left : List Bool} {n : Nat}, (∀ a ∈ as, a.isIndirectForward = false) →
      reading cfg 0 size false as s left n → continuing cfg 0 size (as ++ bs) (s ++ t) left' := by
  have hs : ∀ {bs : List Action} {size size' : Nat} {t : List Bool}, continuing cfg 0 size bs t left' →
      continuing cfg 0 size' bs t left' := by
    intro bs
    induction bs with
    | nil => exact fun h => ⟨h.1, not_limitReached _, h.2.2⟩
    | cons a as ih =>
      rintro size size' t ⟨-, h2, more, n, h3, h4⟩
      exact ⟨not_limitReached _, h2, more, n, h3, ih h4⟩
  obtain ⟨size', hb⟩ := hb
  intro as
  induction as with
  | nil =>
    rintro s left n - ⟨h1, h2⟩
    obtain ⟨-, h3, h4⟩ := h2.resolve_left fun h => not_limitReached _ h.1
    have h3 : left = [] := h3.resolve_right (by simp)
    subst h3
    rw [asked_zero] at h1
    subst h1
    exact hs hb
  | cons a as ih =>
    rintro s left n ha ⟨-, h2, h3, h4, wire, more, k, h5, h6, h7, h8⟩
    rw [asked_zero] at h3 h4 h5
    rw [ha a (by simp)] at h7
    refine ⟨not_limitReached _, ha a (by simp), more ++ t, _, ⟨?_, ?_, wire, ?_, h6, rfl⟩, ?_⟩
    · rw [asked_zero, List.length_append]; omega
    · rw [asked_zero, ← h4, List.drop_append_of_le_length (by omega),
        List.take_append_of_le_length (by rw [List.length_drop]; omega)]
    · rw [asked_zero, steppedBack_append cfg h3 t ht, h5, List.append_assoc]
    · exact ih (fun x hx => ha x (by simp [hx])) h7

/-- Unless it ends in an indirect forward, everything there is was read, and counted. -/
theorem Spec.reading_counts {cfg : Cfg} {size : Nat} : ∀ {as : List Action} {s left : List Bool} {n : Nat},
    (∀ a ∈ as, a.isIndirectForward = false) → reading cfg 0 size false as s left n → s.length ≤ n := by
  intro as
  induction as with
  | nil =>
    rintro s left n - ⟨h1, h2⟩
    obtain ⟨-, h3, h4⟩ := h2.resolve_left fun h => not_limitReached _ h.1
    have h3 : left = [] := h3.resolve_right (by simp)
    rw [asked_zero] at h1
    simp [← h1, h3]
  | cons a as ih =>
    rintro s left n ha ⟨-, h2, h3, h4, wire, more, k, h5, h6, h7, h8⟩
    rw [asked_zero] at h3 h5
    rw [ha a (by simp)] at h7
    have h9 := ih (fun x hx => ha x (by simp [hx])) h7
    have h10 := congrArg List.length h5
    rw [List.length_append] at h10
    have h11 : (wholeBytes s).length ≤ (steppedBack cfg s).length := by
      unfold steppedBack
      split
      · exact Nat.le_refl _
      · rw [List.length_append]; omega
    rw [wholeBytes_length] at h11
    omega

/-- **C05** for whatever was received: behind an input which was decoded to actions none of which is an
indirect forward, another input is decoded just as on its own, to further actions, further bits counted as
read, or the same error. -/
theorem C05_decode_behind (cfg : Cfg) (p q : List U8) (n : Nat) (c : Command)
    (hp : Command.fromReader cfg p 0 = .ok (n, c)) (hi : ∀ a ∈ c.actions, a.isIndirectForward = false) :
    Command.fromReader cfg (p ++ q) 0 =
      match Command.fromReader cfg q 0 with
      | .ok (m, d) => .ok (n + m, ⟨c.actions ++ d.actions⟩)
      | .error e => .error e := by
  obtain ⟨-, left, k, hr, hk⟩ := (C58_command_reader cfg p 0 c n).1 hp
  rw [Nat.zero_add] at hk
  subst hk
  rw [List.drop_zero] at hr
  have hr := reading_size (size' := (p ++ q).length) hr
  have h8 : 8 ∣ (Form.ofBytes q).length := by rw [Form.ofBytes_length]; exact Nat.dvd_mul_right _ _
  cases hq : Command.fromReader cfg q 0 with
  | ok x =>
    obtain ⟨m, d⟩ := x
    dsimp only
    obtain ⟨-, left', k', hr', hk'⟩ := (C58_command_reader cfg q 0 d m).1 hq
    rw [Nat.zero_add] at hk'
    subst hk'
    rw [List.drop_zero] at hr'
    refine (C58_command_reader cfg (p ++ q) 0 _ _).2 ⟨by omega, left', _, ?_, (Nat.zero_add _).symm⟩
    rw [List.drop_zero, Form.ofBytes_append]
    exact reading_append h8 (reading_size hr') hi hr
  | error e =>
    dsimp only
    rcases (C50_from_reader cfg q 0 e).1 hq with ⟨h0, -⟩ | ⟨-, as, left', hc, he⟩
    · omega
    rw [List.drop_zero] at hc
    refine (C50_from_reader cfg (p ++ q) 0 e).2 (.inr ⟨by omega, c.actions ++ as, left', ?_, he⟩)
    rw [List.drop_zero, Form.ofBytes_append]
    exact continuing_append h8 ⟨_, hc⟩ hi hr

theorem Command.tryFrom_reader {cfg : Cfg} {data : List U8} {c : Command} :
    Command.tryFrom cfg data = .ok c ↔ ∃ n, Command.fromReader cfg data 0 = .ok (n, c) ∧ 8 * data.length ≤ n := by
  rw [C58_command_try]
  constructor
  · rintro ⟨left, n, h, hn⟩
    exact ⟨n, (C58_command_reader cfg data 0 c n).2 ⟨by omega, left, n, by simpa using h, by omega⟩, hn⟩
  · rintro ⟨n, h, hn⟩
    obtain ⟨-, left, k, hr, rfl⟩ := (C58_command_reader cfg data 0 c n).1 h
    exact ⟨left, k, by simpa using hr, by omega⟩

/-- **C05** Two inputs which decode, one behind the other, decode to the actions of both. -/
theorem C05_try_from_both (cfg : Cfg) (p q : List U8) (c d : Command) (hp : Command.tryFrom cfg p = .ok c)
    (hq : Command.tryFrom cfg q = .ok d) (hi : ∀ a ∈ c.actions, a.isIndirectForward = false) :
    Command.tryFrom cfg (p ++ q) = .ok ⟨c.actions ++ d.actions⟩ := by
  obtain ⟨n, hp, hn⟩ := Command.tryFrom_reader.1 hp
  obtain ⟨m, hq, hm⟩ := Command.tryFrom_reader.1 hq
  have h := C05_decode_behind cfg p q n c hp hi
  rw [hq] at h
  exact Command.tryFrom_reader.2 ⟨_, h, by rw [List.length_append]; omega⟩

/-- **C05** Whatever decodes with something decodable in front, does so by itself, up to what is left behind
an indirect forward. -/
theorem C05_try_from_rest (cfg : Cfg) (p q : List U8) (c e : Command) (hp : Command.tryFrom cfg p = .ok c)
    (hi : ∀ a ∈ c.actions, a.isIndirectForward = false) (h : Command.tryFrom cfg (p ++ q) = .ok e) :
    ∃ d : Command, e.actions = c.actions ++ d.actions ∧ ∃ m, Command.fromReader cfg q 0 = .ok (m, d) ∧
      ((∀ a ∈ d.actions, a.isIndirectForward = false) → Command.tryFrom cfg q = .ok d) := by
  obtain ⟨n, hp, hn⟩ := Command.tryFrom_reader.1 hp
  obtain ⟨k, h, hk⟩ := Command.tryFrom_reader.1 h
  have hb := C05_decode_behind cfg p q n c hp hi
  rw [h] at hb
  cases hq : Command.fromReader cfg q 0 with
  | error e => rw [hq] at hb; cases hb
  | ok x =>
    obtain ⟨m, d⟩ := x
    rw [hq] at hb
    cases hb
    refine ⟨d, rfl, m, rfl, fun hd => ?_⟩
    obtain ⟨-, left, k, hr, hk⟩ := (C58_command_reader cfg q 0 d m).1 hq
    rw [Nat.zero_add] at hk
    subst hk
    rw [List.drop_zero] at hr
    exact Command.tryFrom_reader.2 ⟨_, hq, by have := reading_counts hd hr; rw [Form.ofBytes_length] at this; exact this⟩

/-- **C05** Without something in front it need not decode: an action less makes `try_from` see a byte behind
an indirect forward. -/
theorem C05_try_from_rest_needed : ∃ p q c, Command.tryFrom spec p = .ok c ∧
    (∀ a ∈ c.actions, a.isIndirectForward = false) ∧ (∃ e, Command.tryFrom spec (p ++ q) = .ok e) ∧
      ∃ e, Command.tryFrom spec q = .error e :=
  ⟨[0], [179, 0, 9, 9], ⟨[.nop ⟨⟨false, false⟩, ⟨0⟩⟩]⟩, by decide +kernel, by decide +kernel,
    ⟨⟨[.nop ⟨⟨false, false⟩, ⟨0⟩⟩, .indirectForward ⟨⟨true, false⟩, ⟨51⟩, some .host⟩]⟩, by decide +kernel⟩,
    .fault .parse, by decide +kernel⟩

/-- Reserved bits, and lengths longer than necessary, in both inputs. -/
example : ∃ c d : Command, Command.tryFrom spec [0x74, 7] = .ok c ∧
    Command.tryFrom spec [0x01, 0x41, 0x40, 0x05, 0x80, 0x00, 0x06] = .ok d ∧
    (∀ a ∈ c.actions, a.isIndirectForward = false) ∧
    Command.tryFrom spec [0x74, 7, 0x01, 0x41, 0x40, 0x05, 0x80, 0x00, 0x06] = .ok ⟨c.actions ++ d.actions⟩ := by
  refine ⟨⟨[.requestTag ⟨false, ⟨52⟩, 7⟩]⟩, ⟨[.readFileData ⟨⟨false, false⟩, ⟨1⟩, ⟨0x41, ⟨5⟩⟩, ⟨6⟩⟩]⟩, ?_⟩
  decide +kernel

#print axioms C05_decode_behind
#print axioms C05_try_from_both
#print axioms C05_try_from_rest
#print axioms C05_try_from_rest_needed

end Dash7
