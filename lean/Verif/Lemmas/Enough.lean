import Verif.Lemmas.Whole

/-!
# How much input is never too little
-/

namespace Dash7

/-- From `k` bits on the reader does not run out of input; it takes at most `k`. -/
def Enough {α : Type} (k : Nat) (p : P α) : Prop := ∀ s, k ≤ s.length →
  (∃ f, p.eval s = .error (.fault f)) ∨ ∃ a s', p.eval s = .ok (a, s') ∧ s.length ≤ s'.length + k

namespace Enough

variable {α β : Type}

theorem pure {a : α} : Enough 0 (P.pure a) := fun s _ => .inr ⟨a, s, rfl, by omega⟩

theorem fail {f : Fault} : Enough 0 (P.fail f : P α) := fun _ _ => .inl ⟨f, rfl⟩

theorem mono {j k : Nat} {p : P α} (h : Enough j p) (hjk : j ≤ k) : Enough k p := by
  intro s hs
  rcases h s (by omega) with h | ⟨a, s', h, hl⟩
  · exact .inl h
  · exact .inr ⟨a, s', h, by omega⟩

theorem bind {j k : Nat} {p : P α} {g : α → P β} (h1 : Enough j p) (h2 : ∀ a, Enough k (g a)) :
    Enough (j + k) (p.bind g) := by
  intro s hs
  rw [P.eval_bind]
  rcases h1 s (by omega) with ⟨f, h⟩ | ⟨a, s', h, hl⟩
  · rw [h]; exact .inl ⟨f, rfl⟩
  · rw [h]
    rcases h2 a s' (by omega) with h' | ⟨b, t, h', hl'⟩
    · exact .inl h'
    · exact .inr ⟨b, t, h', by omega⟩

theorem bits {n k : Nat} {g : List Bool → P α} (h : ∀ l, Enough k (g l)) : Enough (n + k) (P.bits n g) := by
  intro s hs
  rw [P.eval_bits, if_pos (by omega)]
  rcases h (s.take n) (s.drop n) (by rw [List.length_drop]; omega) with h' | ⟨b, t, h', hl'⟩
  · exact .inl h'
  · rw [List.length_drop] at hl'
    exact .inr ⟨b, t, h', by omega⟩

theorem uint {w n : Nat} : Enough n (P.uint w n) := by
  unfold P.uint
  split
  · exact fail.mono (Nat.zero_le _)
  · exact bits (k := 0) fun _ => pure

theorem u8 : Enough 8 P.u8 := uint
theorem flag : Enough 1 P.flag := bits (k := 0) fun _ => pure
theorem pad {n : Nat} : Enough n (P.pad n) := bits (k := 0) fun _ => pure
theorem uintHost {cfg : Cfg} {k : Nat} : Enough (8 * k) (P.uintHost cfg k) := by
  unfold P.uintHost
  split
  · exact uint
  · exact bits (k := 0) fun _ => pure

theorem count {p : P α} {k : Nat} (h : Enough k p) : ∀ n, Enough (n * k) (p.count n)
  | 0 => pure.mono (Nat.zero_le _)
  | n + 1 => (bind h fun _ => bind (count h n) fun _ => pure).mono (by rw [Nat.succ_mul]; omega)

theorem array {p : P α} {k : Nat} (h : Enough k p) : ∀ n, Enough (n * k) (p.array n)
  | 0 => pure.mono (Nat.zero_le _)
  | n + 1 => (bind (array h n) fun _ => bind h fun _ => pure).mono (by rw [Nat.succ_mul]; omega)

theorem enum {ε : Type} {n : Nat} {ofId : U8 → Option ε} : Enough n (P.enum n ofId) := by
  refine bind (k := 0) uint fun i => ?_
  split
  · exact pure
  · exact fail

end Enough

/-- One field after the other. -/
syntax "enough_leaf" : tactic
macro_rules | `(tactic| enough_leaf) => `(tactic| with_reducible exact Enough.pure)
macro_rules | `(tactic| enough_leaf) => `(tactic| with_reducible exact Enough.u8)
macro_rules | `(tactic| enough_leaf) => `(tactic| with_reducible exact Enough.uint)
macro_rules | `(tactic| enough_leaf) => `(tactic| with_reducible exact Enough.flag)
macro_rules | `(tactic| enough_leaf) => `(tactic| with_reducible exact Enough.pad)
macro_rules | `(tactic| enough_leaf) => `(tactic| with_reducible exact Enough.uintHost)
macro_rules | `(tactic| enough_leaf) => `(tactic| with_reducible exact Enough.enum)

macro "enough" : tactic => `(tactic| (
  (try simp only [P.bind_eq])
  apply Enough.mono
  · repeat' (first
      | enough_leaf
      | (with_reducible apply Enough.bind)
      | (with_reducible apply Enough.array)
      | (with_reducible apply Enough.count)
      | intro _)
  · decide))

theorem VarInt.enough : Enough 8 VarInt.read := by
  refine Enough.bind (k := 5) (j := 3) Enough.uint fun e => Enough.bind (k := 0) Enough.uint fun m => ?_
  split
  · exact Enough.pure
  · exact Enough.fail
macro_rules | `(tactic| enough_leaf) => `(tactic| with_reducible exact VarInt.enough)

theorem ChannelHeader.enough : Enough 8 ChannelHeader.read := by
  unfold ChannelHeader.read ChannelBand.read ChannelClass.read ChannelCoding.read
  enough
macro_rules | `(tactic| enough_leaf) => `(tactic| with_reducible exact ChannelHeader.enough)
theorem Channel.enough : Enough 24 Channel.read := by unfold Channel.read; enough
macro_rules | `(tactic| enough_leaf) => `(tactic| with_reducible exact Channel.enough)
theorem SubProfile.enough : Enough 16 SubProfile.read := by unfold SubProfile.read; enough
macro_rules | `(tactic| enough_leaf) => `(tactic| with_reducible exact SubProfile.enough)
theorem SubBand.enough : Enough 56 SubBand.read := by unfold SubBand.read; enough
macro_rules | `(tactic| enough_leaf) => `(tactic| with_reducible exact SubBand.enough)
theorem AccessProfile.enough : Enough 520 AccessProfile.read := by unfold AccessProfile.read; enough
theorem readString_enough (n : Nat) : Enough (n * 8) (readString n) := by
  unfold readString
  simp only [P.bind_eq]
  refine Enough.bind (k := 0) (Enough.count Enough.u8 n) fun b => ?_
  split
  · exact Enough.pure
  · exact Enough.fail
macro_rules | `(tactic| enough_leaf) => `(tactic| with_reducible exact readString_enough _)
theorem FirmwareVersion.enough : Enough 120 FirmwareVersion.read := by unfold FirmwareVersion.read; enough
theorem FactorySettings.enough : Enough 448 FactorySettings.read := by unfold FactorySettings.read; enough
theorem EngineeringMode.enough : Enough 56 EngineeringMode.read := by
  unfold EngineeringMode.read EngineeringModeMethod.read; enough
theorem DllConfig.enough : Enough 56 DllConfig.read := by unfold DllConfig.read; enough
theorem DllStatus.enough : Enough 128 DllStatus.read := by unfold DllStatus.read; enough
theorem SecurityKey.enough (cfg : Cfg) : Enough 128 (SecurityKey.read cfg) := by unfold SecurityKey.read; enough

theorem P.entry_enough {α : Type} {k : Nat} {p : P α} (h : Enough k p) {data : List U8} {off : Nat}
    (hk : off + k ≤ 8 * data.length) : p.entry data off ≠ .error .incomplete := by
  unfold P.entry
  rw [if_pos (by omega)]
  rcases h ((bytesBits data).drop off) (by rw [List.length_drop, bytesBits_length]; omega) with
    ⟨f, h⟩ | ⟨a, s, h, -⟩ <;> rw [h] <;> intro h' <;> cases h'

end Dash7
