import Verif.Lemmas.Entry
import Verif.Props.Samples

/-!
# C01, C02, C05, C06, C07, C44, C50: encoding and decoding commands and actions
-/

namespace Dash7
open Sample

/-! ## C02 -/

/-- **C02** Every well-formed action encodes, and `Action::try_from` on the bytes gives it back. -/
theorem C02_action_roundtrip (cfg : Cfg) (a : Action) (h : a.WF cfg) :
    ∃ bytes, a.toBytes cfg = .ok bytes ∧ Action.tryFrom cfg bytes = .ok a := by
  obtain ⟨bytes, hb, -, hd⟩ := Action.toBytes_decode h
  refine ⟨bytes, hb, ?_⟩
  have := hd []
  rw [List.append_nil] at this
  rw [Action.tryFrom_ok this h.isTx]
  rfl

example : query.WF spec ∧ dash7Status.WF wizzilab ∧ indirect.WF subiot := by decide +kernel

/-! ## C01 -/

/-- **C01** Every well-formed command encodes, and `Command::try_from` on the bytes gives it back. -/
theorem C01_command_roundtrip (cfg : Cfg) (c : Command) (h : c.WF cfg) :
    ∃ bytes, c.toBytes cfg = .ok bytes ∧ Command.tryFrom cfg bytes = .ok c := by
  obtain ⟨bs, hw, h8, hR⟩ := Reads.write h.1
  obtain ⟨bytes, hb, rfl⟩ := W.toBytes_ok hw h8
  have hR := hR []
  rw [List.append_nil] at hR
  obtain ⟨p, q, -, hq, -, hf⟩ := Command.fromBytes_ok hR h.2 (.inl rfl)
  refine ⟨bytes, hb, ?_⟩
  unfold Command.tryFrom
  rw [hf, bytesBits_eq_nil.1 hq.symm]
  simp

example : command.WF spec ∧ command.WF spec' ∧ command.actions.length = 7 := by decide +kernel

/-! ## C05 -/

/-- **C05** (encoding) The encoding of a command is the concatenation of those of its actions. -/
theorem C05_encode_concat (cfg : Cfg) (as : List Action) (h : ∀ a ∈ as, a.WF cfg) :
    ∃ pieces : List (List U8), pieces.length = as.length ∧
      (∀ i (hi : i < as.length) (hp : i < pieces.length), as[i].toBytes cfg = .ok pieces[i]) ∧
      (Command.mk as).toBytes cfg = .ok pieces.flatten := by
  suffices hs : ∃ pieces : List (List U8), pieces.length = as.length ∧
      (∀ i (hi : i < as.length) (hp : i < pieces.length), as[i].toBytes cfg = .ok pieces[i]) ∧
      W.list (Action.write cfg) as = .ok (bytesBits pieces.flatten) by
    obtain ⟨pieces, h1, h2, h3⟩ := hs
    refine ⟨pieces, h1, h2, ?_⟩
    show W.toBytes (W.list (Action.write cfg) as) = _
    rw [h3, W.toBytes, packBits_bytesBits]
  induction as with
  | nil => exact ⟨[], rfl, by simp, rfl⟩
  | cons a as ih =>
    obtain ⟨pieces, h1, h2, h3⟩ := ih fun x hx => h x (by simp [hx])
    obtain ⟨bs, hw, h8, -, -⟩ := Action.decode_write (h a (by simp))
    obtain ⟨bytes, hb, rfl⟩ := W.toBytes_ok hw h8
    refine ⟨bytes :: pieces, by simp [h1], ?_, ?_⟩
    · intro i hi hp
      cases i with
      | zero => exact hb
      | succ i => exact h2 i (by simpa using hi) (by simpa using hp)
    · rw [List.flatten_cons, bytesBits_append]
      exact W.seq_cons_ok.2 ⟨_, _, hw, h3, rfl⟩

/-- **C05** (decoding) Two encoded commands put one behind the other decode to the actions of both,
if the first holds no indirect forward. -/
theorem C05_decode_concat (cfg : Cfg) (c d : Command) (hc : c.WF cfg) (hd : d.WF cfg)
    (hi : ∀ a ∈ c.actions, a.isIndirectForward = false) :
    ∃ x y, c.toBytes cfg = .ok x ∧ d.toBytes cfg = .ok y ∧
      (Command.mk (c.actions ++ d.actions)).toBytes cfg = .ok (x ++ y) ∧
      Command.tryFrom cfg (x ++ y) = .ok ⟨c.actions ++ d.actions⟩ := by
  obtain ⟨bs, hw, h8, -⟩ := Reads.write hc.1
  obtain ⟨x, hx, rfl⟩ := W.toBytes_ok hw h8
  obtain ⟨bs', hw', h8', -⟩ := Reads.write hd.1
  obtain ⟨y, hy, rfl⟩ := W.toBytes_ok hw' h8'
  have hwf : Command.WF cfg ⟨c.actions ++ d.actions⟩ := by
    refine ⟨fun a ha => ?_, fun a ha => ?_⟩
    · rcases List.mem_append.1 ha with h | h
      · exact hc.1 a h
      · exact hd.1 a h
    · rw [show (Command.mk (c.actions ++ d.actions)).actions = c.actions ++ d.actions from rfl] at ha
      by_cases hn : d.actions = []
      · rw [hn, List.append_nil] at ha
        exact hi a (List.dropLast_subset _ ha)
      · rw [List.dropLast_append_of_ne_nil hn] at ha
        rcases List.mem_append.1 ha with h | h
        · exact hi a h
        · exact hd.2 a h
  obtain ⟨bytes, hb, ht⟩ := C01_command_roundtrip cfg _ hwf
  have : (Command.mk (c.actions ++ d.actions)).toBytes cfg = .ok (x ++ y) := by
    show W.toBytes (W.list (Action.write cfg) (c.actions ++ d.actions)) = _
    have : W.list (Action.write cfg) (c.actions ++ d.actions) = .ok (bytesBits (x ++ y)) := by
      unfold W.list at hw hw' ⊢
      rw [List.map_append, W.seq_append, hw, hw', bytesBits_append]
      simp [W.seq]
    rw [this, W.toBytes, packBits_bytesBits]
  rw [this] at hb
  cases hb
  exact ⟨x, y, hx, hy, this, ht⟩

example : Command.WF spec ⟨[tag, query]⟩ ∧ command.WF spec ∧
    (∀ a ∈ [tag, query], a.isIndirectForward = false) := by decide +kernel

/-- The hypothesis on the first command cannot be dropped: what stands behind an indirect forward is
not decoded. -/
theorem C05_indirect_needed :
    ∃ x y, (Command.mk [indirect]).toBytes spec = .ok x ∧ (Command.mk [tag]).toBytes spec = .ok y ∧
      Command.tryFrom spec (x ++ y) ≠ .ok ⟨[indirect, tag]⟩ :=
  ⟨[179, 215, 39, 33, 0, 17, 34, 51, 68, 85, 102, 119, 1, 2, 3, 4, 5], [180, 7], by decide +kernel, by decide +kernel,
    by decide +kernel⟩

/-! ## C06 -/

/-- **C06** Any proper prefix of an encoded action is refused as incomplete, by each entry point. -/
theorem C06_truncation (cfg : Cfg) (a : Action) (h : a.WF cfg) (bytes : List U8)
    (hb : a.toBytes cfg = .ok bytes) (k : Nat) (hk : k < bytes.length) :
    Action.tryFrom cfg (bytes.take k) = .error .incomplete ∧
    Action.fromBytes cfg (bytes.take k, 0) = .error .incomplete ∧
    Action.fromReader cfg (bytes.take k) 0 = .error .incomplete := by
  obtain ⟨bytes', hb', -, hd⟩ := Action.toBytes_decode h
  rw [hb] at hb'
  cases hb'
  have hd := hd []
  rw [List.append_nil] at hd
  have : Action.decode cfg (bytesBits (bytes.take k)) = .error .incomplete := by
    unfold Action.decode
    split
    · rename_i h8
      obtain ⟨c, hc, -, -, -, he, -⟩ := Action.decode_ok hd
      have hop : opAt 2 (bytesBits (bytes.take k)) = opAt 2 (bytesBits bytes) := by
        rw [bytesBits_length, List.length_take] at h8
        have : 6 ≤ 8 * k - 2 := by
          rw [Nat.min_def] at h8
          split at h8 <;> omega
        unfold opAt
        rw [bytesBits_take, List.drop_take, List.take_take, Nat.min_eq_left this]
      rw [hop, bytesBits_take]
      apply P.eval_truncate _ he
      rw [bytesBits_length]
      simp only [List.length_nil]
      omega
    · rfl
  obtain ⟨h1, h2, h3⟩ := Action.fromBytes_err this
  exact ⟨h3, h1, h2⟩

example : query.WF spec ∧ query.toBytes spec = .ok [8, 89, 2, 255, 15, 18, 52, 67, 5] ∧
    Action.tryFrom spec [8, 89, 2, 255, 15, 18, 52] = .error .incomplete := by decide +kernel

/-! ## C07 -/

/-- **C07** What an action decodes to, and where it ends (`bits_read`), does not depend on what follows;
neither does any error but `Incomplete`. Holds for every bit offset. -/
theorem C07_suffix_insensitive (cfg : Cfg) (data t : List U8) (off : Nat) :
    (∀ n a, Action.fromReader cfg data off = .ok (n, a) →
      Action.fromReader cfg (data ++ t) off = .ok (n, a)) ∧
    (∀ e, e ≠ .incomplete → Action.fromReader cfg data off = .error e →
      Action.fromReader cfg (data ++ t) off = .error e) := by
  have hext := startAt_ext off (Action.read_ext cfg)
  have hnew : Rd.new (data ++ t) = (Rd.new data).ext t := rfl
  unfold Action.fromReader Dash7.fromReader
  constructor
  · intro n a h
    split at h
    · rename_i a' r hr
      cases h
      rw [hnew, hext.ok t hr]
      rfl
    · cases h
  · intro e hne h
    split at h
    · cases h
    · rename_i e' hr
      cases h
      cases e with
      | incomplete => exact absurd rfl hne
      | fault f => rw [hnew, hext.fault t hr]

example : Action.fromReader spec [0x81, 0x41, 0x43, 0xe8, 0x41, 0x2c] 0 = .ok (56, readData) ∧
    Action.fromReader spec [0x03, 0x41] 0 = .error (.fault .invalidParam) := by decide +kernel

/-! ## C44 -/

/-- **C44** Well-formed commands with the same encoding are equal. -/
theorem C44_command_unambiguous (cfg : Cfg) (c d : Command) (hc : c.WF cfg) (hd : d.WF cfg)
    (h : c.toBytes cfg = d.toBytes cfg) : c = d := by
  obtain ⟨x, hx, hx'⟩ := C01_command_roundtrip cfg c hc
  obtain ⟨y, hy, hy'⟩ := C01_command_roundtrip cfg d hd
  rw [hx, hy] at h
  cases h
  rw [hx'] at hy'
  cases hy'
  rfl

/-- **C44** No encoded well-formed action is a proper prefix of another one's encoding. -/
theorem C44_action_prefix_free (cfg : Cfg) (a b : Action) (ha : a.WF cfg) (hb : b.WF cfg)
    (x t : List U8) (hx : a.toBytes cfg = .ok x) (hy : b.toBytes cfg = .ok (x ++ t)) :
    a = b ∧ t = [] := by
  obtain ⟨x', hx', -, hda⟩ := Action.toBytes_decode ha
  rw [hx] at hx'
  cases hx'
  obtain ⟨y', hy', -, hdb⟩ := Action.toBytes_decode hb
  rw [hy] at hy'
  cases hy'
  have h1 := hda (bytesBits t)
  have h2 := hdb []
  rw [List.append_nil, bytesBits_append, h1] at h2
  injection h2 with h2
  injection h2 with h2 h3
  exact ⟨h2, bytesBits_eq_nil.1 h3⟩

example : tag.WF spec ∧ readData.WF spec ∧ tag.toBytes spec ≠ readData.toBytes spec := by decide +kernel

/-! ## C50 -/

/-- **C50** If the bytes `p` decode to a command (no indirect forward, no TX status) and the bytes `q`
behind it do not decode to an action, the whole is refused with the very error of that action. -/
theorem C50_bad_action_spoils_command (cfg : Cfg) (p q : List U8) (c : Command) (e : Err)
    (hp : Command.tryFrom cfg p = .ok c) (hi : ∀ a ∈ c.actions, a.isIndirectForward = false)
    (ht : ∀ a ∈ c.actions, a.isTx = false) (hq : q ≠ [])
    (he : Action.fromBytes cfg (q, 0) = .error e) :
    Command.tryFrom cfg (p ++ q) = .error e := by
  obtain ⟨n, hf⟩ := Command.tryFrom_fromBytes hp
  obtain ⟨x, y, rfl, -, hext, -, hy, -⟩ := Command.fromBytes_conv hf ht
  have hy : y = [] := by
    rcases hy with h | h
    · exact h
    · obtain ⟨a, ha, hai⟩ := (Command.endsIndirect_iff _).1 h
      rw [hi a (List.mem_of_getLast? ha)] at hai
      cases hai
  subst hy
  rw [List.append_nil]
  have hR := hext (bytesBits q)
  rw [← bytesBits_append] at hR
  have hdec : Action.decode cfg (bytesBits q) = .error e := by
    cases hd : Action.decode cfg (bytesBits q) with
    | error e' =>
      rw [(Action.fromBytes_err hd).1] at he
      cases he; rfl
    | ok r =>
      obtain ⟨a, s'⟩ := r
      cases hat : a.isTx with
      | false =>
        obtain ⟨_, _, -, -, -, hok, -⟩ := Action.fromBytes_ok hd hat
        rw [hok] at he; cases he
      | true =>
        obtain ⟨r', hr, -⟩ := Action.read_aligned_ok (cfg := cfg) (Rd.new_aligned q)
          (by rw [Rd.new_rem]; exact hd)
        unfold Action.fromBytes Dash7.fromBytes at he
        dsimp only at he
        rw [startAt_zero, hr] at he
        dsimp only at he
        have hpad : ∀ n, ∃ rest, padRest (q, 0) n = .ok rest := by
          intro n
          unfold padRest
          split
          · exact ⟨_, rfl⟩
          · rename_i h
            have h : ¬ q.length * 8 + 0 ≤ n := h
            dsimp only [sliceFrom]
            have : (if n % 8 = 0 then n / 8 else (n - n % 8) / 8) ≤ q.length := by split <;> omega
            rw [if_pos this]
            exact ⟨_, rfl⟩
        obtain ⟨rest, hrest⟩ := hpad r'.bitsRead
        rw [hrest] at he
        cases he
  exact (Command.fromBytes_err hR hi (by rw [Ne, bytesBits_eq_nil]; exact hq) hdec).2

example : Command.tryFrom spec [180, 7, 8, 89, 2, 255, 15, 18, 52, 67, 5] = .ok ⟨[tag, query]⟩ ∧
    Action.fromBytes spec ([0x03, 0x41], 0) = .error (.fault .invalidParam) ∧
    Command.tryFrom spec [180, 7, 8, 89, 2, 255, 15, 18, 52, 67, 5, 0x03, 0x41] =
      .error (.fault .invalidParam) := by decide +kernel

#print axioms C01_command_roundtrip
#print axioms C02_action_roundtrip
#print axioms C05_encode_concat
#print axioms C05_decode_concat
#print axioms C05_indirect_needed
#print axioms C06_truncation
#print axioms C07_suffix_insensitive
#print axioms C44_command_unambiguous
#print axioms C44_action_prefix_free
#print axioms C50_bad_action_spoils_command

end Dash7
