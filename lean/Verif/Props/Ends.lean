import Verif.Props.Decoder

/-!
# C16, C18, C19, C36, C49: where actions and commands end
-/

namespace Dash7
open Sample

/-! ## C16 -/

/-- **C16** Whatever is decoded, from whatever bytes, no action follows an indirect forward. -/
theorem C16_nothing_follows (cfg : Cfg) (data : List U8) (off : Nat) (n : Nat) (c : Command)
    (h : Command.fromReader cfg data off = .ok (n, c)) :
    ∀ before a after, c.actions = before ++ a :: after → a.isIndirectForward = true → after = [] := by
  unfold Command.fromReader fromReader at h
  rcases startAt_cases off (Command.read cfg 0) data with ⟨r, hok, -, hs, -⟩ | hs
  · rw [hs] at h
    split at h
    · rename_i c' r' hr
      cases h
      obtain ⟨-, -, -, -, -, -, hind⟩ := Command.loop_ok hok (Command.read_ok hr)
      intro before a after hsplit hi
      cases after with
      | nil => rfl
      | cons b after =>
        have := hind (by simp) a (by
          rw [hsplit, List.dropLast_append_of_ne_nil (by simp)]
          exact List.mem_append.2 (.inr (by simp [List.dropLast])))
        rw [this] at hi; cases hi
    · cases h
  · rw [hs] at h; cases h

/-- **C16** The decoder stops right behind an indirect forward: nothing put behind it, however
malformed, changes what is decoded. -/
theorem C16_stops (cfg : Cfg) (data : List U8) (rest : Rest) (c : Command) (a : Action)
    (h : Command.fromBytes cfg (data, 0) = .ok (rest, c)) (hl : c.actions.getLast? = some a)
    (hi : a.isIndirectForward = true) (t : List U8) :
    ∃ rest', Command.fromBytes cfg (data ++ t, 0) = .ok (rest', c) := by
  obtain ⟨r', hr, -⟩ := Command.fromBytes_read h
  obtain ⟨r'', hr''⟩ := Command.read_ext hr ((Command.endsIndirect_iff _).2 ⟨a, hl, hi⟩) t
  obtain ⟨rest', hrest⟩ := padRest_total (data ++ t) (off := 0) (by omega) r''.bitsRead
  refine ⟨rest', ?_⟩
  unfold Command.fromBytes fromBytes
  dsimp only
  rw [startAt_zero, show Rd.new (data ++ t) = (Rd.new data).ext t from rfl, hr'']
  dsimp only
  rw [hrest]

/-- **C16** Where the decoder stops: the input has a shortest beginning that decodes to the command, and whatever stands
behind that beginning, in this input or in its place, has no part in it. -/
theorem C16_behind (cfg : Cfg) (data : List U8) (rest : Rest) (c : Command) (a : Action)
    (h : Command.fromBytes cfg (data, 0) = .ok (rest, c)) (hl : c.actions.getLast? = some a)
    (hi : a.isIndirectForward = true) :
    ∃ p q, data = p ++ q ∧ (∀ k < p.length, ∀ rest', Command.fromBytes cfg (p.take k, 0) ≠ .ok (rest', c)) ∧
      ∀ t, ∃ rest', Command.fromBytes cfg (p ++ t, 0) = .ok (rest', c) := by
  have least : ∀ n (d : List U8) rest, d.length = n → Command.fromBytes cfg (d, 0) = .ok (rest, c) →
      ∃ p q rest', d = p ++ q ∧ Command.fromBytes cfg (p, 0) = .ok (rest', c) ∧
        ∀ k < p.length, ∀ rest', Command.fromBytes cfg (p.take k, 0) ≠ .ok (rest', c) := by
    intro n
    induction n using Nat.strongRecOn with
    | ind n ih =>
      intro d rest hd hr
      by_cases hx : ∃ k rest', k < d.length ∧ Command.fromBytes cfg (d.take k, 0) = .ok (rest', c)
      · obtain ⟨k, rest', hk, hr'⟩ := hx
        obtain ⟨p, q, r, hpq, h1, h2⟩ := ih k (by omega) (d.take k) rest' (by rw [List.length_take]; omega) hr'
        refine ⟨p, q ++ d.drop k, r, ?_, h1, h2⟩
        rw [← List.append_assoc, ← hpq, List.take_append_drop]
      · exact ⟨d, [], rest, by simp, hr, fun k hk r hr => hx ⟨k, r, hk, hr⟩⟩
  obtain ⟨p, q, r, hpq, h1, h2⟩ := least _ data rest rfl h
  exact ⟨p, q, hpq, h2, fun t => C16_stops cfg p r c a h1 hl hi t⟩

example : ∃ data rest, Command.fromBytes spec (data, 0) = .ok (rest, ⟨[tag, indirect]⟩) ∧
    Command.fromBytes spec (data ++ [3, 3, 3], 0) = .ok (([3], 0), ⟨[tag, indirect]⟩) :=
  ⟨[180, 7, 179, 215, 39, 33, 0, 17, 34, 51, 68, 85, 102, 119, 1, 2, 3, 4, 5], ([], 0),
    by decide +kernel⟩

/-! ## C18 -/

/-- **C18** fails: one junk byte behind any well-formed action is accepted. -/
theorem C18_junk_byte_accepted (cfg : Cfg) (a : Action) (h : a.WF cfg) (bytes : List U8)
    (hb : a.toBytes cfg = .ok bytes) (junk : U8) : Action.tryFrom cfg (bytes ++ [junk]) = .ok a := by
  obtain ⟨bytes', hb', -, hd⟩ := Action.toBytes_decode h
  rw [hb] at hb'
  cases hb'
  have hd := hd []
  rw [List.append_nil] at hd
  rw [Action.tryFrom_span hd (by rw [h.isTx]; rfl), h.isTx]
  rfl

/-- **C18** What is left of it: the action spans all of the input up to at most one byte, and two or
more trailing bytes are refused. The part `p` spanned by the action is minimal. -/
theorem C18_trailing_partial (cfg : Cfg) (data : List U8) (a : Action)
    (h : Action.tryFrom cfg data = .ok a) :
    ∃ p q, data = p ++ q ∧ q.length ≤ 1 ∧ Action.tryFrom cfg p = .ok a ∧
      (∀ k < p.length, Action.tryFrom cfg (p.take k) = .error .incomplete) ∧
      ∀ t : List U8, 2 ≤ t.length → Action.tryFrom cfg (p ++ t) = .error (.fault .parse) := by
  obtain ⟨s', hd⟩ := Action.tryFrom_decode h
  obtain ⟨p, q, c, rfl, -, hp, htr, hc⟩ := Action.decode_span hd
  refine ⟨p, q, rfl, ?_, ?_, fun k hk => (Action.fromBytes_err (htr k hk)).2.2, fun t ht => ?_⟩
  · rw [Action.tryFrom_span hp hc] at h
    have h1 : (if a.isTx then 0 else 1) ≤ 1 := by split <;> omega
    generalize (if a.isTx then 0 else 1) = m at h h1
    split at h
    · omega
    · cases h
  · rw [← List.append_nil p, Action.tryFrom_span hp hc, if_pos (by simp)]
  · rw [Action.tryFrom_span hp hc]
    have h1 : (if a.isTx then 0 else 1) ≤ 1 := by split <;> omega
    generalize (if a.isTx then 0 else 1) = m at h1
    rw [if_neg (by omega)]

example : Action.tryFrom spec [180, 7, 99] = .ok tag ∧
    Action.tryFrom spec [180, 7, 99, 99] = .error (.fault .parse) := by decide +kernel

/-! ## C19 -/

theorem lost_eq (cfg : Cfg) (n : Nat) : cfg.lost n = Spec.dropped cfg n := by
  unfold Cfg.lost Spec.dropped Cfg.endCostBytes
  split <;> omega

/-- **C19** fails: behind an indirect forward, junk up to the number of actions is swallowed and the
whole accepted. -/
theorem C19_junk_swallowed :
    ∃ bytes, (Command.mk [tag, indirect]).toBytes spec = .ok bytes ∧
      Command.fromBytes spec (bytes ++ [1, 2], 0) = .ok (([], 0), ⟨[tag, indirect]⟩) ∧
      Command.tryFrom spec (bytes ++ [1, 2]) = .ok ⟨[tag, indirect]⟩ :=
  ⟨[180, 7, 179, 215, 39, 33, 0, 17, 34, 51, 68, 85, 102, 119, 1, 2, 3, 4, 5], by decide +kernel⟩

/-- **C19** What is left of it: of the bytes `q` behind a well-formed command ending in an indirect
forward, the rest is `q` without its first `Spec.dropped` bytes. -/
theorem C19_rest_partial (cfg : Cfg) (c : Command) (h : c.WF cfg) (a : Action)
    (hl : c.actions.getLast? = some a) (hi : a.isIndirectForward = true) (bytes : List U8)
    (hb : c.toBytes cfg = .ok bytes) (q : List U8) :
    Command.fromBytes cfg (bytes ++ q, 0) = .ok ((q.drop (Spec.dropped cfg c.actions.length), 0), c) ∧
    (Command.tryFrom cfg (bytes ++ q) = .ok c ↔ q.length ≤ Spec.dropped cfg c.actions.length) ∧
    (Spec.dropped cfg c.actions.length < q.length →
      Command.tryFrom cfg (bytes ++ q) = .error (.fault .parse)) := by
  obtain ⟨bs, hw, h8, hR⟩ := Reads.write h.1
  obtain ⟨bytes', hb', rfl⟩ := W.toBytes_ok hw h8
  have : bytes = bytes' := by
    have : c.toBytes cfg = .ok bytes' := hb'
    rw [hb] at this; cases this; rfl
  subst this
  have hR := hR (bytesBits q)
  rw [← bytesBits_append] at hR
  obtain ⟨p', q', hpq, hq, -, hf⟩ := Command.fromBytes_ok hR h.2
    (.inr ((Command.endsIndirect_iff _).2 ⟨a, hl, hi⟩))
  have hq := bytesBits_inj hq
  subst hq
  rw [lost_eq] at hf
  have htry : Command.tryFrom cfg (bytes ++ q) =
      if q.drop (Spec.dropped cfg c.actions.length) ≠ [] then .error (.fault .parse) else .ok c := by
    unfold Command.tryFrom
    rw [hf]
  refine ⟨hf, ?_, ?_⟩
  · rw [htry]
    simp only [ne_eq, List.drop_eq_nil_iff]
    constructor
    · intro h
      split at h
      · cases h
      · rename_i hn; simpa using hn
    · intro h
      rw [if_neg (by simpa using h)]
  · intro h
    rw [htry, if_pos (by simp; omega)]

/-- **C19** If no indirect forward is last, everything is consumed: the rest is empty. -/
theorem C19_rest_empty (cfg : Cfg) (data : List U8) (rest : Rest) (c : Command)
    (h : Command.fromBytes cfg (data, 0) = .ok (rest, c)) (ht : ∀ a ∈ c.actions, a.isTx = false)
    (hi : ∀ a ∈ c.actions, a.isIndirectForward = false) : rest = ([], 0) := by
  obtain ⟨p, q, -, -, -, -, hq, hr⟩ := Command.fromBytes_conv h ht
  rcases hq with rfl | hq
  · rw [hr]; simp
  · obtain ⟨a, ha, hai⟩ := (Command.endsIndirect_iff _).1 hq
    rw [hi a (List.mem_of_getLast? ha)] at hai
    cases hai

example : Command.WF spec ⟨[tag, indirect]⟩ ∧ [tag, indirect].getLast? = some indirect ∧
    Spec.dropped spec 2 = 2 ∧ Spec.dropped spec' 2 = 5 := by decide +kernel

/-! ## C36 -/

/-- **C36** Up to a bit offset of 8 `from_bytes` never panics. -/
theorem C36_no_panic_partial (cfg : Cfg) (data : List U8) (off : Nat) (ho : off ≤ 8) :
    Spec.Total (Action.fromBytes cfg (data, off)) ∧ Spec.Total (Command.fromBytes cfg (data, off)) :=
  ⟨fromBytes_total data ho fun _ _ h hr => Action.read_fault h hr,
    fromBytes_total data ho fun _ _ h hr => Command.read_fault h hr⟩

/-- **C36** The rest is a suffix of the input, for every offset. -/
theorem C36_rest_suffix (cfg : Cfg) (data : List U8) (off : Nat) :
    (∀ rest a, Action.fromBytes cfg (data, off) = .ok (rest, a) → ∃ k, rest.1 = data.drop k) ∧
    (∀ rest c, Command.fromBytes cfg (data, off) = .ok (rest, c) → ∃ k, rest.1 = data.drop k) := by
  constructor
  · intro rest a h
    unfold Action.fromBytes fromBytes at h
    split at h
    · cases h
    · split at h
      · rename_i hp; cases h; exact padRest_suffix hp
      · cases h
  · intro rest a h
    unfold Command.fromBytes fromBytes at h
    split at h
    · cases h
    · split at h
      · rename_i hp; cases h; exact padRest_suffix hp
      · cases h

/-- **C36** For whole-byte offsets decoding starts at that offset: the same action or error as on the
input without its first bytes. -/
theorem C36_byte_offset_partial (cfg : Cfg) (data : List U8) (j : Nat) (hj : j ≤ data.length) :
    Action.fromReader cfg data (8 * j) =
      match Action.fromReader cfg (data.drop j) 0 with
      | .ok (n, a) => .ok (n + 8 * j, a)
      | .error e => .error e := by
  have hs : ∃ r : Rd, r.Aligned ∧ startAt (8 * j) (Action.read cfg) (Rd.new data) = Action.read cfg r ∧
      r.bitsRead = 8 * j ∧ r.rem = bytesBits (data.drop j) := by
    unfold startAt
    split
    · obtain ⟨r, n, hr, st, hrem, hn⟩ := P.run_ok (P.pad (8 * j)) (Rd.new_con data).toOK
        (Action.pad_eval (n := 8 * j) (by rw [Rd.new_rem, bytesBits_length]; omega))
      rw [List.length_drop, Rd.new_rem, bytesBits_length] at hn
      have hn : n = 8 * j := by omega
      subst hn
      refine ⟨r, ⟨st.con (Rd.new_con data), ?_⟩, ?_, ?_, ?_⟩
      · rw [st.cur]; show 8 ∣ 0 + 8 * j; omega
      · unfold R.bind; rw [hr]
      · rw [st.bitsRead]; show 0 + _ = _; omega
      · rw [hrem, Rd.new_rem, bytesBits_drop]
    · rename_i h
      have : j = 0 := by simp at h; omega
      subst this
      exact ⟨Rd.new data, Rd.new_aligned data, rfl, rfl, by rw [Rd.new_rem]; rfl⟩
  obtain ⟨r, hal, hst, hbr, hrem⟩ := hs
  unfold Action.fromReader fromReader
  rw [hst, startAt_zero]
  cases hd : Action.decode cfg (bytesBits (data.drop j)) with
  | error e =>
    rw [Action.read_aligned_err hal (by rw [hrem]; exact hd),
      Action.read_aligned_err (Rd.new_aligned _) (by rw [Rd.new_rem]; exact hd)]
  | ok p =>
    obtain ⟨a, s'⟩ := p
    obtain ⟨r1, h1, -, -, -, -, -, hb1⟩ := Action.read_aligned_ok (cfg := cfg) hal
      (by rw [hrem]; exact hd)
    obtain ⟨r2, h2, -, -, -, -, -, hb2⟩ := Action.read_aligned_ok (cfg := cfg)
      (Rd.new_aligned (data.drop j)) (by rw [Rd.new_rem]; exact hd)
    rw [h1, h2]
    dsimp only
    rw [hrem, hbr] at hb1
    rw [Rd.new_rem, show (Rd.new (data.drop j)).bitsRead = 0 from rfl] at hb2
    congr 2
    omega

/-- **C36** fails: at bit offset 24 `from_bytes` panics on ordinary data, in every build. -/
theorem C36_panics (cfg : Cfg) :
    Action.fromBytes cfg ([0x11, 0x22, 0x33, 0x00], 24) = .error (.fault .panic) ∧
    Command.fromBytes cfg ([0x11, 0x22, 0x33, 0x00], 24) = .error (.fault .panic) := by
  rcases cfg with ⟨v, a, b, c, d⟩
  cases v <;> cases a <;> cases b <;> cases c <;> cases d <;> decide +kernel

/-- **C36** fails: at a bit offset of 4 the action standing there is not the one decoded (a request
tag 7 is read as request tag 0x77, respectively refused), in every build. -/
theorem C36_sub_byte_offset_violates (cfg : Cfg) :
    Action.fromReader cfg [0xb4, 0x07] 0 = .ok (24, tag) ∧
    ∀ n, Action.fromReader cfg [0x0b, 0x40, 0x77, 0x77] 4 ≠ .ok (n, tag) := by
  have key : Action.fromReader cfg [0xb4, 0x07] 0 = .ok (24, tag) ∧
      ((Action.fromReader cfg [0x0b, 0x40, 0x77, 0x77] 4).toOption.map (·.2)) ≠ some tag := by
    rcases cfg with ⟨v, a, b, c, d⟩
    cases v <;> cases a <;> cases b <;> cases c <;> cases d <;> decide +kernel
  refine ⟨key.1, fun n h => ?_⟩
  rw [h] at key
  exact key.2 rfl

example : Action.fromBytes spec ([0x0b, 0x40, 0x77, 0x77], 4) =
    .ok (([0x77], 4), .requestTag ⟨false, ⟨0⟩, 0x77⟩) := by decide +kernel
example : Action.fromReader spec [0x11, 0xb4, 0x07, 0x00] 8 = .ok (32, tag) := by decide +kernel

/-! ## C49 -/

/-- **C49** Every encoded action (other than TX status) takes at least one byte, and commands are
encoded without padding: their encoding is the concatenation of those of their actions. No
well-formedness is assumed. -/
theorem C49_byte_aligned_partial (cfg : Cfg) (l : List (Action × List U8))
    (h : ∀ x ∈ l, x.1.isTx = false ∧ x.1.toBytes cfg = .ok x.2) :
    (∀ x ∈ l, x.2 ≠ []) ∧
    (Command.mk (l.map Prod.fst)).toBytes cfg = .ok (l.map Prod.snd).flatten := by
  have hbits : ∀ x ∈ l, x.1.write cfg = .ok (bytesBits x.2) := by
    intro x hx
    obtain ⟨ht, hb⟩ := h x hx
    unfold Action.toBytes at hb
    cases hw : x.1.write cfg with
    | error e => rw [hw] at hb; cases hb
    | ok bs =>
      have h8 := Action.mod8 cfg x.1 ht bs hw
      rw [hw] at hb
      injection hb with hb
      rw [← hb, bytesBits_packBits _ (Nat.dvd_of_mod_eq_zero h8)]
  constructor
  · intro x hx h0
    obtain ⟨y, t, hy, hyt⟩ := Action.write_head (h x hx).1 _ (hbits x hx)
    rw [h0] at hyt
    have := congrArg List.length hyt
    simp at this
    omega
  · have : W.list (Action.write cfg) (l.map Prod.fst) = .ok (bytesBits (l.map Prod.snd).flatten) := by
      clear h
      induction l with
      | nil => rfl
      | cons x l ih =>
        rw [List.map_cons, List.map_cons, List.flatten_cons, bytesBits_append]
        exact W.seq_cons_ok.2 ⟨_, _, hbits x (by simp), ih fun y hy => hbits y (by simp [hy]), rfl⟩
    show W.toBytes (W.list (Action.write cfg) (l.map Prod.fst)) = _
    rw [this, W.toBytes, packBits_bytesBits]

/-- **C49** fails for TX status: it shifts what follows by six bits. -/
theorem C49_tx_status_violates :
    ∃ x y, txStatus.toBytes wizzilab = .ok x ∧ tag.toBytes wizzilab = .ok y ∧
      (Command.mk [txStatus, tag]).toBytes wizzilab = .ok [64, 152, 64, 2, 208, 28] ∧
      [64, 152, 64, 2, 208, 28] ≠ x ++ y :=
  ⟨[64, 152, 64, 0], [180, 7], by decide +kernel⟩

example : (∀ x ∈ [(tag, [180, 7]), (query, [8, 89, 2, 255, 15, 18, 52, 67, 5])],
    x.1.isTx = false ∧ x.1.toBytes spec = .ok x.2) := by decide +kernel

#print axioms C04_command_total
#print axioms C04_action_total
#print axioms C04_reader_total
#print axioms C14_kind
#print axioms C14_unknown_opcode
#print axioms C14_top_bits
#print axioms C15_opcode_on_wire_partial
#print axioms C15_field_ignored
#print axioms C15_tx_status_violates
#print axioms C16_nothing_follows
#print axioms C16_stops
#print axioms C16_behind
#print axioms C18_junk_byte_accepted
#print axioms C18_trailing_partial
#print axioms C19_junk_swallowed
#print axioms C19_rest_partial
#print axioms C19_rest_empty
#print axioms C36_no_panic_partial
#print axioms C36_rest_suffix
#print axioms C36_byte_offset_partial
#print axioms C36_panics
#print axioms C36_sub_byte_offset_violates
#print axioms C49_byte_aligned_partial
#print axioms C49_tx_status_violates

end Dash7
