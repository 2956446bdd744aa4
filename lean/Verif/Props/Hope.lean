import Verif.Lemmas.Hope5
import Verif.Props.SystemFile
import Verif.Props.Decoder

/-!
# C68: more input can help wherever it is asked for
-/

namespace Dash7
open Sample

theorem byteAt_small {n : Nat} {data : List U8} {v : U8} (hv : v.toNat ≠ 0)
    (h : byteAt (8 * n) (bytesBits data) = v.toNat) : data[n]? = some v := by
  unfold byteAt at h
  rw [← bytesBits_drop] at h
  cases hd : data.drop n with
  | nil =>
    rw [hd] at h
    exact absurd h.symm hv
  | cons b t =>
    have := byteAt_zero b t
    unfold byteAt at this
    rw [hd, ← List.drop_zero (l := bytesBits (b :: t)), this] at h
    have : (data.drop n)[0]? = some b := by rw [hd]; rfl
    rw [List.getElem?_drop, Nat.add_zero] at this
    rw [this, BitVec.eq_of_toNat_eq h]

theorem byteAt_of {n : Nat} {data : List U8} {v : U8} (h : data[n]? = some v) :
    byteAt (8 * n) (bytesBits data) = v.toNat := by
  have hn : n < data.length := by
    rcases Nat.lt_or_ge n data.length with h' | h'
    · exact h'
    · rw [List.getElem?_eq_none h'] at h; cases h
  unfold byteAt
  rw [← bytesBits_drop, List.drop_eq_getElem_cons hn]
  rw [List.getElem?_eq_getElem hn] at h
  cases h
  have := byteAt_zero data[n] (data.drop (n + 1))
  unfold byteAt at this
  rwa [List.drop_zero] at this

theorem hopeless_iff {cfg : Cfg} {data : List U8} :
    Spec.Hopeless cfg data ↔ data ≠ [] ∧ Shut cfg (opAt 2 (bytesBits data)).code.toNat (bytesBits data) := by
  unfold Spec.Hopeless Shut
  rw [Form.ofBytes_eq]
  cases data with
  | nil => exact ⟨(by rintro ⟨_, h, -⟩; cases h), fun h => absurd rfl h.1⟩
  | cons b t =>
    rw [opAt_byte, topBits]
    have hb : b.toNat < 256 := b.isLt
    constructor
    · rintro ⟨first, hf, h⟩
      cases hf
      refine ⟨by simp, ?_⟩
      rcases h with h | ⟨h, h2⟩ | h
      · exact .inr (.inl h)
      · exact .inr (.inr ⟨by omega, by omega, h2.imp (fun h => byteAt_of (n := 1) h) fun h => byteAt_of (n := 1) h⟩)
      · exact .inl h
    · rintro ⟨-, h⟩
      refine ⟨b, rfl, ?_⟩
      rcases h with h | h | ⟨h, h1, h2⟩
      · exact .inr (.inr h)
      · exact .inl h
      · exact .inr (.inl ⟨by omega, h2.imp (fun h => byteAt_small (n := 1) (v := 2) (by decide) h)
          fun h => byteAt_small (n := 1) (v := 3) (by decide) h⟩)

theorem Action.entries_ok {cfg : Cfg} {data : List U8} {a : Action} {s' : List Bool}
    (hd : Action.decode cfg (bytesBits data) = .ok (a, s')) :
    (∃ n, Action.fromReader cfg data 0 = .ok (n, a)) ∧ (∃ rest, Action.fromBytes cfg (data, 0) = .ok (rest, a)) ∧
      (Action.tryFrom cfg data = .ok a ∨ Action.tryFrom cfg data = .error (.fault .parse)) := by
  obtain ⟨r', hr, -⟩ := Action.read_aligned_ok (cfg := cfg) (Rd.new_aligned data) (by rw [Rd.new_rem]; exact hd)
  obtain ⟨rest, hrest⟩ := padRest_total data (off := 0) (by omega) r'.bitsRead
  have hb : Action.fromBytes cfg (data, 0) = .ok (rest, a) := by
    unfold Action.fromBytes Dash7.fromBytes
    dsimp only
    rw [startAt_zero, hr]
    dsimp only
    rw [hrest]
  refine ⟨⟨r'.bitsRead, ?_⟩, ⟨rest, hb⟩, ?_⟩
  · unfold Action.fromReader Dash7.fromReader
    rw [startAt_zero, hr]
  · unfold Action.tryFrom
    rw [hb]
    dsimp only
    split
    · exact .inr rfl
    · exact .inl rfl

theorem Action.incomplete_iff (cfg : Cfg) (data : List U8) :
    (Action.tryFrom cfg data = .error .incomplete ↔ Action.decode cfg (bytesBits data) = .error .incomplete) ∧
    (Action.fromReader cfg data 0 = .error .incomplete ↔ Action.decode cfg (bytesBits data) = .error .incomplete) ∧
    (Action.fromBytes cfg (data, 0) = .error .incomplete ↔ Action.decode cfg (bytesBits data) = .error .incomplete) := by
  cases hd : Action.decode cfg (bytesBits data) with
  | error e =>
    obtain ⟨h1, h2, h3⟩ := Action.fromBytes_err hd
    rw [h1, h2, h3]
    simp
  | ok x =>
    obtain ⟨⟨n, h1⟩, ⟨rest, h2⟩, h3⟩ := Action.entries_ok hd
    rw [h1, h2]
    rcases h3 with h3 | h3 <;> rw [h3] <;> simp

/-- A refusal of an action is final. -/
theorem Action.decode_final {cfg : Cfg} {data : List U8} {f : Fault} (more : List U8)
    (h : Action.decode cfg (bytesBits data) = .error (.fault f)) :
    Action.decode cfg (bytesBits (data ++ more)) = .error (.fault f) := by
  have h1 := (C07_suffix_insensitive cfg data more 0).2 (.fault f) (by simp) (Action.fromBytes_err h).2.1
  cases hd : Action.decode cfg (bytesBits (data ++ more)) with
  | error e =>
    rw [(Action.fromBytes_err hd).2.1] at h1
    cases h1
    rfl
  | ok x =>
    obtain ⟨⟨n, h2⟩, -⟩ := Action.entries_ok hd
    rw [h2] at h1
    cases h1

/-- **C68** (partial: the inputs of `Spec.Hopeless` are left out) `Incomplete` is reported for exactly those inputs which
are not an action (yet), but which more input makes one. -/
theorem C68_action_partial (cfg : Cfg) (data : List U8) (hc : ¬ Spec.Hopeless cfg data) :
    (Action.tryFrom cfg data = .error .incomplete ↔
      (∀ a, Action.fromReader cfg data 0 ≠ .ok a) ∧ ∃ more a, Action.tryFrom cfg (data ++ more) = .ok a) ∧
    (Action.fromReader cfg data 0 = .error .incomplete ↔ Action.tryFrom cfg data = .error .incomplete) ∧
    (Action.fromBytes cfg (data, 0) = .error .incomplete ↔ Action.tryFrom cfg data = .error .incomplete) := by
  obtain ⟨i1, i2, i3⟩ := Action.incomplete_iff cfg data
  rw [i1, i2, i3]
  refine ⟨⟨fun h => ⟨fun a ha => ?_, ?_⟩, fun ⟨hn, more, a, ha⟩ => ?_⟩, Iff.rfl, Iff.rfl⟩
  · rw [(Action.fromBytes_err h).2.1] at ha
    cases ha
  · rcases Action.decode_more cfg h with hs | ⟨more, a, c, hm, hl⟩
    · exact absurd (hopeless_iff.2 hs) hc
    · refine ⟨more, a, ?_⟩
      have := Action.tryFrom_span (q := []) hm hl
      rw [List.append_nil] at this
      rw [this, if_pos (by simp)]
  · obtain ⟨s', hd'⟩ := Action.tryFrom_decode ha
    cases hd : Action.decode cfg (bytesBits data) with
    | ok x =>
      obtain ⟨⟨n, h⟩, -⟩ := Action.entries_ok hd
      exact absurd h (hn _)
    | error e =>
      cases e with
      | incomplete => rfl
      | fault f =>
        rw [Action.decode_final more hd] at hd'
        cases hd'

/-- **C68** The inputs left out are left out for a reason: nothing makes them an action. -/
theorem C68_hopeless (cfg : Cfg) (data more : List U8) (a : Action) (h : Spec.Hopeless cfg data) :
    Action.tryFrom cfg (data ++ more) ≠ .ok a := by
  intro ha
  obtain ⟨hd, hs⟩ := hopeless_iff.1 h
  obtain ⟨s', hx⟩ := Action.tryFrom_decode ha
  have := List.length_pos_iff.2 hd
  rw [bytesBits_append] at hx
  exact Action.decode_lost (by rw [bytesBits_length]; omega) (by rw [bytesBits_length]; omega) hs _ _ _ hx

/-- **C68** Asked for more input, more input helps exactly if the input is not one of `Spec.Hopeless`. -/
theorem C68_action_exact (cfg : Cfg) (data : List U8) (h : Action.tryFrom cfg data = .error .incomplete) :
    (∃ more a, Action.tryFrom cfg (data ++ more) = .ok a) ↔ ¬ Spec.Hopeless cfg data :=
  ⟨fun ⟨more, a, ha⟩ hh => C68_hopeless cfg data more a hh ha,
    fun hh => (((C68_action_partial cfg data hh).1).1 h).2⟩

theorem lowBits (b : U8) : bitsNat ((bytesBits [b]).drop 5) = b.toNat % 8 := by
  revert b
  decide +kernel

/-- **C68** (partial: the inputs of `Spec.HopelessItem` are left out) Asked for more input while reading one of the types
on its own, some more input gives a value. -/
theorem C68_item_partial (cfg : Cfg) (i : Item) (data : List U8) (hc : ¬ Spec.HopelessItem cfg i data) :
    i.fromBytes cfg (data, 0) = .error .incomplete ↔
      (∀ v, i.fromBytes cfg (data, 0) ≠ .ok v) ∧ ∃ more v, i.fromBytes cfg (data ++ more, 0) = .ok v := by
  constructor
  · intro h
    refine ⟨fun v hv => (by rw [h] at hv; cases hv), ?_⟩
    unfold Item.fromBytes at h ⊢
    simp only [P.derivedFromBytes_eq] at h ⊢
    unfold P.entry at h
    rw [if_pos (by omega), List.drop_zero] at h
    have he : (i.read cfg).eval (bytesBits data) = .error .incomplete := by
      split at h
      · cases h
      · rename_i e he
        cases h
        exact he
    rcases Item.cure cfg i _ (by rw [bytesBits_length]; omega) he with hx | ⟨t, a, ha⟩
    · refine absurd ?_ hc
      rcases hx with hx | ⟨hx, h0⟩ | ⟨hx, hv, hl, h4⟩
      · exact .inl (by rwa [Form.ofBytes_eq])
      · exact .inr (.inl ⟨hx, h0.imp (fun h => byteAt_small (n := 0) (v := 2) (by decide) h)
          fun h => byteAt_small (n := 0) (v := 3) (by decide) h⟩)
      · refine .inr (.inr ⟨hx, hv, ?_⟩)
        rw [bytesBits_length] at hl
        match data, hl with
        | [b], _ => exact ⟨b, rfl, by rw [← lowBits b]; exact h4⟩
        | [], hl => simp at hl
        | _ :: _ :: _, hl => simp at hl; omega
    · have hp := (i.read cfg).eval_extend ha (List.replicate (7 * t.length) false)
      refine ⟨packBits (t ++ List.replicate (7 * t.length) false), ?_⟩
      unfold P.entry
      rw [if_pos (by omega), List.drop_zero, bytesBits_append,
        bytesBits_packBits _ (by rw [List.length_append, List.length_replicate]; omega), ← List.append_assoc, hp]
      exact ⟨_, rfl⟩
  · rintro ⟨hn, more, v, hv⟩
    rcases (C67_total cfg i data 0).1 with ⟨v, h⟩ | h | h
    · exact absurd h (hn v)
    · exact h
    · rw [(C67_refusal cfg i data more 0 _ (by simp)).1 h] at hv
      cases hv

/-- **C68** Nothing makes the inputs left out a value. -/
theorem C68_item_hopeless (cfg : Cfg) (i : Item) (data more : List U8) (v : (List U8 × Nat) × i.Val)
    (h : Spec.HopelessItem cfg i data) : i.fromBytes cfg (data ++ more, 0) ≠ .ok v := by
  intro hv
  unfold Item.fromBytes at hv
  rw [P.derivedFromBytes_eq] at hv
  unfold P.entry at hv
  rw [if_pos (by omega), List.drop_zero, bytesBits_append] at hv
  split at hv
  · rename_i a s' he
    rcases h with ⟨rfl, h⟩ | ⟨rfl, h⟩ | ⟨rfl, hw, b, rfl, h⟩
    · rw [Form.ofBytes_eq] at h
      exact lostVersion_no h _ _ _ he
    · refine Op.InterfaceStatusOperation.lost cfg ?_ he
      have hl : 0 + 8 ≤ (bytesBits data).length := by
        rw [bytesBits_length]
        cases data with
        | nil => revert h; simp
        | cons => simp; omega
      rw [byteAt_extend hl]
      exact h.imp (fun h => byteAt_of (n := 0) h) fun h => byteAt_of (n := 0) h
    · exact Net.Control.lost cfg hw rfl (by rw [lowBits]; exact h) he
  · cases hv

example : ¬ Spec.HopelessItem spec .addressee [0x20, 0x05] ∧
    Item.addressee.fromBytes spec ([0x20, 0x05], 0) = .error .incomplete ∧
    (Item.addressee.fromBytes spec ([0x20, 0x05, 1, 2, 3, 4, 5, 6, 7, 8], 0)).isOk = true := by
  refine ⟨?_, by decide +kernel, by decide +kernel⟩
  rintro (⟨h, -⟩ | ⟨h, -⟩ | ⟨h, -⟩) <;> cases h

/-- **C68** (partial: no TX state may come up, and the action cut off must not be one of `Spec.Hopeless`) If a command is
`Incomplete`, it consists of actions which are a command by themselves, and of the beginning of one more action; some
more input completes that action, and with it the command. -/
theorem C68_command_partial (cfg : Cfg) (data : List U8)
    (htx : cfg.variant = .wizzilab → ∀ b ∈ data, b.toNat % 64 ≠ 38)
    (h : Command.tryFrom cfg data = .error .incomplete) :
    ∃ front cut as, data = front ++ cut ∧ cut ≠ [] ∧ Command.tryFrom cfg front = .ok ⟨as⟩ ∧
      Action.tryFrom cfg cut = .error .incomplete ∧
      (¬ Spec.Hopeless cfg cut → ∃ more a, Action.tryFrom cfg (cut ++ more) = .ok a ∧
        Command.tryFrom cfg (data ++ more) = .ok ⟨as ++ [a]⟩) := by
  have hl : Command.loop cfg 0 (data.length + 1) [] (Rd.new data) = .error .incomplete := by
    unfold Command.tryFrom Command.fromBytes Dash7.fromBytes at h
    dsimp only at h
    rw [startAt_zero] at h
    cases hr : Command.read cfg 0 (Rd.new data) with
    | error e =>
      rw [hr] at h
      cases h
      exact Command.read_error hr
    | ok x =>
      rw [hr] at h
      dsimp only at h
      obtain ⟨rest, hrest⟩ := padRest_total data (off := 0) (by omega) x.2.bitsRead
      rw [hrest] at h
      dsimp only at h
      split at h <;> cases h
  have noTx : ∀ as s a s', Reads cfg as (bytesBits data) s → Action.decode cfg s = .ok (a, s') → a.isTx = false := by
    intro as s a s' hR hd
    by_cases ht : a.isTx = false
    · exact ht
    · obtain ⟨h38, hv⟩ := Action.decode_tx hd ht
      obtain ⟨c, hc, h8, -⟩ := hR.length
      obtain ⟨p, q, rfl, -, rfl, -⟩ := bytesBits_suffix hc h8
      cases q with
      | nil => cases hd
      | cons b t =>
        rw [opAt_byte] at h38
        exact absurd h38 (htx hv b (by simp))
  obtain ⟨as, s', hR, hi, hne, hd⟩ := Command.loop_incomplete (Rd.new_fresh data) hl rfl (by rw [Rd.new_rem]; exact noTx)
  rw [Rd.new_rem] at hR
  obtain ⟨c, hc, h8, -⟩ := hR.length
  obtain ⟨front, cut, rfl, rfl, rfl, -⟩ := bytesBits_suffix hc h8
  obtain ⟨c', hc', hext⟩ := hR.extend
  rw [bytesBits_append] at hc'
  have := List.append_cancel_right hc'
  subst this
  have ofReads : ∀ {as : List Action} {d : List U8}, Reads cfg as (bytesBits d) [] →
      (∀ a ∈ as.dropLast, a.isIndirectForward = false) → Command.tryFrom cfg d = .ok ⟨as⟩ := by
    intro as d hR hi
    obtain ⟨p, q, -, hq, -, hb⟩ := Command.fromBytes_ok hR hi (.inl rfl)
    have := bytesBits_eq_nil.1 hq.symm
    subst this
    unfold Command.tryFrom
    rw [hb]
    simp
  refine ⟨front, cut, as, rfl, fun h0 => hne (by rw [h0]; rfl), ?_, (Action.incomplete_iff cfg cut).1.2 hd, fun hu => ?_⟩
  · have := hext []
    rw [List.append_nil] at this
    exact ofReads this fun a ha => hi a (List.dropLast_subset _ ha)
  · rcases Action.decode_more cfg hd with ⟨hn, hs⟩ | ⟨more, a, c, hm, hcl⟩
    · exact absurd (hopeless_iff.2 ⟨hn, hs⟩) hu
    · have ht : a.isTx = false := by
        by_cases ht : a.isTx = false
        · exact ht
        · obtain ⟨h38, hv⟩ := Action.decode_tx hm ht
          cases cut with
          | nil => exact absurd rfl hne
          | cons b t =>
            rw [List.cons_append, opAt_byte] at h38
            exact absurd h38 (htx hv b (by simp))
      rw [ht] at hcl
      have := List.length_eq_zero_iff.1 hcl
      subst this
      refine ⟨more, a, by rw [Action.tryFrom_ok hm ht]; rfl, ofReads ?_ (by simpa using hi)⟩
      rw [List.append_assoc, bytesBits_append]
      exact (hext _).append (.cons hm ht (.nil _))

example : Command.tryFrom spec [0xb4, 0x07, 0x41, 0x05, 0x42] = .error .incomplete ∧
    (Command.tryFrom spec [0xb4, 0x07]).isOk = true ∧ Action.tryFrom spec [0x41, 0x05, 0x42] = .error .incomplete ∧
    (Command.tryFrom spec [0xb4, 0x07, 0x41, 0x05, 0x42, 0x00, 0x07]).isOk = true := by decide +kernel

/-! ### Witnesses of the cases left out -/

/-- Nothing helps where every next byte is refused. -/
theorem Action.stuck {cfg : Cfg} {data : List U8} (h0 : (Action.tryFrom cfg data).isOk = false)
    (h : ∀ b : U8, Action.decode cfg (bytesBits (data ++ [b])) = .error (.fault .parse)) (more : List U8) (a : Action) :
    Action.tryFrom cfg (data ++ more) ≠ .ok a := by
  cases more with
  | nil =>
    intro hx
    rw [List.append_nil] at hx
    rw [hx] at h0
    cases h0
  | cons b t =>
    intro hx
    obtain ⟨s', hd⟩ := Action.tryFrom_decode hx
    have := Action.decode_final t (h b)
    rw [List.append_assoc] at this
    rw [show data ++ b :: t = data ++ ([b] ++ t) from rfl, this] at hd
    cases hd

/-- **C68** does not hold: the state of a LoRaWAN interface is asked to be continued while its length is cut, and then
refused whatever follows. -/
theorem C68_status_violates :
    Action.tryFrom spec [0x62, 0x02, 0x40] = .error .incomplete ∧
      ∀ more a, Action.tryFrom spec ([0x62, 0x02, 0x40] ++ more) ≠ .ok a :=
  ⟨by decide +kernel, Action.stuck (by decide +kernel) (by decide +kernel)⟩

/-- **C68** does not hold: a firmware version which is not UTF-8 is refused only when it has been given completely. -/
theorem C68_firmware_violates :
    Action.tryFrom spec [0x04, 0x02, 0x00, 0x0F, 0, 0, 0xFF, 0, 0, 0, 0] = .error .incomplete ∧
      ∀ more a, Action.tryFrom spec ([0x04, 0x02, 0x00, 0x0F, 0, 0, 0xFF, 0, 0, 0, 0] ++ more) ≠ .ok a :=
  ⟨by decide +kernel, Action.stuck (by decide +kernel) (by decide +kernel)⟩

/-- **C68** does not hold: the fields of a TX state cross the ends of bytes; an error code which does not exist is
refused only with the next byte. -/
theorem C68_tx_violates :
    Action.tryFrom wizzilab [0x66, 0x9B, 0x5C, 0, 0, 0, 0, 0x01] = .error .incomplete ∧
      ∀ more a, Action.tryFrom wizzilab ([0x66, 0x9B, 0x5C, 0, 0, 0, 0, 0x01] ++ more) ≠ .ok a :=
  ⟨by decide +kernel, Action.stuck (by decide +kernel) (by decide +kernel)⟩

/-- **C68** does not hold: the security method of a network control field crosses the end of the byte. -/
theorem C68_control_violates :
    Item.netControl.fromBytes spec ([0x04], 0) = .error .incomplete ∧
      ∀ more v, Item.netControl.fromBytes spec ([0x04] ++ more, 0) ≠ .ok v := by
  refine ⟨by decide +kernel, fun more v hv => ?_⟩
  cases more with
  | nil =>
    rw [List.append_nil, show Item.netControl.fromBytes spec ([0x04], 0) = .error .incomplete by decide +kernel] at hv
    cases hv
  | cons b t =>
    have h : ∀ b : U8, Item.netControl.fromBytes spec ([0x04, b], 0) = .error (.fault .parse) := by decide +kernel
    rw [show [0x04] ++ b :: t = [0x04, b] ++ t from rfl, (C67_refusal spec .netControl [0x04, b] t 0 _ (by simp)).1 (h b)] at hv
    cases hv

/-- Each kind of input left out. -/
example : Spec.Hopeless spec [0x04, 0x02, 0x00, 0x0F, 0, 0, 0xFF, 0, 0, 0, 0] ∧ Spec.Hopeless spec [0x62, 0x02, 0x40] ∧
    Spec.Hopeless wizzilab [0x66, 0x9B, 0x5C, 0, 0, 0, 0, 0x01] ∧ Spec.HopelessItem spec .netControl [0x04] ∧
    ¬ Spec.Hopeless spec [0x04, 0x02, 0x00, 0x0F, 0, 0, 0x41, 0, 0, 0, 0] ∧
    ¬ Spec.Hopeless wizzilab [0x66, 0x9B, 0x5C, 0, 0, 0, 0, 0x03] := by
  have key : ∀ {cfg data}, Action.tryFrom cfg data = .error .incomplete →
      (∀ more a, Action.tryFrom cfg (data ++ more) ≠ .ok a) → Spec.Hopeless cfg data := by
    intro cfg data hi hn
    refine Classical.byContradiction fun h => ?_
    obtain ⟨more, a, ha⟩ := (C68_action_exact cfg data hi).2 h
    exact hn more a ha
  have key' : ∀ {cfg data} more, (Action.tryFrom cfg (data ++ more)).isOk = true → ¬ Spec.Hopeless cfg data := by
    intro cfg data more hm hh
    cases h : Action.tryFrom cfg (data ++ more) with
    | ok a => exact C68_hopeless cfg data more a hh h
    | error e => rw [h] at hm; cases hm
  refine ⟨key C68_firmware_violates.1 C68_firmware_violates.2, key C68_status_violates.1 C68_status_violates.2,
    key C68_tx_violates.1 C68_tx_violates.2, .inr (.inr ⟨rfl, by decide, 4, rfl, by decide⟩),
    key' (List.replicate 8 0) (by decide +kernel), key' (List.replicate 17 0xFF) (by decide +kernel)⟩

#print axioms C68_action_partial
#print axioms C68_hopeless
#print axioms C68_action_exact
#print axioms C68_item_partial
#print axioms C68_item_hopeless
#print axioms C68_command_partial
#print axioms C68_status_violates
#print axioms C68_firmware_violates
#print axioms C68_tx_violates
#print axioms C68_control_violates

end Dash7
