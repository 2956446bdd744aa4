import Verif.Lemmas.Command

/-!
# `from_bytes`, `try_from`, `from_reader` and `to_bytes` of actions and commands
-/

namespace Dash7

/-- A suffix of whole bytes. -/
theorem bytesBits_suffix {data : List U8} {c s' : List Bool} (h : bytesBits data = c ++ s')
    (h8 : 8 ∣ c.length) :
    ∃ p q, data = p ++ q ∧ c = bytesBits p ∧ s' = bytesBits q ∧ p.length = c.length / 8 := by
  obtain ⟨k, hk⟩ := h8
  refine ⟨data.take k, data.drop k, (List.take_append_drop k data).symm, ?_, ?_, ?_⟩
  · rw [bytesBits_take, h, ← hk, List.take_left]
  · rw [bytesBits_drop, h, ← hk, List.drop_left]
  · have := congrArg List.length h
    rw [bytesBits_length, List.length_append] at this
    rw [List.length_take]; omega

theorem padRest_whole (data : List U8) (j : Nat) : padRest (data, 0) (8 * j) = .ok (data.drop j, 0) := by
  unfold padRest
  split
  · rename_i h
    have h : data.length * 8 + 0 ≤ 8 * j := h
    have h0 : (8 * j) % 8 = 0 := by omega
    rw [h0, List.drop_eq_nil_of_le (by omega)]
  · rename_i h
    have h : ¬ data.length * 8 + 0 ≤ 8 * j := h
    have h0 : (8 * j) % 8 = 0 := by omega
    have hj : 8 * j / 8 = j := by omega
    simp only [h0, if_true, hj, sliceFrom]
    rw [if_pos (by omega)]

theorem bytesBits_inj {a b : List U8} (h : bytesBits a = bytesBits b) : a = b := by
  rw [← packBits_bytesBits a, h, packBits_bytesBits]

theorem bytesBits_eq_nil {a : List U8} : bytesBits a = [] ↔ a = [] := by
  constructor
  · intro h
    exact bytesBits_inj h
  · rintro rfl; rfl

theorem startAt_zero {α : Type} (m : R α) : startAt 0 m = m := rfl

theorem W.toBytes_ok {w : W} {bs : List Bool} (h : w = .ok bs) (h8 : 8 ∣ bs.length) :
    ∃ bytes, w.toBytes = .ok bytes ∧ bytesBits bytes = bs := by
  subst h
  exact ⟨packBits bs, rfl, bytesBits_packBits _ h8⟩

namespace Action

theorem fromBytes_ok {cfg : Cfg} {data : List U8} {a : Action} {s' : List Bool}
    (hd : decode cfg (bytesBits data) = .ok (a, s')) (ht : a.isTx = false) :
    ∃ p q, data = p ++ q ∧ s' = bytesBits q ∧ p ≠ [] ∧
      fromBytes cfg (data, 0) = .ok ((q.drop 1, 0), a) ∧
      fromReader cfg data 0 = .ok (8 * (p.length + 1), a) := by
  obtain ⟨c, hc, hdec, -⟩ := decode_ok hd
  have h8 := hdec.dvd ht
  have hpos := hdec.pos
  obtain ⟨p, q, rfl, rfl, rfl, hp⟩ := bytesBits_suffix hc h8
  obtain ⟨r', hr, -, hrem, -, -, -, hb⟩ := read_aligned_ok (cfg := cfg) (Rd.new_aligned (p ++ q))
    (by rw [Rd.new_rem]; exact hd)
  rw [Rd.new_rem, hc, List.length_append, show (Rd.new (p ++ q)).bitsRead = 0 from rfl] at hb
  rw [bytesBits_length] at h8 hpos hp
  rw [bytesBits_length, bytesBits_length] at hb
  have hbr : r'.bitsRead = 8 * (p.length + 1) := by omega
  refine ⟨p, q, rfl, rfl, ?_, ?_, ?_⟩
  · rintro rfl; simp at hpos
  · unfold fromBytes Dash7.fromBytes
    dsimp only
    rw [startAt_zero, hr]
    dsimp only
    rw [hbr, padRest_whole]
    dsimp only
    rw [List.drop_append]
    simp
  · unfold fromReader Dash7.fromReader
    rw [startAt_zero, hr]
    dsimp only
    rw [hbr]

theorem fromBytes_err {cfg : Cfg} {data : List U8} {e : Err}
    (hd : decode cfg (bytesBits data) = .error e) :
    fromBytes cfg (data, 0) = .error e ∧ fromReader cfg data 0 = .error e ∧
      tryFrom cfg data = .error e := by
  have hr := read_aligned_err (cfg := cfg) (Rd.new_aligned data) (by rw [Rd.new_rem]; exact hd)
  have h1 : fromBytes cfg (data, 0) = .error e := by
    unfold fromBytes Dash7.fromBytes
    dsimp only
    rw [startAt_zero, hr]
  refine ⟨h1, ?_, ?_⟩
  · unfold fromReader Dash7.fromReader
    rw [startAt_zero, hr]
  · unfold tryFrom
    rw [h1]

theorem tryFrom_ok {cfg : Cfg} {data : List U8} {a : Action} {s' : List Bool}
    (hd : decode cfg (bytesBits data) = .ok (a, s')) (ht : a.isTx = false) :
    tryFrom cfg data = if s'.length ≤ 8 then .ok a else .error (.fault .parse) := by
  obtain ⟨p, q, rfl, rfl, -, h, -⟩ := fromBytes_ok hd ht
  unfold tryFrom
  rw [h]
  dsimp only
  rw [bytesBits_length]
  by_cases hq : q.length ≤ 1
  · rw [List.drop_eq_nil_of_le hq, if_neg (by simp), if_pos (by omega)]
  · rw [if_pos (by intro h0; have := congrArg List.length h0; simp at this; omega),
      if_neg (by omega)]

/-- `to_bytes` and decoding, on bytes. -/
theorem toBytes_decode {cfg : Cfg} {a : Action} (h : a.WF cfg) :
    ∃ bytes, a.toBytes cfg = .ok bytes ∧ bytes ≠ [] ∧
      ∀ rest, decode cfg (bytesBits bytes ++ rest) = .ok (a, rest) := by
  obtain ⟨bs, hw, h8, hpos, hd⟩ := decode_write h
  obtain ⟨bytes, hb, rfl⟩ := W.toBytes_ok hw h8
  refine ⟨bytes, hb, ?_, hd⟩
  rintro rfl
  simp at hpos

end Action

/-- What looking for the end of the input adds to `bits_read`, in bytes. -/
def Cfg.endCostBytes (cfg : Cfg) : Nat := if cfg.endCounts then 1 else 0

theorem Cfg.endCost_eq (cfg : Cfg) : cfg.endCost = 8 * cfg.endCostBytes := by
  unfold endCost endCostBytes
  split <;> rfl

/-- How many bytes behind the last action `Command::from_bytes` loses. -/
def Cfg.lost (cfg : Cfg) (n : Nat) : Nat := n * (1 + cfg.endCostBytes) + cfg.endCostBytes

namespace Command

theorem fromBytes_ok {cfg : Cfg} {data : List U8} {as : List Action} {s' : List Bool}
    (hR : Reads cfg as (bytesBits data) s') (hi : ∀ a ∈ as.dropLast, a.isIndirectForward = false)
    (hs : s' = [] ∨ endsIndirect as = true) :
    ∃ p q, data = p ++ q ∧ s' = bytesBits q ∧ as.length ≤ p.length ∧
      fromBytes cfg (data, 0) = .ok ((q.drop (cfg.lost as.length), 0), ⟨as⟩) := by
  obtain ⟨c, hc, h8, hle⟩ := hR.length
  obtain ⟨p, q, rfl, rfl, rfl, hp⟩ := bytesBits_suffix hc h8
  rw [bytesBits_length] at h8 hle
  have hle' : as.length ≤ (p ++ q).length := by rw [List.length_append]; omega
  obtain ⟨fuel, hfuel⟩ : ∃ fuel, (p ++ q).length + 1 = (fuel + 1) + as.length :=
    ⟨(p ++ q).length - as.length, by omega⟩
  obtain ⟨r, hr, hf, hrem, hdata, hb⟩ := loop_reads (fuel := fuel + 1) hR (acc := [])
    (Rd.new_fresh (p ++ q)) (by rw [Rd.new_rem]) (by simpa using hi)
  rw [← hfuel, List.nil_append] at hr
  rw [hc, List.length_append, bytesBits_length, bytesBits_length, cfg.endCost_eq,
    show (Rd.new (p ++ q)).bitsRead = 0 from rfl] at hb
  refine ⟨p, q, rfl, rfl, by omega, ?_⟩
  have hfin : ∃ r', loop cfg 0 ((p ++ q).length + 1) [] (Rd.new (p ++ q)) = .ok (as, r') ∧
      ∃ j, r'.bitsRead = 8 * (p.length + j) ∧ q.drop j = q.drop (cfg.lost as.length) := by
    by_cases hq : bytesBits q = []
    · refine ⟨r, by rw [hr]; exact loop_nil (by rw [hrem, hq]),
        as.length * (1 + cfg.endCostBytes), ?_, ?_⟩
      · have : as.length * (8 + 8 * cfg.endCostBytes) = 8 * (as.length * (1 + cfg.endCostBytes)) := by
          rw [Nat.mul_left_comm]; congr 1; omega
        omega
      · rw [bytesBits_eq_nil.1 hq]; simp
    · obtain ⟨r', hr', hrem', -, hb'⟩ := loop_indirect (cfg := cfg) (fuel := fuel) hf
        (by rw [hrem]; exact hq) (hs.resolve_left hq)
      refine ⟨r', hr.trans hr', cfg.lost as.length, ?_, rfl⟩
      have : as.length * (8 + 8 * cfg.endCostBytes) = 8 * (as.length * (1 + cfg.endCostBytes)) := by
        rw [Nat.mul_left_comm]; congr 1; omega
      rw [hb', cfg.endCost_eq, Cfg.lost]
      omega
  obtain ⟨r', hr', j, hj, hdrop⟩ := hfin
  unfold fromBytes Dash7.fromBytes
  dsimp only
  rw [startAt_zero]
  have hread : read cfg 0 (Rd.new (p ++ q)) = .ok (⟨as⟩, r') := by
    unfold read
    show R.bind _ _ _ = _
    unfold R.bind
    rw [show (Rd.new (p ++ q)).data = p ++ q from rfl, hr']
    rfl
  rw [hread]
  dsimp only
  rw [hj, padRest_whole]
  dsimp only
  rw [List.drop_append, List.drop_eq_nil_of_le (by omega), List.nil_append, ← hdrop]
  simp

theorem fromBytes_err {cfg : Cfg} {data : List U8} {as : List Action} {s' : List Bool} {e : Err}
    (hR : Reads cfg as (bytesBits data) s') (hi : ∀ a ∈ as, a.isIndirectForward = false)
    (hne : s' ≠ []) (hd : Action.decode cfg s' = .error e) :
    fromBytes cfg (data, 0) = .error e ∧ tryFrom cfg data = .error e := by
  obtain ⟨c, hc, h8, hle⟩ := hR.length
  have hlen := congrArg List.length hc
  rw [bytesBits_length, List.length_append] at hlen
  obtain ⟨fuel, hfuel⟩ : ∃ fuel, data.length + 1 = (fuel + 1) + as.length :=
    ⟨data.length - as.length, by omega⟩
  obtain ⟨r, hr, hf, hrem, hdata, hb⟩ := loop_reads (fuel := fuel + 1) hR (acc := [])
    (Rd.new_fresh data) (by rw [Rd.new_rem])
    (fun a ha => hi a (by simpa using List.dropLast_subset _ ha))
  have hei : endsIndirect as = false := by
    cases h : endsIndirect as with
    | false => rfl
    | true =>
      obtain ⟨x, hx, hxi⟩ := (endsIndirect_iff as).1 h
      rw [hi x (List.mem_of_getLast? hx)] at hxi
      cases hxi
  rw [← hfuel, List.nil_append] at hr
  have hl : loop cfg 0 (data.length + 1) [] (Rd.new data) = .error e := by
    rw [hr]
    exact loop_err hf (by rw [hrem]; exact hne) hei (by rw [hrem]; exact hd)
  have h1 : fromBytes cfg (data, 0) = .error e := by
    unfold fromBytes Dash7.fromBytes
    dsimp only
    rw [startAt_zero]
    have hread : read cfg 0 (Rd.new data) = .error e := by
      unfold read
      show R.bind _ _ _ = _
      unfold R.bind
      rw [show (Rd.new data).data = data from rfl, hl]
    rw [hread]
  refine ⟨h1, ?_⟩
  unfold tryFrom
  rw [h1]

/-- A successful read of a command is a successful run of the loop. -/
theorem read_ok {cfg : Cfg} {L : U32} {r r' : Rd} {c : Command} (h : read cfg L r = .ok (c, r')) :
    loop cfg L (r.data.length + 1) [] r = .ok (c.actions, r') := by
  unfold read at h
  change R.bind _ _ _ = _ at h
  unfold R.bind at h
  split at h
  · rename_i hl
    cases h
    exact hl
  · cases h

theorem read_error {cfg : Cfg} {L : U32} {r : Rd} {e : Err} (h : read cfg L r = .error e) :
    loop cfg L (r.data.length + 1) [] r = .error e := by
  unfold read at h
  change R.bind _ _ _ = _ at h
  unfold R.bind at h
  split at h
  · cases h
  · rename_i hl
    cases h
    exact hl

theorem fromBytes_read {cfg : Cfg} {data : List U8} {rest : Rest} {c : Command}
    (h : fromBytes cfg (data, 0) = .ok (rest, c)) :
    ∃ r', read cfg 0 (Rd.new data) = .ok (c, r') ∧ padRest (data, 0) r'.bitsRead = .ok rest := by
  unfold fromBytes Dash7.fromBytes at h
  dsimp only at h
  rw [startAt_zero] at h
  split at h
  · cases h
  · rename_i a r hr
    split at h
    · rename_i x hx
      cases h
      exact ⟨r, hr, hx⟩
    · cases h

theorem tryFrom_fromBytes {cfg : Cfg} {data : List U8} {c : Command} (h : tryFrom cfg data = .ok c) :
    ∃ n, fromBytes cfg (data, 0) = .ok (([], n), c) := by
  unfold tryFrom at h
  split at h
  · cases h
  · rename_i rest c' hc
    split at h
    · cases h
    · rename_i hr
      cases h
      obtain ⟨l, n⟩ := rest
      simp at hr
      subst hr
      exact ⟨n, hc⟩

/-- What was read, when no TX status came up. -/
theorem fromBytes_conv {cfg : Cfg} {data : List U8} {rest : Rest} {c : Command}
    (h : fromBytes cfg (data, 0) = .ok (rest, c)) (ht : ∀ a ∈ c.actions, a.isTx = false) :
    ∃ p q, data = p ++ q ∧ Reads cfg c.actions (bytesBits data) (bytesBits q) ∧
      (∀ t, Reads cfg c.actions (bytesBits p ++ t) t) ∧
      (∀ a ∈ c.actions.dropLast, a.isIndirectForward = false) ∧
      (q = [] ∨ endsIndirect c.actions = true) ∧ rest = (q.drop (cfg.lost c.actions.length), 0) := by
  obtain ⟨r', hr, -⟩ := fromBytes_read h
  obtain ⟨bs, hbs, hR, hstop, -⟩ := loop_conv (Rd.new_fresh data) (read_ok hr) ht
  rw [List.nil_append] at hbs
  subst hbs
  obtain ⟨-, -, -, -, -, -, hind⟩ := loop_ok (Rd.new_fresh data).toOK (read_ok hr)
  have hind := hind (by simp)
  rw [Rd.new_rem] at hR
  obtain ⟨p, q, rfl, hq, -, hfb⟩ := fromBytes_ok hR hind hstop
  rw [hq] at hR hstop
  rw [hfb] at h
  cases h
  refine ⟨p, q, rfl, hR, ?_, hind, ?_, rfl⟩
  · obtain ⟨x, hx, hext⟩ := hR.extend
    rw [bytesBits_append] at hx
    rw [List.append_cancel_right hx]
    exact hext
  · rcases hstop with h | h
    · exact .inl (bytesBits_eq_nil.1 h)
    · exact .inr h

end Command
end Dash7
