import Verif.Lemmas.Decode

/-!
# Commands: the reading loop
-/

namespace Dash7

/-- What looking for the end of the input adds to `bits_read`. -/
def Cfg.endCost (cfg : Cfg) : Nat := if cfg.endCounts then 8 else 0

/-- A reader at a byte boundary with nothing kept back. -/
structure Rd.Fresh (r : Rd) : Prop extends r.Aligned where
  left : r.left = []

theorem Rd.new_fresh (data : List U8) : (Rd.new data).Fresh := ⟨Rd.new_aligned data, rfl⟩

theorem Rd.Con.fresh {r : Rd} (h : r.Con) (hl : r.left.length < 8) (h8 : 8 ∣ r.cur) : r.Fresh := by
  refine ⟨⟨h, h8⟩, List.eq_nil_of_length_eq_zero ?_⟩
  have := h.toOK.left8
  have : r.cur = 8 * r.pos - r.left.length := rfl
  omega

theorem R.atEnd_fresh {cfg : Cfg} {r : Rd} (h : r.Fresh) (hne : r.rem ≠ []) :
    ∃ r', R.atEnd cfg r = .ok (false, r') ∧ r'.Aligned ∧ r'.rem = r.rem ∧ r'.data = r.data ∧
      r'.cur = r.cur ∧ r'.bitsRead = r.bitsRead + cfg.endCost := by
  obtain ⟨r', hr⟩ := R.atEnd_rem (cfg := cfg) h.toOK
  have he : r.rem.isEmpty = false := by
    cases hr : r.rem with
    | nil => exact absurd hr hne
    | cons => rfl
  rw [he] at hr
  obtain ⟨hok, hd, hrem, hcur, -, -, -, hc1, hc2⟩ := R.atEnd_false h.toOK hr
  refine ⟨r', hr, ⟨⟨hok, ?_⟩, ?_⟩, hrem, hd, hcur, ?_⟩
  · rw [hrem, h.rem_eq, hd, hcur]
  · rw [hcur]; exact h.dvd
  · unfold Cfg.endCost
    cases hc : cfg.endCounts with
    | true => rw [hc1 h.left hc]; rfl
    | false => rw [hc2 hc]; rfl

theorem R.atEnd_nil {cfg : Cfg} {r : Rd} (h : r.rem = []) : R.atEnd cfg r = .ok (true, r) := by
  have hl : r.left = [] := by
    unfold Rd.rem at h
    exact (List.append_eq_nil_iff.1 h).1
  have hb : r.data.drop r.pos = [] := by
    unfold Rd.rem at h
    have := (List.append_eq_nil_iff.1 h).2
    cases hd : r.data.drop r.pos with
    | nil => rfl
    | cons b bs =>
      rw [hd] at this
      have := congrArg List.length this
      rw [bytesBits_length] at this
      simp at this
  unfold R.atEnd
  rw [if_neg (by simp [hl]), hb]

/-- Actions standing one after the other. -/
inductive Reads (cfg : Cfg) : List Action → List Bool → List Bool → Prop
  | nil (s : List Bool) : Reads cfg [] s s
  | cons {a : Action} {as : List Action} {s s1 s' : List Bool} :
      Action.decode cfg s = .ok (a, s1) → a.isTx = false → Reads cfg as s1 s' →
      Reads cfg (a :: as) s s'

theorem Reads.append {cfg : Cfg} {as bs : List Action} {s s1 s' : List Bool}
    (h1 : Reads cfg as s s1) (h2 : Reads cfg bs s1 s') : Reads cfg (as ++ bs) s s' := by
  induction h1 with
  | nil => exact h2
  | cons hd ht _ ih => exact .cons hd ht (ih h2)

theorem Reads.length {cfg : Cfg} {as : List Action} {s s' : List Bool} (h : Reads cfg as s s') :
    ∃ c, s = c ++ s' ∧ 8 ∣ c.length ∧ 8 * as.length ≤ c.length := by
  induction h with
  | nil => exact ⟨[], by simp⟩
  | cons hd ht _ ih =>
    obtain ⟨c, rfl, hc, -⟩ := Action.decode_ok hd
    obtain ⟨c', rfl, h8, hl⟩ := ih
    have := hc.dvd ht
    have := hc.pos
    refine ⟨c ++ c', by simp, by simp; omega, by simp; omega⟩

/-- What was read does not depend on what follows. -/
theorem Reads.extend {cfg : Cfg} {as : List Action} {s s' : List Bool} (h : Reads cfg as s s') :
    ∃ c, s = c ++ s' ∧ ∀ t, Reads cfg as (c ++ t) t := by
  induction h with
  | nil => exact ⟨[], rfl, fun t => .nil t⟩
  | cons hd ht _ ih =>
    obtain ⟨c, rfl, hc, -, -, -, hx⟩ := Action.decode_ok hd
    obtain ⟨c', rfl, h'⟩ := ih
    refine ⟨c ++ c', by simp, fun t => ?_⟩
    rw [List.append_assoc]
    exact .cons (hx _) ht (h' t)

theorem Reads.noTx {cfg : Cfg} {as : List Action} {s s' : List Bool} (h : Reads cfg as s s') :
    ∀ a ∈ as, a.isTx = false := by
  induction h with
  | nil => simp
  | cons hd ht _ ih => simpa using ⟨ht, ih⟩

theorem Reads.wf {cfg : Cfg} {as : List Action} {s s' : List Bool} (h : Reads cfg as s s') :
    ∀ a ∈ as, a.isOther = false → a.WF cfg := by
  induction h with
  | nil => simp
  | cons hd ht _ ih =>
    intro a ha ho
    rcases List.mem_cons.1 ha with rfl | ha
    · exact Action.decode_wf hd ht ho
    · exact ih a ha ho

theorem Reads.det {cfg : Cfg} {as bs : List Action} {s s1 s2 : List Bool}
    (h1 : Reads cfg as s s1) (h2 : Reads cfg bs s s2) (hl : as.length ≤ bs.length) :
    ∃ cs, bs = as ++ cs ∧ Reads cfg cs s1 s2 := by
  induction h1 generalizing bs with
  | nil => exact ⟨bs, rfl, h2⟩
  | cons hd ht _ ih =>
    cases h2 with
    | nil => simp at hl
    | cons hd' ht' h2' =>
      rw [hd] at hd'
      cases hd'
      obtain ⟨cs, rfl, hcs⟩ := ih h2' (by simpa using hl)
      exact ⟨cs, rfl, hcs⟩

/-- Well-formed actions written one after the other are read back. -/
theorem Reads.write {cfg : Cfg} {as : List Action} (h : ∀ a ∈ as, a.WF cfg) :
    ∃ bs, W.list (Action.write cfg) as = .ok bs ∧ 8 ∣ bs.length ∧ ∀ rest, Reads cfg as (bs ++ rest) rest := by
  induction as with
  | nil => exact ⟨[], rfl, by simp, fun rest => .nil rest⟩
  | cons a as ih =>
    obtain ⟨b, hb, h8, -, hd⟩ := Action.decode_write (h a (by simp))
    obtain ⟨c, hc, h8', hr⟩ := ih fun x hx => h x (by simp [hx])
    refine ⟨b ++ c, ?_, by simp; omega, fun rest => ?_⟩
    · rw [W.list, List.map_cons]
      exact W.seq_cons_ok.2 ⟨b, c, hb, hc, rfl⟩
    · rw [List.append_assoc]
      exact .cons (hd _) (h a (by simp)).isTx (hr rest)

namespace Command

theorem endsIndirect_iff (acc : List Action) :
    endsIndirect acc = true ↔ ∃ a, acc.getLast? = some a ∧ a.isIndirectForward = true := by
  unfold endsIndirect
  constructor
  · intro h
    split at h
    · rename_i o ho
      exact ⟨_, ho, rfl⟩
    · cases h
  · rintro ⟨a, ha, hi⟩
    rw [ha]
    cases a <;> first | rfl | cases hi

theorem endsIndirect_concat (as : List Action) (a : Action) :
    endsIndirect (as ++ [a]) = a.isIndirectForward := by
  rw [Bool.eq_iff_iff, endsIndirect_iff]
  simp

theorem endsIndirect_false {acc : List Action} {a : Action} {bs : List Action}
    (h : ∀ x ∈ (acc ++ a :: bs).dropLast, x.isIndirectForward = false) : endsIndirect acc = false := by
  cases he : endsIndirect acc with
  | false => rfl
  | true =>
    obtain ⟨x, hx, hi⟩ := (endsIndirect_iff acc).1 he
    have hm : x ∈ acc := List.mem_of_getLast? hx
    rw [List.dropLast_append_of_ne_nil (by simp)] at h
    rw [h x (by simp [hm])] at hi
    cases hi

theorem loop_succ (cfg : Cfg) (L : U32) (fuel : Nat) (acc : List Action) (r : Rd) :
    loop cfg L (fuel + 1) acc r =
      match validLength cfg L r with
      | .error e => .error e
      | .ok (valid, r0) =>
        if valid = false then .ok (acc, r0)
        else match R.atEnd cfg r0 with
          | .error e => .error e
          | .ok (stop, r1) =>
            if stop = true then .ok (acc, r1)
            else if endsIndirect acc = true then .ok (acc, r1)
            else match Action.read cfg r1 with
              | .error e => .error e
              | .ok (a, r2) => loop cfg L fuel (acc ++ [a]) r2 := by
  simp only [loop, R.bind_eq, R.bind]
  cases hv : validLength cfg L r with
  | error e => rfl
  | ok p =>
    obtain ⟨valid, r0⟩ := p
    dsimp only
    cases valid with
    | false => rfl
    | true =>
      simp only [Bool.not_true, Bool.true_eq_false, Bool.false_eq_true, if_false, R.bind]
      cases hE : R.atEnd cfg r0 with
      | error e => rfl
      | ok p =>
        obtain ⟨stop, r1⟩ := p
        dsimp only
        cases stop with
        | true => rfl
        | false =>
          simp only [Bool.false_eq_true, if_false]
          cases hI : endsIndirect acc with
          | true => rfl
          | false =>
            simp only [Bool.false_eq_true, if_false, R.bind]
            cases Action.read cfg r1 with
            | error e => rfl
            | ok p => rfl

theorem loop_zero (cfg : Cfg) (fuel : Nat) (acc : List Action) (r : Rd) :
    loop cfg 0 (fuel + 1) acc r =
      match R.atEnd cfg r with
      | .error e => .error e
      | .ok (stop, r1) =>
        if stop = true then .ok (acc, r1)
        else if endsIndirect acc = true then .ok (acc, r1)
        else match Action.read cfg r1 with
          | .error e => .error e
          | .ok (a, r2) => loop cfg 0 fuel (acc ++ [a]) r2 := by
  rw [loop_succ]; rfl

theorem validLength_ok (cfg : Cfg) (L : U32) {r : Rd} (h : r.OK) :
    ∃ b r1, validLength cfg L r = .ok (b, r1) ∧
        r1.OK ∧ r1.data = r.data ∧ r1.rem.length ≤ r.rem.length := by
  unfold validLength
  split
  · exact ⟨_, _, rfl, h, rfl, Nat.le_refl _⟩
  · simp only [R.bind, R.streamPosition, R.pure]
    refine ⟨_, _, rfl, ⟨h.pos_le, ?_, ?_⟩, rfl, ?_⟩
    · dsimp only; split
      · simp
      · exact h.left_le
    · dsimp only; split
      · intro h0; exact absurd rfl h0
      · exact h.left_pos
    · simp only [Rd.rem, List.length_append]; split
      · simp
      · simp

theorem loop_nil {cfg : Cfg} {fuel : Nat} {acc : List Action} {r : Rd} (h : r.rem = []) :
    loop cfg 0 (fuel + 1) acc r = .ok (acc, r) := by
  rw [loop_zero, R.atEnd_nil h]; rfl

theorem loop_indirect {cfg : Cfg} {fuel : Nat} {acc : List Action} {r : Rd} (h : r.Fresh)
    (hne : r.rem ≠ []) (hi : endsIndirect acc = true) :
    ∃ r', loop cfg 0 (fuel + 1) acc r = .ok (acc, r') ∧ r'.rem = r.rem ∧ r'.data = r.data ∧
      r'.bitsRead = r.bitsRead + cfg.endCost := by
  obtain ⟨r1, hr1, -, hrem, hd, -, hb⟩ := R.atEnd_fresh (cfg := cfg) h hne
  refine ⟨r1, ?_, hrem, hd, hb⟩
  rw [loop_zero, hr1, hi]
  rfl

theorem loop_err {cfg : Cfg} {fuel : Nat} {acc : List Action} {r : Rd} {e : Err} (h : r.Fresh)
    (hne : r.rem ≠ []) (hi : endsIndirect acc = false) (hd : Action.decode cfg r.rem = .error e) :
    loop cfg 0 (fuel + 1) acc r = .error e := by
  obtain ⟨r1, hr1, ha, hrem, -⟩ := R.atEnd_fresh (cfg := cfg) h hne
  rw [loop_zero, hr1, hi]
  dsimp only
  rw [Action.read_aligned_err ha (by rw [hrem]; exact hd)]
  rfl

/-- One turn of the loop at a byte boundary. -/
theorem loop_step {cfg : Cfg} {fuel : Nat} {acc : List Action} {r : Rd} {a : Action} {s1 : List Bool}
    (h : r.Fresh) (hi : endsIndirect acc = false) (hd : Action.decode cfg r.rem = .ok (a, s1))
    (ht : a.isTx = false) :
    ∃ r', loop cfg 0 (fuel + 1) acc r = loop cfg 0 fuel (acc ++ [a]) r' ∧ r'.Fresh ∧ r'.rem = s1 ∧
      r'.data = r.data ∧ r'.bitsRead + s1.length = r.bitsRead + r.rem.length + (8 + cfg.endCost) := by
  obtain ⟨c, hc, hdec, -⟩ := Action.decode_ok hd
  have hpos := hdec.pos
  have hne : r.rem ≠ [] := by
    intro h0; rw [h0] at hc
    have := congrArg List.length hc
    simp at this; omega
  obtain ⟨r1, hr1, ha, hrem, hdata, hcur, hb⟩ := R.atEnd_fresh (cfg := cfg) h hne
  obtain ⟨r', hr', hcon, hrem', hdata', hl, hcur', hb'⟩ :=
    Action.read_aligned_ok (cfg := cfg) ha (by rw [hrem]; exact hd)
  refine ⟨r', ?_, hcon.fresh hl ?_, hrem', hdata'.trans hdata, ?_⟩
  · rw [loop_zero, hr1, hi]
    dsimp only
    rw [hr']
    rfl
  · have h8 := hdec.dvd ht
    have := ha.dvd
    have hlen : r1.rem.length = c.length + s1.length := by rw [hrem, hc]; simp
    omega
  · rw [hrem] at hb'
    omega

theorem loop_reads {cfg : Cfg} {fuel : Nat} {bs : List Action} {s s' : List Bool}
    (hR : Reads cfg bs s s') {acc : List Action} {r : Rd} (h : r.Fresh) (hs : r.rem = s)
    (hi : ∀ a ∈ (acc ++ bs).dropLast, a.isIndirectForward = false) :
    ∃ r', loop cfg 0 (fuel + bs.length) acc r = loop cfg 0 fuel (acc ++ bs) r' ∧ r'.Fresh ∧
      r'.rem = s' ∧ r'.data = r.data ∧
      r'.bitsRead + s'.length = r.bitsRead + s.length + bs.length * (8 + cfg.endCost) := by
  induction hR generalizing acc r with
  | nil => exact ⟨r, by simp, h, hs, rfl, by simp⟩
  | @cons a as s s1 s' hd ht _ ih =>
    subst hs
    obtain ⟨r1, hr1, hf, hrem, hdata, hb⟩ := loop_step (fuel := fuel + as.length) h
      (endsIndirect_false hi) hd ht
    obtain ⟨r', hr', hf', hrem', hdata', hb'⟩ := ih (acc := acc ++ [a]) hf hrem (by simpa using hi)
    refine ⟨r', ?_, hf', hrem', hdata'.trans hdata, ?_⟩
    · rw [List.length_cons, ← Nat.add_assoc, hr1, hr', List.append_assoc]; rfl
    · rw [List.length_cons, Nat.succ_mul]
      omega

/-- What a successful run of the loop went through, when no TX status came up. -/
theorem loop_conv {cfg : Cfg} {fuel : Nat} {acc as : List Action} {r r' : Rd} (h : r.Fresh)
    (hl : loop cfg 0 fuel acc r = .ok (as, r')) (ht : ∀ a ∈ as, a.isTx = false) :
    ∃ bs, as = acc ++ bs ∧ Reads cfg bs r.rem r'.rem ∧ (r'.rem = [] ∨ endsIndirect as = true) ∧
      r'.bitsRead + r'.rem.length = r.bitsRead + r.rem.length + bs.length * (8 + cfg.endCost) +
        (if r'.rem = [] then 0 else cfg.endCost) := by
  induction fuel generalizing acc r with
  | zero => cases hl
  | succ fuel ih =>
    by_cases hne : r.rem = []
    · rw [loop_nil hne] at hl
      cases hl
      exact ⟨[], by simp, .nil _, .inl hne, by simp [hne]⟩
    · cases hi : endsIndirect acc with
      | true =>
        obtain ⟨r1, hr1, hrem, -, hb⟩ := loop_indirect (cfg := cfg) (fuel := fuel) h hne hi
        rw [hr1] at hl
        cases hl
        refine ⟨[], by simp, by rw [hrem]; exact .nil _, .inr hi, ?_⟩
        rw [if_neg (by rw [hrem]; exact hne), hb, hrem]
        simp; omega
      | false =>
        cases hd : Action.decode cfg r.rem with
        | error e => rw [loop_err h hne hi hd] at hl; cases hl
        | ok p =>
          obtain ⟨a, s1⟩ := p
          obtain ⟨r1, hr1, ha, hrem, hdata, hcur, hb⟩ := R.atEnd_fresh (cfg := cfg) h hne
          obtain ⟨r2, hr2, -⟩ :=
            Action.read_aligned_ok (cfg := cfg) ha (by rw [hrem]; exact hd)
          have hmem : a ∈ as := by
            have hl2 := hl
            rw [loop_zero, hr1, hi] at hl2
            dsimp only at hl2
            rw [hr2] at hl2
            have : ∀ (fuel : Nat) (acc as : List Action) (r r' : Rd),
                loop cfg 0 fuel acc r = .ok (as, r') → ∀ x ∈ acc, x ∈ as := by
              intro fuel
              induction fuel with
              | zero => intro _ _ _ _ h; cases h
              | succ fuel ih =>
                intro acc as r r' h x hx
                rw [loop_zero] at h
                split at h
                · cases h
                · split at h
                  · cases h; exact hx
                  · split at h
                    · cases h; exact hx
                    · split at h
                      · cases h
                      · exact ih _ _ _ _ h x (by simp [hx])
            exact this _ _ _ _ _ hl2 a (by simp)
          obtain ⟨r3, hr3, hf, hrem3, hdata3, hb3⟩ := loop_step (fuel := fuel) h hi hd (ht a hmem)
          rw [hr3] at hl
          obtain ⟨bs, rfl, hR, hstop, hbits⟩ := ih hf hl
          rw [hrem3] at hR hbits
          refine ⟨a :: bs, by simp, .cons hd (ht a hmem) hR, hstop, ?_⟩
          rw [List.length_cons, Nat.succ_mul]
          omega

/-- What holds of a successful run of the loop from any state, any length limit. -/
theorem loop_ok {cfg : Cfg} {L : U32} {fuel : Nat} {acc as : List Action} {r r' : Rd} (h : r.OK)
    (hl : loop cfg L fuel acc r = .ok (as, r')) :
    ∃ ps : List (Action × Nat), as = acc ++ ps.map Prod.fst ∧ r'.OK ∧ r'.data = r.data ∧
      (∀ p ∈ ps, Action.Decoded cfg p.1 p.2) ∧
      (ps.map Prod.snd).sum + r'.rem.length ≤ r.rem.length ∧
      ((∀ a ∈ acc.dropLast, a.isIndirectForward = false) →
        ∀ a ∈ as.dropLast, a.isIndirectForward = false) := by
  induction fuel generalizing acc r with
  | zero => cases hl
  | succ fuel ih =>
    rw [loop_succ] at hl
    obtain ⟨b, r1, hb, hok1, hd1, hle1⟩ := validLength_ok cfg L h
    rw [hb] at hl
    dsimp only at hl
    split at hl
    · cases hl
      exact ⟨[], by simp, hok1, hd1, by simp, by simpa using hle1, fun h => h⟩
    · split at hl
      · cases hl
      · rename_i stop r2 hE
        cases stop with
        | true =>
          cases hl
          obtain ⟨rfl, -⟩ := R.atEnd_true hE
          exact ⟨[], by simp, hok1, hd1, by simp, by simpa using hle1, fun h => h⟩
        | false =>
          obtain ⟨hok2, hd2, hrem2, -⟩ := R.atEnd_false hok1 hE
          simp only [Bool.false_eq_true, if_false] at hl
          split at hl
          · cases hl
            exact ⟨[], by simp, hok2, hd2.trans hd1, by simp, by rw [hrem2]; simpa using hle1,
              fun h => h⟩
          · rename_i hi
            split at hl
            · cases hl
            · rename_i a r3 hr3
              ·
                obtain ⟨n, hok3, hd3, hle3, hdec⟩ := Action.read_ok hok2 hr3
                obtain ⟨ps, rfl, hok', hd', hF, hle', hind⟩ := ih hok3 hl
                refine ⟨(a, n) :: ps, by simp, hok', hd'.trans (hd3.trans (hd2.trans hd1)),
                  by simpa using ⟨hdec, fun x y => hF (x, y)⟩, ?_, fun hacc => hind ?_⟩
                · rw [hrem2] at hle3
                  simp only [List.map_cons, List.sum_cons]; omega
                · rw [List.dropLast_concat]
                  intro x hx
                  by_cases hlast : acc = []
                  · subst hlast; cases hx
                  · rw [← List.dropLast_concat_getLast hlast] at hx
                    rcases List.mem_append.1 hx with hx | hx
                    · exact hacc x hx
                    · have hxe : x = acc.getLast hlast := by simpa using hx
                      cases hxi : x.isIndirectForward with
                      | false => rfl
                      | true =>
                        exact absurd ((endsIndirect_iff acc).2 ⟨x, by
                          rw [hxe, List.getLast?_eq_some_getLast hlast], hxi⟩) hi

/-- The loop never runs out of fuel and never panics. -/
theorem loop_fault {cfg : Cfg} {L : U32} {fuel : Nat} {acc : List Action} {r : Rd} {f : Fault}
    (h : r.OK) (hfuel : r.rem.length < 8 * fuel)
    (hl : loop cfg L fuel acc r = .error (.fault f)) : f = .parse ∨ f = .invalidParam := by
  induction fuel generalizing acc r with
  | zero => omega
  | succ fuel ih =>
    rw [loop_succ] at hl
    obtain ⟨b, r1, hb, hok1, hd1, hle1⟩ := validLength_ok cfg L h
    rw [hb] at hl
    dsimp only at hl
    split at hl
    · cases hl
    · obtain ⟨stop, r2, hE⟩ := R.atEnd_total cfg r1
      rw [hE] at hl
      dsimp only at hl
      cases stop with
      | true => cases hl
      | false =>
        obtain ⟨hok2, hd2, hrem2, -⟩ := R.atEnd_false hok1 hE
        simp only [Bool.false_eq_true, if_false] at hl
        split at hl
        · cases hl
        · split at hl
          · rename_i e hr3
            cases hl
            exact Action.read_fault hok2 hr3
          · rename_i a r3 hr3
            obtain ⟨n, hok3, hd3, hle3, hdec⟩ := Action.read_ok hok2 hr3
            have := hdec.pos
            rw [hrem2] at hle3
            exact ih hok3 (by omega) hl

end Command
end Dash7
