import Verif.Lemmas.Limit
import Verif.Lemmas.Accept7

/-!
# What the reading loop takes under a length limit, at a byte boundary
-/

namespace Dash7

theorem Rd.Fresh.size {r : Rd} (h : r.Fresh) : 8 * r.data.length = 8 * r.pos + r.rem.length := by
  have := h.toOK.rem_cur
  rw [Rd.cur, h.left] at this
  simp at this; omega

/-- Actions read one after the other from an input of `N` bytes, each beginning below the limit `L`. -/
inductive Below (cfg : Cfg) (N L : Nat) : List Action → List Bool → List Bool → Prop
  | nil (s : List Bool) : Below cfg N L [] s s
  | cons {a : Action} {as : List Action} {s s1 s' : List Bool} :
      (L = 0 ∨ 8 * N < 8 * L + s.length) → Action.decode cfg s = .ok (a, s1) → a.isTx = false →
      Below cfg N L as s1 s' → Below cfg N L (a :: as) s s'

theorem Below.reads {cfg : Cfg} {N L : Nat} {as : List Action} {s s' : List Bool}
    (h : Below cfg N L as s s') : Reads cfg as s s' := by
  induction h with
  | nil s => exact .nil s
  | cons _ hd ht _ ih => exact .cons hd ht ih

namespace Command

theorem validLength_fresh' {cfg : Cfg} {L : U32} {r : Rd} (h : r.Fresh) :
    validLength cfg L r = .ok (decide (L.toNat = 0 ∨ 8 * r.data.length < 8 * L.toNat + r.rem.length), r) := by
  have hs := h.size
  by_cases hL : L.toNat = 0
  · unfold validLength
    rw [if_pos hL]
    simp [hL, R.pure]
  · rw [validLength_fresh h hL]
    congr 2
    rw [decide_eq_decide]
    constructor
    · intro h; right; omega
    · rintro (h | h)
      · exact absurd h hL
      · omega

/-- One turn of the loop at a byte boundary, below the limit. -/
theorem loop_turn {cfg : Cfg} {L : U32} {fuel : Nat} {acc : List Action} {r : Rd} {a : Action} {s1 : List Bool}
    (h : r.Fresh) (hL : L.toNat = 0 ∨ 8 * r.data.length < 8 * L.toNat + r.rem.length)
    (hi : endsIndirect acc = false) (hd : Action.decode cfg r.rem = .ok (a, s1))
    (ht : a.isTx = false) :
    ∃ r', loop cfg L (fuel + 1) acc r = loop cfg L fuel (acc ++ [a]) r' ∧ r'.Fresh ∧ r'.rem = s1 ∧
      r'.data = r.data ∧ r'.bitsRead + s1.length = r.bitsRead + r.rem.length + (8 + cfg.endCost) := by
  obtain ⟨c, hc, hdec, -⟩ := Action.decode_ok hd
  have hpos := hdec.pos
  have hne : r.rem ≠ [] := by
    intro h0; rw [h0] at hc
    have := congrArg List.length hc
    simp at this; omega
  obtain ⟨r1, hr1, ha, hrem, hdata, hcur, hb⟩ := R.atEnd_fresh (cfg := cfg) h hne
  obtain ⟨r', hr', hcon, hrem', hdata', hl, hcur', hb'⟩ :=
    Action.read_aligned_ok (cfg := cfg) ha (by rw [hrem]; exact hd)
  refine ⟨r', ?_, hcon.fresh hl ?_, hrem', hdata'.trans hdata, ?_⟩
  · rw [loop_succ, validLength_fresh' h]
    simp only [hL, decide_true, Bool.true_eq_false, if_false]
    rw [hr1]
    simp only [Bool.false_eq_true, if_false, hi]
    rw [hr']
  · have h8 := hdec.dvd ht
    have := ha.dvd
    have hlen : r1.rem.length = c.length + s1.length := by rw [hrem, hc]; simp
    omega
  · rw [hrem] at hb'
    omega

theorem loop_below {cfg : Cfg} {L : U32} {fuel N : Nat} {bs : List Action} {s s' : List Bool}
    (hR : Below cfg N L.toNat bs s s') {acc : List Action} {r : Rd} (h : r.Fresh) (hs : r.rem = s)
    (hN : r.data.length = N) (hi : ∀ a ∈ (acc ++ bs).dropLast, a.isIndirectForward = false) :
    ∃ r', loop cfg L (fuel + bs.length) acc r = loop cfg L fuel (acc ++ bs) r' ∧ r'.Fresh ∧
      r'.rem = s' ∧ r'.data = r.data ∧
      r'.bitsRead + s'.length = r.bitsRead + s.length + bs.length * (8 + cfg.endCost) := by
  induction hR generalizing acc r with
  | nil => exact ⟨r, by simp, h, hs, rfl, by simp⟩
  | @cons a as s s1 s' hL hd ht _ ih =>
    subst hs
    obtain ⟨r1, hr1, hf, hrem, hdata, hb⟩ := loop_turn (fuel := fuel + as.length) h
      (by rw [hN]; exact hL) (endsIndirect_false hi) hd ht
    obtain ⟨r', hr', hf', hrem', hdata', hb'⟩ := ih (acc := acc ++ [a]) hf hrem (by rw [hdata, hN])
      (by simpa using hi)
    refine ⟨r', ?_, hf', hrem', hdata'.trans hdata, ?_⟩
    · rw [List.length_cons, ← Nat.add_assoc, hr1, hr', List.append_assoc]; rfl
    · rw [List.length_cons, Nat.succ_mul]
      omega

/-- At the limit. -/
theorem loop_at_limit {cfg : Cfg} {L : U32} {fuel : Nat} {acc : List Action} {r : Rd} (h : r.Fresh)
    (hL : ¬ (L.toNat = 0 ∨ 8 * r.data.length < 8 * L.toNat + r.rem.length)) :
    loop cfg L (fuel + 1) acc r = .ok (acc, r) := by
  rw [loop_succ, validLength_fresh' h]
  simp [hL]

/-- At the end of the input. -/
theorem loop_at_end {cfg : Cfg} {L : U32} {fuel : Nat} {acc : List Action} {r : Rd} (h : r.Fresh)
    (hs : r.rem = []) : loop cfg L (fuel + 1) acc r = .ok (acc, r) := by
  rw [loop_succ, validLength_fresh' h]
  dsimp only
  split
  · rfl
  · rw [R.atEnd_nil hs]; rfl

/-- Behind an indirect forward. -/
theorem loop_at_forward {cfg : Cfg} {L : U32} {fuel : Nat} {acc : List Action} {r : Rd} (h : r.Fresh)
    (hL : L.toNat = 0 ∨ 8 * r.data.length < 8 * L.toNat + r.rem.length)
    (hne : r.rem ≠ []) (hi : endsIndirect acc = true) :
    ∃ r', loop cfg L (fuel + 1) acc r = .ok (acc, r') ∧ r'.Aligned ∧ r'.rem = r.rem ∧ r'.data = r.data ∧
      r'.bitsRead = r.bitsRead + cfg.endCost := by
  obtain ⟨r1, hr1, ha, hrem, hd, -, hb⟩ := R.atEnd_fresh (cfg := cfg) h hne
  refine ⟨r1, ?_, ha, hrem, hd, hb⟩
  rw [loop_succ, validLength_fresh' h]
  simp only [hL, decide_true, Bool.true_eq_false, if_false]
  rw [hr1]
  simp [hi]

theorem loop_acc {cfg : Cfg} {L : U32} {fuel : Nat} {acc as : List Action} {r r' : Rd}
    (h : loop cfg L fuel acc r = .ok (as, r')) : ∀ x ∈ acc, x ∈ as := by
  induction fuel generalizing acc r with
  | zero => cases h
  | succ fuel ih =>
    intro x hx
    rw [loop_succ] at h
    split at h
    · cases h
    · split at h
      · cases h; exact hx
      · split at h
        · cases h
        · split at h
          · cases h; exact hx
          · split at h
            · cases h; exact hx
            · split at h
              · cases h
              · exact ih h x (by simp [hx])

/-- What a successful run of the loop went through, when no TX status came up. -/
theorem loop_limit_conv {cfg : Cfg} {L : U32} {fuel : Nat} {acc as : List Action} {r r' : Rd} (h : r.Fresh)
    (hl : loop cfg L fuel acc r = .ok (as, r')) (ht : ∀ a ∈ as, a.isTx = false) :
    ∃ bs, as = acc ++ bs ∧ Below cfg r.data.length L.toNat bs r.rem r'.rem ∧ r'.Con ∧ r'.data = r.data ∧
      ∃ k, r'.bitsRead + r'.rem.length = r.bitsRead + r.rem.length + bs.length * (8 + cfg.endCost) + k ∧
        (¬ (L.toNat = 0 ∨ 8 * r.data.length < 8 * L.toNat + r'.rem.length) ∧ k = 0 ∨
          r'.rem = [] ∧ k = 0 ∨
          (L.toNat = 0 ∨ 8 * r.data.length < 8 * L.toNat + r'.rem.length) ∧ endsIndirect as = true ∧
            r'.rem ≠ [] ∧ k = cfg.endCost) := by
  induction fuel generalizing acc r with
  | zero => cases hl
  | succ fuel ih =>
    by_cases hL : L.toNat = 0 ∨ 8 * r.data.length < 8 * L.toNat + r.rem.length
    · by_cases hne : r.rem = []
      · rw [loop_at_end h hne] at hl
        cases hl
        exact ⟨[], by simp, .nil _, h.toCon, rfl, 0, by simp, .inr (.inl ⟨hne, rfl⟩)⟩
      · cases hi : endsIndirect acc with
        | true =>
          obtain ⟨r1, hr1, hal, hrem, hdt, hb⟩ := loop_at_forward (cfg := cfg) (fuel := fuel) h hL hne hi
          rw [hr1] at hl
          cases hl
          refine ⟨[], by simp, by rw [hrem]; exact .nil _, hal.toCon, hdt, cfg.endCost, ?_, .inr (.inr ?_)⟩
          · rw [hb, hrem]; simp; omega
          · rw [hrem]; exact ⟨hL, hi, hne, rfl⟩
        | false =>
          obtain ⟨r1, hr1, ha, hrem, hdata, hcur, hb⟩ := R.atEnd_fresh (cfg := cfg) h hne
          have hl2 := hl
          rw [loop_succ, validLength_fresh' h] at hl2
          simp only [hL, decide_true, Bool.true_eq_false, if_false] at hl2
          rw [hr1] at hl2
          simp only [Bool.false_eq_true, if_false, hi] at hl2
          cases hd : Action.decode cfg r.rem with
          | error e =>
            rw [Action.read_aligned_err ha (by rw [hrem]; exact hd)] at hl2
            cases hl2
          | ok p =>
            obtain ⟨a, s1⟩ := p
            obtain ⟨r2, hr2, -⟩ :=
              Action.read_aligned_ok (cfg := cfg) ha (by rw [hrem]; exact hd)
            rw [hr2] at hl2
            have hmem : a ∈ as := loop_acc hl2 a (by simp)
            obtain ⟨r3, hr3, hf, hrem3, hdata3, hb3⟩ := loop_turn (fuel := fuel) h hL hi hd (ht a hmem)
            rw [hr3] at hl
            obtain ⟨bs, rfl, hR, hcon, hdt, k, hbits, hstop⟩ := ih hf hl
            rw [hrem3] at hR hbits
            rw [hdata3] at hR hdt hstop
            refine ⟨a :: bs, by simp, .cons hL hd (ht a hmem) hR, hcon, hdt, k, ?_, hstop⟩
            rw [List.length_cons, Nat.succ_mul]
            omega
    · rw [loop_at_limit h hL] at hl
      cases hl
      exact ⟨[], by simp, .nil _, h.toCon, rfl, 0, by simp, .inl ⟨hL, rfl⟩⟩

end Command

/-! ## Sizes of the headers -/

theorem Form.all_dvd {fs : List Form} (h : ∀ f ∈ fs, ∀ c, f c → 8 ∣ c.length) :
    ∀ c, Form.all fs c → 8 ∣ c.length := by
  induction fs with
  | nil => rintro c rfl; simp
  | cons f fs ih =>
    rintro c ⟨a, b, rfl, ha, hb⟩
    have h1 := h f (by simp) a ha
    have h2 := ih (fun g hg => h g (by simp [hg])) b hb
    rw [List.length_append]; omega

theorem Form.varInt_length {v : VarInt} {c : List Bool} (h : Form.varInt v c) : c.length = 8 := by
  obtain ⟨e, m, -, -, a, b, rfl, ⟨ha, -⟩, x, y, rfl, ⟨hx, -⟩, rfl⟩ := h
  simp; omega

theorem Form.flagged_dvd {α : Type} {b : Bool} {F : α → Form} {o : Option α} {c : List Bool}
    (hF : ∀ a, F a c → 8 ∣ c.length) (h : Form.flagged b F o c) : 8 ∣ c.length := by
  cases b <;> cases o <;> first | exact absurd h.2 id | exact hF _ h | (cases h; simp)

theorem Form.address_dvd {t : AddressType} {a : Address} {c : List Bool} (h : Form.address t a c) :
    8 ∣ c.length := by
  cases t <;> cases a <;> first
    | exact absurd h.2 id
    | (cases h; simp; done)
    | (have := Form.varInt_length h; omega)
    | (have := h.1; omega)

theorem Form.accessClass_length {a : AccessClass} {c : List Bool} (h : Form.accessClass a c) : c.length = 8 := by
  obtain ⟨a, b, rfl, ⟨ha, -⟩, x, y, rfl, ⟨hx, -⟩, rfl⟩ := h
  simp; omega

theorem Form.transHeader_mod8 {h : Trans.Header} {c : List Bool} (hf : Form.transHeader h c) :
    c.length % 8 = 7 := by
  obtain ⟨a, b, rfl, ha, x1, y1, rfl, ⟨h1, -⟩, x2, y2, rfl, ⟨h2, -⟩, hr⟩ := hf
  have h7 : a.length = 7 := by
    obtain ⟨_, _, rfl, rfl, _, _, rfl, rfl, _, _, rfl, rfl, _, _, rfl, rfl, _, _, rfl, rfl, _, _, rfl, rfl,
      _, _, rfl, rfl, rfl⟩ := ha
    rfl
  have h8 : 8 ∣ y2.length := by
    refine Form.all_dvd ?_ _ hr
    intro f hf c hc
    simp only [List.mem_cons, List.not_mem_nil, or_false] at hf
    rcases hf with rfl | rfl | rfl | rfl | rfl
    · exact Form.flagged_dvd (fun _ h => ⟨1, h.1⟩) hc
    · exact Form.flagged_dvd (fun _ h => ⟨1, Form.varInt_length h⟩) hc
    · exact Form.flagged_dvd (fun _ h => ⟨1, Form.varInt_length h⟩) hc
    · exact Form.flagged_dvd (fun _ h => ⟨1, Form.varInt_length h⟩) hc
    · refine Form.flagged_dvd (fun t h => ?_) hc
      obtain ⟨_, _, rfl, ⟨h1, -⟩, _, _, rfl, ⟨h2, -⟩, rfl⟩ := h
      simp; omega
  simp only [List.length_append]; omega

theorem Form.netHeader_mod8 {v : Variant} {h : Net.Header} {c : List Bool} (hf : Form.netHeader v h c) :
    c.length % 8 = if v = .wizzilab then 0 else 1 := by
  obtain ⟨a, b, rfl, ha, hr⟩ := hf
  have h7 : a.length = if v = .wizzilab then 8 else 9 := by
    obtain ⟨_, _, rfl, rfl, _, _, rfl, rfl, _, _, rfl, ⟨h1, -⟩, _, _, rfl, h2, _, _, rfl, ⟨h3, -⟩, rfl⟩ := ha
    have h2 : List.length _ = 1 := h2
    simp only [List.length_append, h1, h2, h3, List.length_singleton, List.length_nil]
    split <;> rfl
  have h8 : 8 ∣ b.length := by
    refine Form.all_dvd ?_ _ hr
    intro f hf c hc
    simp only [List.mem_cons, List.not_mem_nil, or_false] at hf
    rcases hf with rfl | rfl | rfl
    · refine Form.flagged_dvd (fun t h => ?_) hc
      obtain ⟨_, _, rfl, h1, _, _, rfl, rfl, _, _, rfl, ⟨h2, -⟩, _, _, rfl, h3, rfl⟩ := h
      have h1 : List.length _ = 1 := h1
      have h3 : List.length _ = 4 := h3
      simp only [List.length_append, h1, h2, h3, List.length_singleton, List.length_nil]
      decide
    · exact ⟨1, Form.accessClass_length hc⟩
    · exact Form.address_dvd hc
  simp only [List.length_append]
  split at h7 <;> simp_all <;> omega

theorem Form.foregroundHeader_dvd {h : ForegroundHeader} {c : List Bool} (hf : Form.foregroundHeader h c) :
    8 ∣ c.length ∧ 0 < c.length := by
  obtain ⟨a, b, rfl, ⟨k, hk, ha⟩, x, y, rfl, ⟨h1, -⟩, hr⟩ := hf
  have h0 : 8 ∣ a.length ∧ 0 < a.length := by
    obtain ⟨_, _, rfl, ⟨h1, -⟩, _, _, rfl, ⟨h2, -⟩, rfl⟩ := ha
    simp only [List.length_append, h1, h2, List.length_nil]
    omega
  have h8 : 8 ∣ y.length := by
    refine Form.all_dvd ?_ _ hr
    intro f hf c hc
    simp only [List.mem_cons, List.not_mem_nil, or_false] at hf
    rcases hf with rfl | rfl
    · obtain ⟨_, _, rfl, ⟨h1, -⟩, _, _, rfl, ⟨h2, -⟩, rfl⟩ := hc
      simp [h1, h2]
    · exact Form.address_dvd hc
  simp only [List.length_append]
  omega

end Dash7
