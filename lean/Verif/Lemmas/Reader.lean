import Verif.Lemmas.Core
import Verif.Model.Utils

/-!
# The concrete reader agrees with the bit-list semantics
-/

namespace Dash7

/-! ## States -/

/-- Bit position of the reader in its data. -/
def Rd.cur (r : Rd) : Nat := 8 * r.pos - r.left.length

/-- Weak invariant: the cursor is inside the data and at most one byte is kept back. -/
structure Rd.OK (r : Rd) : Prop where
  pos_le : r.pos ≤ r.data.length
  left_le : r.left.length ≤ 8
  left_pos : r.left ≠ [] → 1 ≤ r.pos

/-- What the reader will deliver is what stands at its position. -/
structure Rd.Con (r : Rd) : Prop extends r.OK where
  rem_eq : r.rem = (bytesBits r.data).drop r.cur

theorem Rd.OK.left8 {r : Rd} (h : r.OK) : r.left.length ≤ 8 * r.pos := by
  rcases r with ⟨d, p, l, b⟩
  cases l with
  | nil => simp
  | cons x l =>
    have h1 := h.left_pos (by simp)
    have h2 := h.left_le
    dsimp only at *; omega

theorem Rd.rem_length (r : Rd) :
    r.rem.length = r.left.length + 8 * (r.data.length - r.pos) := by
  simp [Rd.rem]

theorem Rd.OK.rem_cur {r : Rd} (h : r.OK) : r.rem.length + r.cur = 8 * r.data.length := by
  have h1 := h.left8
  have h2 := h.pos_le
  rw [Rd.rem_length, Rd.cur]; omega

theorem Rd.new_con (data : List U8) : (Rd.new data).Con where
  pos_le := by simp [Rd.new]
  left_le := by simp [Rd.new]
  left_pos := by simp [Rd.new]
  rem_eq := by simp [Rd.new, Rd.rem, Rd.cur]

@[simp] theorem Rd.new_rem (data : List U8) : (Rd.new data).rem = bytesBits data := by
  simp [Rd.new, Rd.rem]

@[simp] theorem Rd.new_cur (data : List U8) : (Rd.new data).cur = 0 := by
  simp [Rd.new, Rd.cur]

/-- `r'` is `r` after `n` bits. -/
structure Rd.Step (r r' : Rd) (n : Nat) : Prop where
  data : r'.data = r.data
  ok : r'.OK
  cur : r'.cur = r.cur + n
  rem : r'.rem = r.rem.drop n
  le : n ≤ r.rem.length
  bitsRead : r'.bitsRead = r.bitsRead + n
  left : r'.left.length + n ≤ r.left.length ∨ r'.left.length < 8

theorem Rd.Step.refl {r : Rd} (h : r.OK) : Rd.Step r r 0 :=
  ⟨rfl, h, rfl, by simp, by simp, rfl, .inl (Nat.le_refl _)⟩

theorem Rd.Step.left_lt {r r' : Rd} {n : Nat} (s : Rd.Step r r' n) (h : r.OK) (hn : 0 < n) :
    r'.left.length < 8 := by
  have := h.left_le
  rcases s.left with h | h <;> omega

theorem Rd.Step.con {r r' : Rd} {n : Nat} (s : Rd.Step r r' n) (h : r.Con) : r'.Con where
  toOK := s.ok
  rem_eq := by rw [s.rem, h.rem_eq, s.data, s.cur, List.drop_drop]

theorem bytesBits_take (d : List U8) (k : Nat) : bytesBits (d.take k) = (bytesBits d).take (8 * k) := by
  induction d generalizing k with
  | nil => simp
  | cons b d ih =>
    cases k with
    | zero => simp
    | succ k =>
      have h8 : (natBits 8 b.toNat).length = 8 := natBits_length _ _
      have : bytesBits (b :: d) = natBits 8 b.toNat ++ bytesBits d := rfl
      rw [List.take_succ_cons, this, show 8 * (k + 1) = (natBits 8 b.toNat).length + 8 * k by omega,
        List.take_length_add_append, ← ih]
      rfl

theorem bytesBits_drop (d : List U8) (k : Nat) : bytesBits (d.drop k) = (bytesBits d).drop (8 * k) := by
  induction d generalizing k with
  | nil => simp
  | cons b d ih =>
    cases k with
    | zero => simp
    | succ k =>
      have h8 : (natBits 8 b.toNat).length = 8 := natBits_length _ _
      have : bytesBits (b :: d) = natBits 8 b.toNat ++ bytesBits d := rfl
      rw [List.drop_succ_cons, this, show 8 * (k + 1) = (natBits 8 b.toNat).length + 8 * k by omega,
        List.drop_length_add_append, ← ih]

theorem Rd.readBits_ok {r : Rd} (h : r.OK) {n : Nat} (hn : n ≤ r.rem.length) :
    ∃ r', r.readBits n = .ok (r.rem.take n, r') ∧ Rd.Step r r' n := by
  have hp := h.pos_le
  have hl := h.left_le
  have h8 := h.left8
  unfold Rd.readBits
  split
  · rename_i hle
    refine ⟨⟨r.data, r.pos, r.left.drop n, r.bitsRead + n⟩, ?_, ?_⟩
    · rw [Rd.rem, List.take_append_of_le_length hle]
    · refine ⟨rfl, ⟨hp, by simp; omega, ?_⟩, ?_, ?_, hn, rfl, ?_⟩
      · intro hne
        apply h.left_pos
        rintro h0
        simp [h0] at hne
      · simp [Rd.cur]; omega
      · simp [Rd.rem, List.drop_append_of_le_length hle]
      · simp; omega
  · rename_i hle
    rw [Rd.rem_length] at hn
    have hfit : r.pos + (n - r.left.length + 7) / 8 ≤ r.data.length := by omega
    simp only [hfit, if_true]
    generalize hnb : (n - r.left.length + 7) / 8 = nb at *
    have hsplit : r.rem = (r.left ++ bytesBits ((r.data.drop r.pos).take nb)) ++
        bytesBits (r.data.drop (r.pos + nb)) := by
      rw [Rd.rem, List.append_assoc, ← bytesBits_append, ← List.drop_drop, List.take_append_drop]
    have hlen : (r.left ++ bytesBits ((r.data.drop r.pos).take nb)).length =
        r.left.length + 8 * nb := by
      simp; omega
    have hnle : n ≤ (r.left ++ bytesBits ((r.data.drop r.pos).take nb)).length := by omega
    refine ⟨⟨r.data, r.pos + nb, (r.left ++ bytesBits ((r.data.drop r.pos).take nb)).drop n,
      r.bitsRead + n⟩, ?_, ?_⟩
    · rw [hsplit, List.take_append_of_le_length hnle]
    · refine ⟨rfl, ⟨hfit, ?_, ?_⟩, ?_, ?_, by rw [Rd.rem_length]; exact hn, rfl, ?_⟩
      · simp only [List.length_drop, hlen]; omega
      · intro _; dsimp only; omega
      · simp only [Rd.cur, List.length_drop, hlen]; omega
      · rw [hsplit, List.drop_append_of_le_length hnle]; rfl
      · right; simp only [List.length_drop, hlen]; omega

theorem Rd.readBits_err {r : Rd} (h : r.OK) {n : Nat} (hn : ¬ n ≤ r.rem.length) :
    r.readBits n = .error .incomplete := by
  have hp := h.pos_le
  unfold Rd.readBits
  rw [Rd.rem_length] at hn
  rw [if_neg (by omega)]
  simp only
  rw [if_neg (by omega)]

/-! ## `P.run` -/

theorem P.run_bits {α : Type} (n : Nat) (k : List Bool → P α) (r : Rd) :
    (P.bits n k).run r = (match r.readBits n with
      | .ok (l, r') => (k l).run r'
      | .error e => .error e) := by
  simp only [P.run]
  rfl

theorem P.run_ok {α : Type} (p : P α) {r : Rd} (h : r.OK) {a : α} {s' : List Bool}
    (he : p.eval r.rem = .ok (a, s')) :
    ∃ r' n, p.run r = .ok (a, r') ∧ Rd.Step r r' n ∧ r'.rem = s' ∧ n + s'.length = r.rem.length := by
  induction p generalizing r with
  | pure b =>
    simp only [P.eval, Except.ok.injEq, Prod.mk.injEq] at he
    obtain ⟨rfl, rfl⟩ := he
    exact ⟨r, 0, rfl, .refl h, rfl, by simp⟩
  | fail f => simp [P.eval] at he
  | bits n k ih =>
    rw [P.eval_bits] at he
    split at he
    · rename_i hn
      obtain ⟨r1, h1, st1⟩ := Rd.readBits_ok h hn
      rw [← st1.rem] at he
      obtain ⟨r2, m, h2, st2, hr, hm⟩ := ih _ st1.ok he
      refine ⟨r2, n + m, ?_, ⟨st2.data.trans st1.data, st2.ok, ?_, ?_, ?_, ?_, ?_⟩, hr, ?_⟩
      · rw [P.run_bits, h1]; exact h2
      · rw [st2.cur, st1.cur]; omega
      · rw [st2.rem, st1.rem, List.drop_drop]
      · have := st2.le; rw [st1.rem, List.length_drop] at this; omega
      · rw [st2.bitsRead, st1.bitsRead]; omega
      · rcases st1.left with e1 | e1 <;> rcases st2.left with e2 | e2 <;> omega
      · rw [st1.rem, List.length_drop] at hm; omega
    · cases he

theorem P.run_err {α : Type} (p : P α) {r : Rd} (h : r.OK) {e : Err}
    (he : p.eval r.rem = .error e) : p.run r = .error e := by
  induction p generalizing r with
  | pure b => simp [P.eval] at he
  | fail f =>
    simp only [P.eval, Except.error.injEq] at he
    subst he; rfl
  | bits n k ih =>
    rw [P.eval_bits] at he
    split at he
    · rename_i hn
      obtain ⟨r1, h1, st1⟩ := Rd.readBits_ok h hn
      rw [← st1.rem] at he
      rw [P.run_bits, h1]
      exact ih _ st1.ok he
    · rename_i hn
      cases he
      rw [P.run_bits, Rd.readBits_err h hn]

/-- Converse direction: whatever the concrete reader returns, the bit-list semantics does. -/
theorem P.run_ok' {α : Type} (p : P α) {r r' : Rd} (h : r.OK) {a : α}
    (hr : p.run r = .ok (a, r')) :
    p.eval r.rem = .ok (a, r'.rem) ∧ ∃ n, Rd.Step r r' n ∧ n + r'.rem.length = r.rem.length := by
  match he : p.eval r.rem with
  | .ok (b, s') =>
    obtain ⟨r2, n, h2, st, hrem, hn⟩ := P.run_ok p h he
    rw [hr] at h2
    cases h2
    subst hrem
    exact ⟨rfl, n, st, hn⟩
  | .error e =>
    rw [P.run_err p h he] at hr
    cases hr

theorem P.run_err' {α : Type} (p : P α) {r : Rd} (h : r.OK) {e : Err}
    (hr : p.run r = .error e) : p.eval r.rem = .error e := by
  match he : p.eval r.rem with
  | .ok (b, s') =>
    obtain ⟨r2, n, h2, _⟩ := P.run_ok p h he
    rw [hr] at h2
    cases h2
  | .error e' =>
    rw [P.run_err p h he] at hr
    cases hr
    rfl

/-! ## Appending data -/

/-- The same reader over longer data. -/
def Rd.ext (r : Rd) (t : List U8) : Rd := { r with data := r.data ++ t }

theorem Rd.readBits_ext {r r' : Rd} {n : Nat} {l : List Bool} (t : List U8)
    (h : r.readBits n = .ok (l, r')) : (r.ext t).readBits n = .ok (l, r'.ext t) := by
  unfold Rd.readBits at h ⊢
  unfold Rd.ext at *
  split at h
  · rename_i hle
    cases h
    simp [hle]
  · rename_i hle
    dsimp only at h ⊢
    split at h
    · rename_i hfit
      cases h
      have h1 : r.pos + (n - r.left.length + 7) / 8 ≤ (r.data ++ t).length := by
        rw [List.length_append]; omega
      have h2 : ((r.data ++ t).drop r.pos).take ((n - r.left.length + 7) / 8) =
          (r.data.drop r.pos).take ((n - r.left.length + 7) / 8) := by
        rw [List.drop_append_of_le_length (by omega), List.take_append_of_le_length (by simp; omega)]
      rw [if_neg hle, if_pos h1, h2]
    · cases h

theorem Rd.readBits_fault {r : Rd} {n : Nat} {f : Fault} : r.readBits n ≠ .error (.fault f) := by
  unfold Rd.readBits
  split
  · simp
  · dsimp only; split <;> simp

/-- A computation on the reader which only looks at the data it needs. -/
structure R.Ext {α : Type} (m : R α) : Prop where
  ok : ∀ {r r' : Rd} {a : α} (t : List U8), m r = .ok (a, r') → m (r.ext t) = .ok (a, r'.ext t)
  fault : ∀ {r : Rd} {f : Fault} (t : List U8), m r = .error (.fault f) →
    m (r.ext t) = .error (.fault f)

theorem P.run_ext {α : Type} (p : P α) : R.Ext p.run := by
  induction p with
  | pure b =>
    refine ⟨?_, ?_⟩
    · intro r r' a t h; cases h; rfl
    · intro r f t h; cases h
  | fail e =>
    refine ⟨?_, ?_⟩
    · intro r r' a t h; cases h
    · intro r f t h; cases h; rfl
  | bits n k ih =>
    refine ⟨?_, ?_⟩
    · intro r r' a t h
      rw [P.run_bits] at h ⊢
      match hr : r.readBits n with
      | .ok (l, r1) =>
        rw [hr] at h
        rw [Rd.readBits_ext t hr]
        exact (ih l).ok t h
      | .error e => rw [hr] at h; cases h
    · intro r f t h
      rw [P.run_bits] at h ⊢
      match hr : r.readBits n with
      | .ok (l, r1) =>
        rw [hr] at h
        rw [Rd.readBits_ext t hr]
        exact (ih l).fault t h
      | .error e =>
        rw [hr] at h
        cases h
        exact absurd hr Rd.readBits_fault

theorem R.Ext.bind {α β : Type} {m : R α} {f : α → R β} (h1 : m.Ext) (h2 : ∀ a, (f a).Ext) :
    (R.bind m f).Ext := by
  refine ⟨?_, ?_⟩
  · intro r r' a t h
    unfold R.bind at h ⊢
    match hm : m r with
    | .ok (x, r1) =>
      rw [hm] at h
      rw [h1.ok t hm]
      exact (h2 x).ok t h
    | .error e => rw [hm] at h; cases h
  · intro r f t h
    unfold R.bind at h ⊢
    match hm : m r with
    | .ok (x, r1) =>
      rw [hm] at h
      rw [h1.ok t hm]
      exact (h2 x).fault t h
    | .error e =>
      rw [hm] at h
      cases h
      rw [h1.fault t hm]

theorem R.seekBack_ext (cfg : Cfg) : (R.seekBack cfg).Ext := by
  refine ⟨?_, ?_⟩
  · intro r r' a t h
    cases h; rfl
  · intro r f t h; cases h

theorem startAt_ext {α : Type} {m : R α} (off : Nat) (h : m.Ext) : (startAt off m).Ext := by
  unfold startAt
  split
  · exact (P.run_ext _).bind fun _ => h
  · exact h

@[simp] theorem R.bind_eq {α β : Type} (m : R α) (f : α → R β) : (m >>= f) = R.bind m f := rfl

/-! ## `Reader::end` -/

theorem R.atEnd_true {cfg : Cfg} {r r' : Rd} (he : R.atEnd cfg r = .ok (true, r')) :
    r' = r ∧ r.rem = [] := by
  unfold R.atEnd at he
  split at he
  · cases he
  · rename_i hl
    have hl' : r.left = [] := by simpa using hl
    split at he
    · rename_i hd
      cases he
      exact ⟨rfl, by simp [Rd.rem, hl', hd]⟩
    · cases he

theorem R.atEnd_false {cfg : Cfg} {r r' : Rd} (h : r.OK) (he : R.atEnd cfg r = .ok (false, r')) :
    r'.OK ∧ r'.data = r.data ∧ r'.rem = r.rem ∧ r'.cur = r.cur ∧ r.rem ≠ [] ∧
      r.bitsRead ≤ r'.bitsRead ∧ r'.bitsRead ≤ r.bitsRead + 8 ∧
      (r.left = [] → cfg.endCounts = true → r'.bitsRead = r.bitsRead + 8) ∧
      (cfg.endCounts = false → r'.bitsRead = r.bitsRead) := by
  unfold R.atEnd at he
  split at he
  · rename_i hl
    cases he
    exact ⟨h, rfl, rfl, rfl, by simp [Rd.rem, hl], by omega, by omega,
      fun h0 => absurd h0 hl, fun _ => rfl⟩
  · rename_i hl
    have hl' : r.left = [] := by simpa using hl
    split at he
    · cases he
    · rename_i b bs hd
      cases he
      have hlt : r.pos < r.data.length := by
        have := congrArg List.length hd
        simp at this; omega
      have hd1 : r.data.drop (r.pos + 1) = bs := by
        rw [← List.drop_drop, hd]; rfl
      refine ⟨⟨hlt, by simp, by simp⟩, rfl, ?_, ?_, ?_, ?_, ?_, ?_, ?_⟩
      · simp only [Rd.rem, hd1, hl', hd]; rfl
      · simp only [Rd.cur, hl', natBits_length, List.length_nil]; omega
      · simp only [Rd.rem, hl', hd, List.nil_append]
        intro h0
        have := congrArg List.length h0
        simp at this
      · dsimp only; split <;> omega
      · dsimp only; split <;> omega
      · intro _ hc; simp [hc]
      · intro hc; simp [hc]

theorem R.atEnd_total (cfg : Cfg) (r : Rd) : ∃ b r', R.atEnd cfg r = .ok (b, r') := by
  unfold R.atEnd
  split
  · exact ⟨_, _, rfl⟩
  · split
    · exact ⟨_, _, rfl⟩
    · exact ⟨_, _, rfl⟩

theorem R.atEnd_rem {cfg : Cfg} {r : Rd} (h : r.OK) :
    ∃ r', R.atEnd cfg r = .ok (r.rem.isEmpty, r') := by
  obtain ⟨b, r', hb⟩ := R.atEnd_total cfg r
  refine ⟨r', ?_⟩
  cases b with
  | true => rw [hb, (R.atEnd_true hb).2]; rfl
  | false =>
    have := (R.atEnd_false h hb).2.2.2.2.1
    cases hr : r.rem with
    | nil => exact absurd hr this
    | cons x l => rw [hb]; rfl

end Dash7
