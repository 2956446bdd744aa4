import Verif.Lemmas.Entry
import Verif.Lemmas.Align
import Verif.Spec.Wire

/-!
# `from_bytes`, `try_from` and `to_bytes` as derived by deku, for any type
-/

namespace Dash7

variable {α : Type}

theorem P.run_new {p : P α} {data : List U8} {a : α} {s' : List Bool}
    (h : p.eval (bytesBits data) = .ok (a, s')) :
    ∃ r, p.run (Rd.new data) = .ok (a, r) ∧ r.bitsRead + s'.length = 8 * data.length ∧ r.rem = s' := by
  obtain ⟨r', n, hr, st, hrem, hn⟩ := P.run_ok p (Rd.new_con data).toOK (by rw [Rd.new_rem]; exact h)
  refine ⟨r', hr, ?_, hrem⟩
  rw [st.bitsRead, show (Rd.new data).bitsRead = 0 from rfl]
  rw [Rd.new_rem, bytesBits_length] at hn
  omega

theorem derived_ok {p : P α} {data : List U8} {a : α} {s' : List Bool}
    (h : p.eval (bytesBits data) = .ok (a, s')) (h8 : 8 ∣ s'.length) :
    ∃ x q, data = x ++ q ∧ s' = bytesBits q ∧
      derivedFromBytes p.run (data, 0) = .ok ((q, 0), a) ∧
      derivedTryFrom p.run data = if q = [] then .ok a else .error (.fault .parse) := by
  obtain ⟨c, hc, -⟩ := P.eval_ok p h
  have hlen := congrArg List.length hc
  rw [bytesBits_length, List.length_append] at hlen
  obtain ⟨x, q, rfl, rfl, rfl, -⟩ := bytesBits_suffix hc (by omega)
  obtain ⟨r, hr, hb, -⟩ := P.run_new h
  rw [bytesBits_length, List.length_append] at hb
  have hb8 : r.bitsRead = 8 * x.length := by omega
  refine ⟨x, q, rfl, rfl, ?_, ?_⟩
  · unfold derivedFromBytes
    dsimp only
    rw [startAt_zero, hr]
    dsimp only
    rw [sliceFrom, hb8, if_pos (by rw [List.length_append]; omega)]
    simp
  · unfold derivedTryFrom
    rw [hr]
    dsimp only
    rw [hb8, List.length_append, Nat.mul_div_cancel_left _ (by omega)]
    by_cases hq : q = []
    · subst hq; simp
    · have := List.length_pos_iff.2 hq
      rw [if_pos (by omega), if_neg hq]

theorem derived_err {p : P α} {data : List U8} {e : Err} (h : p.eval (bytesBits data) = .error e) :
    derivedFromBytes p.run (data, 0) = .error e ∧ derivedTryFrom p.run data = .error e := by
  have hr := P.run_err p (Rd.new_con data).toOK (by rw [Rd.new_rem]; exact h)
  constructor
  · unfold derivedFromBytes
    dsimp only
    rw [startAt_zero, hr]
  · unfold derivedTryFrom
    rw [hr]

theorem derivedTryFrom_inv {p : P α} {data : List U8} {a : α} (h : derivedTryFrom p.run data = .ok a) :
    ∃ s', p.eval (bytesBits data) = .ok (a, s') ∧ s'.length < 8 := by
  match he : p.eval (bytesBits data) with
  | .error e => rw [(derived_err he).2] at h; cases h
  | .ok (b, s') =>
    obtain ⟨r, hr, hb, -⟩ := P.run_new he
    unfold derivedTryFrom at h
    rw [hr] at h
    dsimp only at h
    split at h
    · cases h
    · cases h
      exact ⟨s', rfl, by omega⟩

theorem derivedFromBytes_inv {p : P α} {data : List U8} {rest : Rest} {a : α}
    (h : derivedFromBytes p.run (data, 0) = .ok (rest, a)) :
    ∃ s', p.eval (bytesBits data) = .ok (a, s') ∧
      8 * rest.1.length = s'.length + rest.2 ∧ rest.2 < 8 := by
  match he : p.eval (bytesBits data) with
  | .error e => rw [(derived_err he).1] at h; cases h
  | .ok (b, s') =>
    obtain ⟨r, hr, hb, -⟩ := P.run_new he
    unfold derivedFromBytes at h
    dsimp only at h
    rw [startAt_zero, hr] at h
    dsimp only at h
    rw [sliceFrom, if_pos (by omega)] at h
    cases h
    refine ⟨s', rfl, ?_, by dsimp only; omega⟩
    dsimp only
    rw [List.length_drop]
    omega

/-- Round trip on bytes. -/
theorem RT.derived {p : P α} {w : W} {a : α} (h : RT p w a) (h8 : Mod8 w 0) :
    ∃ bytes, w.toBytes = .ok bytes ∧ derivedTryFrom p.run bytes = .ok a ∧
      ∀ t, derivedFromBytes p.run (bytes ++ t, 0) = .ok ((t, 0), a) := by
  obtain ⟨bs, hw, hd⟩ := h
  have hm := h8 bs hw
  obtain ⟨bytes, hb, rfl⟩ := W.toBytes_ok hw (by omega)
  have key : ∀ t, ∃ x q, bytes ++ t = x ++ q ∧ bytesBits t = bytesBits q ∧
      derivedFromBytes p.run (bytes ++ t, 0) = .ok ((q, 0), a) ∧
      derivedTryFrom p.run (bytes ++ t) = if q = [] then .ok a else .error (.fault .parse) :=
    fun t => derived_ok (by rw [bytesBits_append]; exact hd _) (by rw [bytesBits_length]; omega)
  refine ⟨bytes, hb, ?_, fun t => ?_⟩
  · obtain ⟨x, q, -, hq, -, h2⟩ := key []
    have := bytesBits_inj hq
    subst this
    rw [List.append_nil] at h2
    simpa using h2
  · obtain ⟨x, q, -, hq, h1, -⟩ := key t
    rw [h1, bytesBits_inj hq]

/-! ## Numbers on bytes -/

theorem Spec.bigEndian_length (n v : Nat) : (Spec.bigEndian n v).length = n := by
  induction n with
  | zero => rfl
  | succ n ih => simp [Spec.bigEndian, ih]

theorem natBits_eq_mod (n v : Nat) : natBits n v = natBits n (v % 2 ^ n) :=
  (natBits_mod n n v (Nat.le_refl _)).symm

theorem bytesBits_bigEndian (n v : Nat) : bytesBits (Spec.bigEndian n v) = natBits (8 * n) v := by
  induction n with
  | zero => rfl
  | succ n ih =>
    rw [Spec.bigEndian, bytesBits, ih, show 8 * (n + 1) = 8 + 8 * n by omega, natBits_append,
      BitVec.toNat_ofNat, natBits_mod _ _ _ (Nat.le_refl 8), Nat.pow_mul]

theorem packBits_natBits (n v : Nat) : packBits (natBits (8 * n) v) = Spec.bigEndian n v := by
  rw [← bytesBits_bigEndian, packBits_bytesBits]

theorem bitsNat_bytesBits (bs : List U8) : bitsNat (bytesBits bs) = Spec.bigEndianValue bs := by
  have aux : ∀ (bs : List U8) (acc : Nat),
      bs.foldl (fun acc b => 256 * acc + b.toNat) acc = acc * 2 ^ (8 * bs.length) + bitsNat (bytesBits bs) := by
    intro bs
    induction bs with
    | nil => intro acc; simp [bitsNat]
    | cons b bs ih =>
      intro acc
      rw [List.foldl_cons, ih, bytesBits, bitsNat_append, bytesBits_length,
        bitsNat_natBits_of_lt b.isLt, List.length_cons, show 8 * (bs.length + 1) = 8 * bs.length + 8 by omega,
        Nat.pow_add]
      rw [Nat.add_mul, Nat.mul_comm 256 acc, Nat.mul_assoc, Nat.mul_comm 256, Nat.add_assoc]
  have := aux bs 0
  rw [Nat.zero_mul, Nat.zero_add] at this
  exact this.symm

end Dash7
