import Verif.Spec.Spoil
import Verif.Lemmas.Offset

/-!
# Errors in the reading loop
-/

namespace Dash7
open Spec

/-- Whether and how reading an action fails depends on the bits to be read only. -/
theorem Action.read_error {cfg : Cfg} {r : Rd} (h : r.Ready) (e : Err) : Action.read cfg r = .error e ↔
    r.rem.length < 8 ∧ e = .incomplete ∨
      8 ≤ r.rem.length ∧ (Action.dispatch cfg (opAt 2 r.rem)).eval (steppedBack cfg r.rem) = .error e := by
  by_cases h8 : 8 ≤ r.rem.length
  · obtain ⟨r2, he, hp2, -, -, hrem⟩ := Action.read_any (cfg := cfg) h h8
    rw [he, ← hrem]
    constructor
    · exact fun hr => .inr ⟨h8, P.run_err' _ hp2.toOK hr⟩
    · rintro (⟨h, -⟩ | ⟨-, h⟩)
      · omega
      · exact P.run_err _ hp2.toOK h
  · rw [Action.read_short h.toOK (by omega)]
    constructor
    · intro hr; cases hr; exact .inl ⟨by omega, rfl⟩
    · rintro (⟨-, rfl⟩ | ⟨h, -⟩)
      · rfl
      · omega

theorem Rd.Part.ready {r : Rd} (h : r.Part) : r.Ready := ⟨h.toOK, .inl h.lt⟩

theorem Action.fromReader_error {cfg : Cfg} {data : List U8} {off : Nat} (h : off ≤ 8 * data.length) (e : Err) :
    Action.fromReader cfg data off = .error e ↔ ∃ r : Rd, r.Part ∧ r.rem = (Form.ofBytes data).drop off ∧
      Action.read cfg r = .error e := by
  obtain ⟨r0, hp, hd, hrem, -, hm⟩ := (startAt_part data off).1 h
  rw [Form.ofBytes_eq]
  unfold Action.fromReader Dash7.fromReader
  rw [hm]
  constructor
  · intro he
    refine ⟨r0, hp, hrem, ?_⟩
    cases hr : Action.read cfg r0 with
    | error e' => rw [hr] at he; cases he; rfl
    | ok x => rw [hr] at he; cases he
  · rintro ⟨r, hr, hrr, he⟩
    have : Action.read cfg r0 = .error e := by
      rw [Action.read_error hp.ready, hrem, ← hrr, ← Action.read_error hr.ready]; exact he
    rw [this]

/-- Any bits are what is left of some bytes. -/
theorem some_input (s : List Bool) : ∃ data off, off ≤ 8 * data.length ∧ (Form.ofBytes data).drop off = s := by
  refine ⟨packBits (List.replicate ((8 - s.length % 8) % 8) false ++ s), (8 - s.length % 8) % 8, ?_, ?_⟩
  · rw [packBits_length]; simp; omega
  · rw [Form.ofBytes_eq, bytesBits_packBits _ (by simp; omega)]
    simp

theorem refuses_iff {cfg : Cfg} {r : Rd} (h : r.Ready) (e : Err) :
    refuses cfg r.rem e ↔ Action.read cfg r = .error e := by
  constructor
  · rintro ⟨data, off, hle, hs, he⟩
    obtain ⟨r', hp, hr', he⟩ := (Action.fromReader_error hle e).1 he
    rw [Action.read_error h, ← hs, ← hr', ← Action.read_error hp.ready]
    exact he
  · intro he
    obtain ⟨data, off, hle, hs⟩ := some_input r.rem
    refine ⟨data, off, hle, hs, (Action.fromReader_error hle e).2 ?_⟩
    obtain ⟨r0, hp, -, hrem, -, -⟩ := (startAt_part data off).1 hle
    refine ⟨r0, hp, by rw [Form.ofBytes_eq, hrem], ?_⟩
    rw [Action.read_error hp.ready, hrem, ← Form.ofBytes_eq, hs, ← Action.read_error h]
    exact he

namespace Command

theorem loop_error {cfg : Cfg} {L : U32} {fuel : Nat} {acc as : List Action} {r : Rd} {left : List Bool} {e : Err}
    (h : r.Part) (hi : endsIndirect acc = false) (hf : as.length < fuel)
    (hc : continuing cfg L.toNat r.data.length as r.rem left) (he : refuses cfg left e) :
    loop cfg L fuel acc r = .error e := by
  induction as generalizing fuel acc r with
  | nil =>
    obtain ⟨fuel, rfl⟩ : ∃ k, fuel = k + 1 := ⟨fuel - 1, by simp at hf; omega⟩
    obtain ⟨rfl, hlim, hne⟩ := hc
    rw [loop_succ]
    obtain ⟨r0, h0, hp0, hd0, hm0, -⟩ := validLength_part (cfg := cfg) (L := L) h
    rw [h0]
    dsimp only
    rw [if_neg (by simp [hlim])]
    obtain ⟨r1, h1, hp1, -, hm1, -⟩ := R.atEnd_part (cfg := cfg) hp0
    rw [h1]
    dsimp only
    rw [if_neg (by rw [hm0]; simpa using hne), if_neg (by simp [hi])]
    rw [← hm0, ← hm1] at he
    rw [(refuses_iff hp1 e).1 he]
  | cons a as ih =>
    obtain ⟨fuel, rfl⟩ : ∃ k, fuel = k + 1 := ⟨fuel - 1, by simp at hf; omega⟩
    obtain ⟨hlim, ha, more, n, ⟨h8, hop, wire, hs, hF, -⟩, hc⟩ := hc
    rw [loop_succ]
    obtain ⟨r0, h0, hp0, hd0, hm0, -⟩ := validLength_part (cfg := cfg) (L := L) h
    rw [h0]
    dsimp only
    rw [if_neg (by simp [hlim])]
    obtain ⟨r1, h1, hp1, hd1, hm1, -⟩ := R.atEnd_part (cfg := cfg) hp0
    have hne : r0.rem ≠ [] := by
      rw [hm0]; intro h0; rw [h0] at h8; simp at h8
    rw [h1]
    dsimp only
    rw [if_neg (by simpa using hne), if_neg (by simp [hi])]
    obtain ⟨r2, h2, hp2, hd2, hm2, -, -⟩ := Action.read_any_form (cfg := cfg) (r := r1) hp1 (a := a)
      (by rw [hm1, hm0]; exact h8) (by rw [hm1, hm0]; exact hop) (by rw [hm1, hm0]; exact hs) hF
    rw [h2]
    exact ih (fuel := fuel) hp2 (by rw [endsIndirect_concat]; exact ha) (by simpa using hf)
      (by rw [hd2, hd1, hd0, hm2]; exact hc)

theorem loop_after_indirect {cfg : Cfg} {L : U32} {fuel : Nat} {acc : List Action} {r : Rd} {e : Err} (h : r.Part)
    (hi : endsIndirect acc = true) : loop cfg L (fuel + 1) acc r ≠ .error e := by
  rw [loop_succ]
  obtain ⟨r0, h0, hp0, -⟩ := validLength_part (cfg := cfg) (L := L) h
  rw [h0]
  dsimp only
  split
  · intro h; cases h
  · obtain ⟨r1, h1, -⟩ := R.atEnd_part (cfg := cfg) hp0
    rw [h1]
    dsimp only
    split
    · intro h; cases h
    · intro h; cases h

theorem loop_error_conv {cfg : Cfg} {L : U32} {fuel : Nat} {acc : List Action} {r : Rd} {e : Err}
    (h : r.Part) (hf : r.rem.length < 8 * fuel) (hr : loop cfg L fuel acc r = .error e) :
    ∃ as left, continuing cfg L.toNat r.data.length as r.rem left ∧ refuses cfg left e := by
  induction fuel generalizing acc r with
  | zero => omega
  | succ fuel ih =>
    rw [loop_succ] at hr
    obtain ⟨r0, h0, hp0, hd0, hm0, hb0⟩ := validLength_part (cfg := cfg) (L := L) h
    rw [h0] at hr
    dsimp only at hr
    by_cases hlim : limitReached L.toNat (bytePosition r.data.length (asked cfg L.toNat r.rem))
    · rw [if_pos (by simp [hlim])] at hr
      cases hr
    · rw [if_neg (by simp [hlim])] at hr
      obtain ⟨r1, h1, hp1, hd1, hm1, hb1⟩ := R.atEnd_part (cfg := cfg) hp0
      rw [h1] at hr
      dsimp only at hr
      by_cases he : r0.rem = []
      · rw [if_pos (by simp [he])] at hr
        cases hr
      · rw [if_neg (by simpa using he)] at hr
        by_cases hi : endsIndirect acc = true
        · rw [if_pos hi] at hr
          cases hr
        · rw [if_neg hi] at hr
          split at hr
          · rename_i e' h2
            cases hr
            rw [← refuses_iff hp1, hm1, hm0] at h2
            exact ⟨[], _, ⟨rfl, hlim, hm0 ▸ he⟩, h2⟩
          · rename_i a r2 h2
            obtain ⟨hp2, hd2, h8, hop, wire, hs, hF, hw, hb2⟩ := Action.read_any_ok hp1 h2
            have hl := congrArg List.length hs
            have hl' := steppedBack_length cfg h8
            have ha : (asked cfg L.toNat r.rem).length ≤ r.rem.length := by
              unfold asked wholeBytes; split <;> simp
            rw [List.length_append] at hl
            rw [hm1, hm0] at hl hl' h8 hop hs
            obtain ⟨as, left, hc, hx⟩ := ih hp2 (by omega) hr
            rw [hd2, hd1, hd0] at hc
            cases hai : a.isIndirectForward with
            | false => exact ⟨a :: as, left, ⟨hlim, hai, _, _, ⟨h8, hop, wire, hs, hF, rfl⟩, hc⟩, hx⟩
            | true =>
              obtain ⟨fuel, rfl⟩ : ∃ k, fuel = k + 1 := ⟨fuel - 1, by omega⟩
              exact absurd hr (loop_after_indirect hp2 (by rw [endsIndirect_concat]; exact hai))

theorem continuing_length {cfg : Cfg} {limit size : Nat} {as : List Action} {s left : List Bool}
    (h : continuing cfg limit size as s left) : 8 * as.length ≤ s.length := by
  induction as generalizing s with
  | nil => simp
  | cons a as ih =>
    obtain ⟨-, -, more, n, ⟨h8, -, wire, hs, hF, -⟩, hc⟩ := h
    have h1 := ih hc
    have h2 := congrArg List.length hs
    have h3 := steppedBack_length cfg h8
    have h4 : (asked cfg limit s).length ≤ s.length := by
      unfold asked wholeBytes; split <;> simp
    have h5 : 8 ≤ wire.length :=
      (Action.dispatch_post cfg a.opcode wire [] a
        ((Action.dispatch_fits cfg _ _ _ _).2 ⟨(Action.opcode_toNat a).symm, hF⟩)).2.pos
    rw [List.length_append] at h2
    simp only [List.length_cons]; omega

/-- Reading a command fails exactly if reading one of its actions does, and with the same error. -/
theorem read_refused {cfg : Cfg} {L : U32} {r : Rd} (h : r.Part) (e : Err) : Command.read cfg L r = .error e ↔
    ∃ as left, continuing cfg L.toNat r.data.length as r.rem left ∧ refuses cfg left e := by
  have hl : r.rem.length ≤ 8 * r.data.length + 7 := by
    rw [Rd.rem_length]
    have := h.lt
    omega
  have key : Command.read cfg L r = .error e ↔ loop cfg L (r.data.length + 1) [] r = .error e := by
    unfold Command.read R.bind
    cases loop cfg L (r.data.length + 1) [] r with
    | error e' => constructor <;> (intro h; cases h; rfl)
    | ok x => constructor <;> (intro h; cases h)
  rw [key]
  constructor
  · exact loop_error_conv h (by omega)
  · rintro ⟨as, left, hc, he⟩
    have := continuing_length hc
    exact loop_error h rfl (by omega) hc he

end Command
end Dash7
