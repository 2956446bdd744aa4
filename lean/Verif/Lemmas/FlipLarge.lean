import Verif.Lemmas.Flip3

/-!
# Flipping one bit of an action that carries a file of 64 bytes or more
-/

namespace Dash7

open Ignored (heed skip)

theorem part_modify {l : List Bool} {i j n : Nat} (h : i < j ∨ j + n ≤ i) :
    ((l.modify i not).drop j).take n = (l.drop j).take n := by
  apply List.ext_getElem?
  intro m
  simp only [List.getElem?_take, List.getElem?_drop, List.getElem?_modify]
  split
  · have : ¬ i = j + m := by omega
    simp [this]
  · rfl

theorem drop_modify {l : List Bool} {i j : Nat} (h : i < j) : (l.modify i not).drop j = l.drop j := by
  apply List.ext_getElem?
  intro m
  simp only [List.getElem?_drop, List.getElem?_modify]
  have : ¬ i = j + m := by omega
  simp [this]

theorem part_modify_ne {l : List Bool} {i j n : Nat} (h : j ≤ i) (h' : i < j + n) (hl : i < l.length) :
    ((l.modify i not).drop j).take n ≠ (l.drop j).take n := by
  intro e
  have := congrArg (fun l => l[i - j]?) e
  simp only [List.getElem?_take, List.getElem?_drop, List.getElem?_modify] at this
  rw [if_pos (by omega), if_pos (by omega), show j + (i - j) = i from by omega,
    List.getElem?_eq_getElem hl] at this
  simp at this

theorem part_eq {y a b r : List Bool} {j n : Nat} (h : y = a ++ (b ++ r)) (ha : a.length = j) (hb : b.length = n) :
    (y.drop j).take n = b := by
  subst h ha hb
  rw [List.drop_left, List.take_left]

namespace Form

/-- Where the parts of a write or return of a file are in the bits. -/
structure FileParts (big : Bool) (code : Nat) (o : Op.FileData) (y : List Bool) (k k' : Nat) (c junk : List Bool) : Prop where
  hk : k < 4
  hk' : k' < 4
  long : 32 + 8 * k + 8 * k' ≤ y.length
  start : all [header o.header, opcode o.opcode code, field 8 o.offset.fileId.toNat] ((y.drop 0).take 16)
  sel : field 2 k ((y.drop 16).take 2)
  offset : field (6 + 8 * k) o.offset.offset.val.toNat ((y.drop 18).take (6 + 8 * k))
  sel' : field 2 k' ((y.drop (24 + 8 * k)).take 2)
  content : file big o.offset.fileId.toNat 0 o.data c
  pre : y.drop (32 + 8 * k + 8 * k') = c ++ junk

theorem parts_of {big : Bool} {code : Nat} {o : Op.FileData}
    (hn : ∀ n c, file big o.offset.fileId.toNat n o.data c → file big o.offset.fileId.toNat 0 o.data c)
    {y w junk : List Bool} (hy : y = w ++ junk) (h : fileData big code o w) :
    ∃ k k' c, FileParts big code o y k k' c junk := by
  obtain ⟨h1, w, rfl, ha, h2, w, rfl, hb, f, w, rfl,
    ⟨h3, l, rfl, hc, l, e, rfl, ⟨k, hk, s, v, rfl, hs, v, e', rfl, hv, rfl⟩, rfl⟩,
    d, e, rfl, ⟨n, l', c, rfl, ⟨k', hk', s', v', rfl, hs', v', e', rfl, hv', rfl⟩, c, e'', rfl, hf, rfl⟩, rfl⟩ := h
  have l1 := (Rigid.header o.header).len _ ha
  have l2 := (Rigid.opcode o.opcode code).len _ hb
  have l3 := hc.1
  have l4 := hs.1
  have l5 := hv.1
  have l6 := hs'.1
  have l7 := hv'.1
  refine ⟨k, k', c, hk, hk', ?_, ?_, ?_, ?_, ?_, hn n c hf, ?_⟩
  · rw [hy]; simp only [List.length_append, List.length_nil]; omega
  · rw [part_eq (j := 0) (a := []) (b := h1 ++ (h2 ++ h3)) (by rw [hy]; simp only [List.append_assoc, List.append_nil, List.nil_append]; rfl) rfl (by simp only [List.length_append]; omega)]
    exact ⟨h1, _, rfl, ha, h2, _, rfl, hb, h3, [], by simp, hc, rfl⟩
  · rw [part_eq (a := h1 ++ (h2 ++ h3)) (b := s) (by rw [hy]; simp only [List.append_assoc, List.append_nil]; rfl) (by simp only [List.length_append]; omega) l4]
    exact hs
  · rw [part_eq (a := h1 ++ (h2 ++ (h3 ++ s))) (b := v) (by rw [hy]; simp only [List.append_assoc, List.append_nil]; rfl) (by simp only [List.length_append]; omega) l5]
    exact hv
  · rw [part_eq (a := h1 ++ (h2 ++ (h3 ++ (s ++ v)))) (b := s') (by rw [hy]; simp only [List.append_assoc, List.append_nil]; rfl)
      (by simp only [List.length_append]; omega) l6]
    exact hs'
  · have : y = (h1 ++ (h2 ++ (h3 ++ (s ++ (v ++ (s' ++ v')))))) ++ (c ++ junk) := by rw [hy]; simp
    rw [this]
    exact List.drop_left' (by simp only [List.length_append]; omega)

theorem of_parts {big : Bool} {code : Nat} {o : Op.FileData}
    (hn : ∀ n c, file big o.offset.fileId.toNat 0 o.data c → file big o.offset.fileId.toNat n o.data c)
    {y : List Bool} {k k' : Nat} {c junk : List Bool} (h : FileParts big code o y k k' c junk) :
    ∃ w, y = w ++ junk ∧ fileData big code o w := by
  obtain ⟨h1, h2, e1, ha, h3, h4, rfl, hb, h5, h6, rfl, hc, rfl⟩ := h.start
  obtain ⟨v', hv'⟩ : ∃ v', v' = (y.drop (26 + 8 * k)).take (6 + 8 * k') := ⟨_, rfl⟩
  have l' : v'.length = 6 + 8 * k' := by
    have := h.long
    rw [hv', List.length_take, List.length_drop]; omega
  have d0 : y = (y.drop 0).take 16 ++ y.drop 16 := by rw [List.drop_zero, List.take_append_drop]
  have d1 : y.drop 16 = (y.drop 16).take 2 ++ y.drop 18 := by
    rw [show y.drop 18 = (y.drop 16).drop 2 by rw [List.drop_drop], List.take_append_drop]
  have d2 : y.drop 18 = (y.drop 18).take (6 + 8 * k) ++ y.drop (24 + 8 * k) := by
    rw [show y.drop (24 + 8 * k) = (y.drop 18).drop (6 + 8 * k) by rw [List.drop_drop]; congr 1; omega,
      List.take_append_drop]
  have d3 : y.drop (24 + 8 * k) = (y.drop (24 + 8 * k)).take 2 ++ y.drop (26 + 8 * k) := by
    rw [show y.drop (26 + 8 * k) = (y.drop (24 + 8 * k)).drop 2 by rw [List.drop_drop]; congr 1; omega,
      List.take_append_drop]
  have d4 : y.drop (26 + 8 * k) = v' ++ (c ++ junk) := by
    rw [← h.pre, hv', show y.drop (32 + 8 * k + 8 * k') = (y.drop (26 + 8 * k)).drop (6 + 8 * k') by
      rw [List.drop_drop]; congr 1; omega, List.take_append_drop]
  have hs := h.sel
  have hv := h.offset
  have hs' := h.sel'
  generalize (y.drop 16).take 2 = s at hs d1
  generalize (y.drop 18).take (6 + 8 * k) = v at hv d2
  generalize (y.drop (24 + 8 * k)).take 2 = s' at hs' d3
  refine ⟨h1 ++ (h3 ++ ((h5 ++ (s ++ v)) ++ ((s' ++ v') ++ c))), ?_, ?_⟩
  · rw [d0, e1, d1, d2, d3, d4]; simp
  · refine ⟨h1, _, rfl, ha, h3, _, rfl, hb, h5 ++ (s ++ v), _, rfl, ⟨h5, _, rfl, hc, s ++ v, [], by simp,
      ⟨k, h.hk, s, _, rfl, hs, v, [], by simp, hv, rfl⟩, rfl⟩, (s' ++ v') ++ c, [], by simp,
      ⟨Form.value v', s' ++ v', _, rfl, ⟨k', h.hk', s', _, rfl, hs', v', [], by simp, ⟨l', rfl⟩, rfl⟩, c, [], by simp,
        hn _ _ h.content, rfl⟩, rfl⟩

/-- The same with two bytes of length. -/
def fileDataTwo (big : Bool) (code : Nat) (o : Op.FileData) : Form :=
  all [header o.header, opcode o.opcode code, fileOffset o.offset, field 2 1, reserved 14,
    file big o.offset.fileId.toNat 0 o.data]

theorem FileParts.two {big : Bool} {code : Nat} {o : Op.FileData} {y c : List Bool} {k : Nat}
    (h : FileParts big code o y k 1 c []) : fileDataTwo big code o y := by
  obtain ⟨h1, h2, e1, ha, h3, h4, rfl, hb, h5, h6, rfl, hc, rfl⟩ := h.start
  obtain ⟨v', hv'⟩ : ∃ v', v' = (y.drop (26 + 8 * k)).take 14 := ⟨_, rfl⟩
  have l' : v'.length = 14 := by
    have := h.long
    rw [hv', List.length_take, List.length_drop]; omega
  have d0 : y = (y.drop 0).take 16 ++ y.drop 16 := by rw [List.drop_zero, List.take_append_drop]
  have d1 : y.drop 16 = (y.drop 16).take 2 ++ y.drop 18 := by
    rw [show y.drop 18 = (y.drop 16).drop 2 by rw [List.drop_drop], List.take_append_drop]
  have d2 : y.drop 18 = (y.drop 18).take (6 + 8 * k) ++ y.drop (24 + 8 * k) := by
    rw [show y.drop (24 + 8 * k) = (y.drop 18).drop (6 + 8 * k) by rw [List.drop_drop]; congr 1; omega,
      List.take_append_drop]
  have d3 : y.drop (24 + 8 * k) = (y.drop (24 + 8 * k)).take 2 ++ y.drop (26 + 8 * k) := by
    rw [show y.drop (26 + 8 * k) = (y.drop (24 + 8 * k)).drop 2 by rw [List.drop_drop]; congr 1; omega,
      List.take_append_drop]
  have d4 : y.drop (26 + 8 * k) = v' ++ c := by
    have hp := h.pre
    rw [List.append_nil] at hp
    rw [← hp, hv', show y.drop (32 + 8 * k + 8 * 1) = (y.drop (26 + 8 * k)).drop 14 by
      rw [List.drop_drop]; congr 1; omega, List.take_append_drop]
  have hs := h.sel
  have hv := h.offset
  have hs' := h.sel'
  generalize (y.drop 16).take 2 = s at hs d1
  generalize (y.drop 18).take (6 + 8 * k) = v at hv d2
  generalize (y.drop (24 + 8 * k)).take 2 = s' at hs' d3
  rw [d0, e1, d1, d2, d3, d4]
  exact ⟨h1, h3 ++ ((h5 ++ (s ++ v)) ++ (s' ++ (v' ++ c))), by simp, ha, h3, _, rfl, hb, h5 ++ (s ++ v), _, rfl,
    ⟨h5, _, rfl, hc, s ++ v, [], by simp, ⟨k, h.hk, s, _, rfl, hs, v, [], by simp, hv, rfl⟩, rfl⟩, s', _, rfl, hs',
    v', _, rfl, l', c, [], by simp, h.content, rfl⟩

theorem two_all {big : Bool} {code : Nat} {o : Op.FileData}
    (hn : ∀ n c, file big o.offset.fileId.toNat 0 o.data c → file big o.offset.fileId.toNat n o.data c)
    {y : List Bool} (h : fileDataTwo big code o y) : fileData big code o y := by
  obtain ⟨h1, y, rfl, ha, h2, y, rfl, hb, h3, y, rfl, hc, s, y, rfl, hs, v, y, rfl, hv, c, y, rfl, hf, rfl⟩ := h
  exact ⟨h1, _, rfl, ha, h2, _, rfl, hb, h3, _, rfl, hc, (s ++ v) ++ c, [], by simp,
    ⟨value v, s ++ v, _, rfl, ⟨1, by omega, s, _, rfl, hs, v, [], by simp, ⟨hv, rfl⟩, rfl⟩, c, [], by simp, hn _ _ hf,
      rfl⟩, rfl⟩

theorem value_append (a b : List Bool) : value (a ++ b) = value a * 2 ^ b.length + value b := by
  induction a with
  | nil => simp [value]
  | cons x a ih =>
    rw [List.cons_append, value, ih, value, List.length_append, Nat.pow_add, Nat.add_mul]
    have : x.toNat * (2 ^ a.length * 2 ^ b.length) = x.toNat * 2 ^ a.length * 2 ^ b.length := by rw [Nat.mul_assoc]
    omega

theorem field_lt {n v : Nat} {c : List Bool} (h : field n v c) : v < 2 ^ n := by
  rw [← h.1, ← h.2, value_eq]; exact bitsNat_lt _

/-- One flipped bit other than the second of those telling how long the length of the file is. -/
theorem FileParts.flip {big : Bool} {code : Nat} {o : Op.FileData} {x c0 : List Bool} {k0 : Nat}
    (hk : ∀ k, k < 4 → o.offset.offset.val.toNat < 2 ^ (6 + 8 * k) → k0 ≤ k)
    (hmin : ∀ c, file big o.offset.fileId.toNat 0 o.data c → c0.length ≤ c.length)
    (hx : FileParts big code o x k0 1 c0 []) {i : Nat} (hi : i < x.length) (hs : i ≠ 25 + 8 * k0) {k k' : Nat}
    {c junk : List Bool} (h : FileParts big code o (x.modify i not) k k' c junk) :
    fileDataTwo big code o (x.modify i not) := by
  have hl : (x.modify i not).length = x.length := by simp
  have hlen : x.length = 40 + 8 * k0 + c0.length := by
    have := congrArg List.length hx.pre
    have := hx.long
    rw [List.length_drop, List.append_nil] at *
    omega
  have hlen' : 32 + 8 * k + 8 * k' + c.length + junk.length = 40 + 8 * k0 + c0.length := by
    have := congrArg List.length h.pre
    have h2 := h.long
    rw [List.length_drop, List.length_append, hl] at this
    rw [hl] at h2
    omega
  have hc := hmin c h.content
  have hge := hk k h.hk (field_lt h.offset)
  by_cases h16 : 16 ≤ i ∧ i < 18
  · exfalso
    have hne : k ≠ k0 := by
      rintro rfl
      exact part_modify_ne h16.1 h16.2 hi ((Rigid.field 2 k).eq _ _ h.sel hx.sel)
    have : k = k0 + 1 := by omega
    subst this
    have ho := h.offset
    rw [part_modify (.inl h16.2), show 6 + 8 * (k0 + 1) = (6 + 8 * k0) + 8 by omega, List.take_add, List.drop_drop] at ho
    have h2 := hx.offset.2
    have h3 := ho.2
    have h4 : (((x.drop (18 + (6 + 8 * k0))).take 8)).length = 8 := by
      rw [List.length_take, List.length_drop]; omega
    rw [value_append, h2, h4] at h3
    have h5 : (x.drop (18 + (6 + 8 * k0))).take 8 =
        (x.drop (24 + 8 * k0)).take 2 ++ ((x.drop (24 + 8 * k0)).drop 2).take 6 := by
      rw [← List.take_add]; congr 2; omega
    rw [h5, value_append, hx.sel'.2] at h3
    have h6 : (((x.drop (24 + 8 * k0)).drop 2).take 6).length = 6 := by
      rw [List.length_take, List.length_drop, List.length_drop]; omega
    rw [h6] at h3
    omega
  · have : k = k0 := by
      have h1 := h.sel
      rw [part_modify (by omega)] at h1
      exact h1.2.symm.trans hx.sel.2
    subst this
    by_cases hi' : i = 24 + 8 * k
    · exfalso
      have h1 := h.sel'
      have h2 := hx.sel'
      subst hi'
      have h3 : (x.drop (24 + 8 * k)).take 2 = [false, true] :=
        (Rigid.field 2 1).eq _ _ h2 ⟨rfl, rfl⟩
      have h4 : ((x.modify (24 + 8 * k) not).drop (24 + 8 * k)).take 2 = [true, true] := by
        have e0 := congrArg (fun l => l[0]?) h3
        have e1 := congrArg (fun l => l[1]?) h3
        simp only [List.getElem?_take, List.getElem?_drop, Nat.add_zero] at e0 e1
        apply List.ext_getElem?
        intro m
        simp only [List.getElem?_take, List.getElem?_drop, List.getElem?_modify]
        match m with
        | 0 => simp at e0 ⊢; simp [e0]
        | 1 => simp at e1 ⊢; simp [e1]
        | m + 2 => simp; intro h; omega
      rw [h4] at h1
      have : k' = 3 := h1.2.symm
      omega
    · have : k' = 1 := by
        have h1 := h.sel'
        rw [part_modify (by omega)] at h1
        exact h1.2.symm.trans hx.sel'.2
      subst this
      have : junk = [] := List.eq_nil_of_length_eq_zero (by omega)
      subst this
      exact h.two

/-- The second of the bits telling how long the length of the file is: the length is read as one of one byte. -/
theorem FileParts.selector {big : Bool} {code : Nat} {o : Op.FileData} {x c0 j0 : List Bool} {k0 : Nat}
    (hx : FileParts big code o x k0 1 c0 j0) (c junk : List Bool) :
    (∃ k k', FileParts big code o (x.modify (25 + 8 * k0) not) k k' c junk) ↔
      file big o.offset.fileId.toNat 0 o.data c ∧ x.drop (32 + 8 * k0) = c ++ junk := by
  have hl : (x.modify (25 + 8 * k0) not).length = x.length := by simp
  have hlong := hx.long
  have hsel : ((x.modify (25 + 8 * k0) not).drop (24 + 8 * k0)).take 2 = [false, false] := by
    have h3 : (x.drop (24 + 8 * k0)).take 2 = [false, true] := (Rigid.field 2 1).eq _ _ hx.sel' ⟨rfl, rfl⟩
    have e0 := congrArg (fun l => l[0]?) h3
    have e1 := congrArg (fun l => l[1]?) h3
    simp only [List.getElem?_take, List.getElem?_drop, Nat.add_zero] at e0 e1
    apply List.ext_getElem?
    intro m
    simp only [List.getElem?_take, List.getElem?_drop, List.getElem?_modify]
    match m with
    | 0 => simp at e0 ⊢; simp [e0]
    | 1 =>
      rw [show 25 + 8 * k0 = 24 + 8 * k0 + 1 by omega]
      simp at e1 ⊢; simp [e1]
    | m + 2 => simp; intro h; omega
  constructor
  · rintro ⟨k, k', h⟩
    have : k = k0 := by
      have h1 := h.sel
      rw [part_modify (by omega)] at h1
      exact h1.2.symm.trans hx.sel.2
    subst this
    have : k' = 0 := by
      have h1 := h.sel'
      rw [hsel] at h1
      exact h1.2.symm
    subst this
    have h1 := h.pre
    rw [drop_modify (by omega)] at h1
    exact ⟨h.content, h1⟩
  · rintro ⟨h1, h2⟩
    refine ⟨k0, 0, hx.hk, by omega, by omega, ?_, ?_, ?_, ?_, h1, ?_⟩
    · rw [part_modify (by omega)]; exact hx.start
    · rw [part_modify (by omega)]; exact hx.sel
    · rw [part_modify (by omega)]; exact hx.offset
    · rw [hsel]; exact ⟨rfl, rfl⟩
    · rw [drop_modify (by omega)]; exact h2

/-- The second byte of the length of the file, twice. -/
theorem FileParts.doubled {big : Bool} {code : Nat} {o : Op.FileData} {x c0 : List Bool} {k0 : Nat}
    (hx : FileParts big code o x k0 1 c0 []) (c junk : List Bool) :
    (∃ k k', FileParts big code o (x.take (40 + 8 * k0) ++ x.drop (32 + 8 * k0)) k k' c junk) ↔
      file big o.offset.fileId.toNat 0 o.data c ∧ x.drop (32 + 8 * k0) = c ++ junk := by
  have hlong := hx.long
  have hpart : ∀ j n, j + n ≤ 40 + 8 * k0 →
      ((x.take (40 + 8 * k0) ++ x.drop (32 + 8 * k0)).drop j).take n = (x.drop j).take n := by
    intro j n hj
    rw [List.drop_append_of_le_length (by rw [List.length_take]; omega),
      List.take_append_of_le_length (by rw [List.length_drop, List.length_take]; omega), List.drop_take,
      List.take_take, Nat.min_eq_left (by omega)]
  have hdrop : (x.take (40 + 8 * k0) ++ x.drop (32 + 8 * k0)).drop (40 + 8 * k0) = x.drop (32 + 8 * k0) :=
    List.drop_left' (by rw [List.length_take]; omega)
  constructor
  · rintro ⟨k, k', h⟩
    have : k = k0 := by
      have h1 := h.sel
      rw [hpart _ _ (by omega)] at h1
      exact h1.2.symm.trans hx.sel.2
    subst this
    have : k' = 1 := by
      have h1 := h.sel'
      rw [hpart _ _ (by omega)] at h1
      exact h1.2.symm.trans hx.sel'.2
    subst this
    have h1 := h.pre
    rw [show 32 + 8 * k + 8 * 1 = 40 + 8 * k by omega, hdrop] at h1
    exact ⟨h.content, h1⟩
  · rintro ⟨h1, h2⟩
    refine ⟨k0, 1, hx.hk, by omega, ?_, ?_, ?_, ?_, ?_, h1, ?_⟩
    · rw [List.length_append, List.length_take]; omega
    · rw [hpart _ _ (by omega)]; exact hx.start
    · rw [hpart _ _ (by omega)]; exact hx.sel
    · rw [hpart _ _ (by omega)]; exact hx.offset
    · rw [hpart _ _ (by omega)]; exact hx.sel'
    · rw [show 32 + 8 * k0 + 8 * 1 = 40 + 8 * k0 by omega, hdrop]; exact h2

end Form
end Dash7

namespace Dash7.Form

theorem part_inner {y a b r : List Bool} {j n : Nat} (h : y = a ++ (b ++ r)) (hj : j + n ≤ b.length) :
    (y.drop (a.length + j)).take n = (b.drop j).take n := by
  subst h
  rw [← List.drop_drop, List.drop_left, List.drop_append_of_le_length (by omega),
    List.take_append_of_le_length (by rw [List.length_drop]; omega)]

theorem FileParts.id {big : Bool} {code : Nat} {o : Op.FileData} {y c junk : List Bool} {k k' : Nat}
    (h : FileParts big code o y k k' c junk) : field 8 o.offset.fileId.toNat ((y.drop 8).take 8) := by
  obtain ⟨h1, h2, e1, ha, h3, h4, rfl, hb, h5, h6, rfl, hc, rfl⟩ := h.start
  have l1 := (Rigid.header o.header).len _ ha
  have l2 := (Rigid.opcode o.opcode code).len _ hb
  have : (y.drop 8).take 8 = ((y.drop 0).take 16).drop 8 := by rw [List.drop_zero, List.drop_take]
  rw [this, e1, ← List.append_assoc, List.append_nil, List.drop_left' (by rw [List.length_append]; omega)]
  exact hc

theorem field_part {n v w : Nat} {c d : List Bool} (h : field n v c) (h' : field n w d) (e : c = d) : v = w := by
  rw [← h.2, ← h'.2, e]

end Dash7.Form
