import Verif.Spec.Layout
import Verif.Props.Numbers

/-!
# The writers produce the layout of `Verif.Spec.Layout`
-/

namespace Dash7
open Wire

/-- The bits of a row of fields. -/
def Wire.fieldBits : List (Nat × Nat) → List Bool
  | [] => []
  | (w, v) :: fs => natBits w v ++ fieldBits fs

theorem Wire.fieldBits_append (fs gs : List (Nat × Nat)) :
    fieldBits (fs ++ gs) = fieldBits fs ++ fieldBits gs := by
  induction fs with
  | nil => rfl
  | cons f fs ih => obtain ⟨w, v⟩ := f; simp [fieldBits, ih]

theorem Wire.bits_lt (fs : List (Nat × Nat)) : bits fs < 2 ^ width fs := by
  induction fs with
  | nil => simp [bits, width]
  | cons f fs ih =>
    obtain ⟨w, v⟩ := f
    rw [bits, width, Nat.pow_add]
    have h1 := Nat.mod_lt v (Nat.two_pow_pos w)
    have h2 := Nat.mul_le_mul_right (2 ^ width fs) (Nat.succ_le_of_lt h1)
    rw [Nat.succ_mul] at h2
    omega

theorem Wire.natBits_bits (fs : List (Nat × Nat)) : natBits (width fs) (bits fs) = fieldBits fs := by
  induction fs with
  | nil => rfl
  | cons f fs ih =>
    obtain ⟨w, v⟩ := f
    have hlt := bits_lt fs
    rw [bits, width, fieldBits, natBits_append, Nat.add_comm, Nat.add_mul_div_right _ _ (Nat.two_pow_pos _),
      Nat.div_eq_of_lt hlt, Nat.zero_add, natBits_mod _ _ _ (Nat.le_refl _),
      natBits_eq_mod (width fs), Nat.add_mul_mod_self_right, ← natBits_eq_mod, ih]

/-- The writer puts out this row of bit fields. -/
def Fld (w : W) (fs : List (Nat × Nat)) : Prop := w = .ok (fieldBits fs)

/-- The writer puts out these bytes, or refuses. -/
def Lay (w : W) (o : Option (List U8)) : Prop :=
  w = match o with
    | some b => .ok (bytesBits b)
    | none => .error (.fault .invalidParam)

namespace Fld

theorem nil : Fld (W.seq []) [] := rfl
theorem cons {w : W} {ws : List W} {fs gs : List (Nat × Nat)} (h1 : Fld w fs) (h2 : Fld (W.seq ws) gs) :
    Fld (W.seq (w :: ws)) (fs ++ gs) := by
  unfold Fld at *
  rw [fieldBits_append]
  simp only [W.seq, h1, h2]
theorem uint {w n : Nat} {v : BitVec w} (h : n ≤ w) : Fld (W.uint n v) [(n, v.toNat)] := by
  unfold Fld
  rw [W.uint, if_neg (by omega)]
  simp [fieldBits]
theorem enum {n : Nat} {v : U8} {k : Nat} (h : n ≤ 8) (hk : v.toNat = k) : Fld (W.uint n v) [(n, k)] := by
  rw [← hk]; exact uint h
theorem flag {b : Bool} : Fld (W.flag b) [(1, b.toNat)] := by cases b <;> rfl
theorem pad {n : Nat} : Fld (W.pad n) [(n, 0)] := by
  unfold Fld W.pad
  rw [fieldBits, fieldBits, List.append_nil]
  congr 1
  symm
  have : ∀ n, natBits n 0 = List.replicate n false := by
    intro n
    induction n with
    | zero => rfl
    | succ n ih => simp [natBits, ih, List.replicate_succ]
  exact this n

end Fld

namespace Lay

theorem nil : Lay (W.seq []) (some []) := rfl
theorem nil' : Lay (.ok []) (raw []) := rfl

theorem cons {w : W} {ws : List W} {o : Option (List U8)} {os : List (Option (List U8))}
    (h1 : Lay w o) (h2 : Lay (W.seq ws) (join os)) : Lay (W.seq (w :: ws)) (join (o :: os)) := by
  unfold Lay at *
  subst h1
  cases o with
  | none => rfl
  | some b =>
    rw [W.seq, h2]
    simp only [join]
    cases join os <;> simp [bytesBits_append]

theorem join_append (os ps : List (Option (List U8))) : join (os ++ ps) = join [join os, join ps] := by
  induction os with
  | nil => simp only [List.nil_append]; cases join ps <;> simp [join]
  | cons o os ih =>
    cases o with
    | none => rfl
    | some b =>
      simp only [List.cons_append, join, ih]
      cases join os <;> cases join ps <;> simp [join]

theorem append {ws vs : List W} {os ps : List (Option (List U8))}
    (h1 : Lay (W.seq ws) (join os)) (h2 : Lay (W.seq vs) (join ps)) :
    Lay (W.seq (ws ++ vs)) (join (os ++ ps)) := by
  rw [W.seq_append, join_append]
  exact cons h1 (cons h2 nil)

/-- A row of whole bytes made of bit fields. -/
theorem fld {w : W} {fs : List (Nat × Nat)} {k : Nat} (h : Fld w fs) (hk : width fs = 8 * k) :
    Lay w (packed k fs) := by
  unfold Lay packed
  rw [h, ← natBits_bits, hk]
  simp only [bytesBits_bigEndian]

/-- The first `n` writers make up whole bytes. -/
theorem split (n : Nat) {ws : List W} {fs : List (Nat × Nat)} {k : Nat} {os : List (Option (List U8))}
    (h : Fld (W.seq (ws.take n)) fs) (hk : width fs = 8 * k) (h2 : Lay (W.seq (ws.drop n)) (join os)) :
    Lay (W.seq ws) (join (packed k fs :: os)) := by
  have := List.take_append_drop n ws
  rw [← this]
  exact append (os := [packed k fs]) (by
    have h := fld h hk
    have e : join [packed k fs] = packed k fs := by simp [join, packed]
    rw [e]; exact h) h2

theorem uint {k : Nat} {v : BitVec (8 * k)} : Lay (W.uint (8 * k) v) (number k v.toNat) := by
  unfold Lay number
  rw [W.uint, if_neg (by omega)]
  simp only [bytesBits_bigEndian]

theorem uint16 {v : U16} : Lay (W.uint 16 v) (number 2 v.toNat) := uint (k := 2)
theorem uint32 {v : U32} : Lay (W.uint 32 v) (number 4 v.toNat) := uint (k := 4)
theorem uint64 {v : U64} : Lay (W.uint 64 v) (number 8 v.toNat) := uint (k := 8)

theorem u8 {v : U8} : Lay (W.u8 v) (raw [v]) := by
  have h : Lay (W.uint 8 v) (number 1 v.toNat) := uint (k := 1)
  have e : number 1 v.toNat = raw [v] := by simp [number, raw, Spec.bigEndian]
  rw [e] at h
  exact h

theorem uintHost {cfg : Cfg} {k : Nat} {v : BitVec (8 * k)} :
    Lay (W.uintHost cfg k v) (hostNumber cfg.bigEndianHost k v.toNat) := by
  unfold W.uintHost hostNumber
  cases cfg.bigEndianHost with
  | true => exact uint
  | false =>
    show W.uintLE k v = .ok _
    rw [W.uintLE, packBits_natBits]
    rfl

theorem bytes {l : List U8} : Lay (W.list W.u8 l) (raw l) := by
  unfold Lay raw
  rw [W.list_u8]

/-- Consecutive raw bytes are one. -/
theorem join_raw (a b : List U8) (os : List (Option (List U8))) :
    join (raw a :: raw b :: os) = join (raw (a ++ b) :: os) := by
  simp only [join, raw]
  cases join os <;> simp

theorem raw_cons {w : W} {ws : List W} {b : U8} {l : List U8} {os : List (Option (List U8))}
    (h1 : Lay w (raw [b])) (h2 : Lay (W.seq ws) (join (raw l :: os))) :
    Lay (W.seq (w :: ws)) (join (raw (b :: l) :: os)) := by
  have := cons h1 h2
  rw [join_raw] at this
  exact this

theorem raw_nil {ws : List W} {os : List (Option (List U8))} (h : Lay (W.seq ws) (join os)) :
    Lay (W.seq ws) (join (raw [] :: os)) := by
  have e : join (raw [] :: os) = join os := by simp only [join, raw]; cases join os <;> simp
  rw [e]; exact h

theorem list {α : Type} {w : α → W} {f : α → Option (List U8)} (h : ∀ a, Lay (w a) (f a)) (l : List α) :
    Lay (W.list w l) (join (l.map f)) := by
  unfold W.list
  induction l with
  | nil => exact nil
  | cons a l ih => exact cons (h a) ih

theorem opt {α : Type} {w : α → W} {f : α → Option (List U8)} (h : ∀ a, Lay (w a) (f a)) (o : Option α) :
    Lay (W.opt w o) (optional f o) := by
  cases o with
  | none => exact nil'
  | some a => exact h a

/-- A part in a list of its own. -/
theorem flat {w : W} {ws : List W} {os ps : List (Option (List U8))}
    (h1 : Lay w (join os)) (h2 : Lay (W.seq ws) (join ps)) : Lay (W.seq (w :: ws)) (join (os ++ ps)) := by
  rw [join_append]
  have := cons (os := [join ps]) h1 (ws := [W.seq ws]) (cons h2 nil)
  have e : W.seq [w, W.seq ws] = W.seq (w :: ws) := by
    rw [show w :: ws = [w] ++ ws from rfl, W.seq_append, W.seq_singleton]
  rwa [e] at this

theorem single {w : W} {o : Option (List U8)} (h : Lay (W.seq [w]) (join [o])) : Lay w o := by
  rw [W.seq_singleton] at h
  have e : join [o] = o := by cases o <;> simp [join]
  rwa [e] at h

theorem seq1 {w : W} {o : Option (List U8)} (h : Lay w o) : Lay (W.seq [w]) o := by
  rwa [W.seq_singleton]

theorem last {w : W} {o : Option (List U8)} (h : Lay w o) : Lay (W.seq [w]) (join [o]) := cons h nil

theorem toBytes {w : W} {o : Option (List U8)} (h : Lay w o) : w.toBytes = result o := by
  unfold Lay at h
  subst h
  cases o with
  | none => rfl
  | some b => simp only [W.toBytes, packBits_bytesBits, result]

end Lay

theorem Length.lay (l : Length) : Lay l.write (Wire.length l.val.toNat) := by
  unfold Lay Wire.length
  split
  · rename_i o b h
    split at h
    · rename_i hl
      cases h
      exact Length.write_bits hl
    · cases h
  · rename_i h
    split at h
    · cases h
    · rename_i hl
      have : Length.extraBytes l.val = 4 := by
        rw [Length.extraBytes_eq]
        repeat' split
        all_goals first | rfl | omega
      rw [Length.write, this]
      rfl

theorem FileOffset.lay (f : FileOffset) : Lay f.write (fileOffset f) :=
  Lay.cons Lay.u8 (Lay.last (Length.lay _))

theorem writeLengthPrefixed_lay {w : W} {o : Option (List U8)} (h : Lay w o) :
    Lay (writeLengthPrefixed w) (prefixed o) := by
  unfold Lay at h
  subst h
  cases o with
  | none => rfl
  | some b =>
    simp only [writeLengthPrefixed, packBits_bytesBits, prefixed]
    have hl := Length.lay (Length.ofUsize b.length)
    rw [Length.ofUsize, BitVec.toNat_ofNat] at hl
    exact Lay.cons hl (Lay.last Lay.bytes)

theorem Wire.exponent_eq {v i : Nat} (hi : i < 8) (hv : v ≤ 507904) (hle : v ≤ 31 * 4 ^ i)
    (hmin : ∀ j, j < i → 31 * 4 ^ j < v) : exponent v = i := by
  have h0 := hmin 0; have h1 := hmin 1; have h2 := hmin 2; have h3 := hmin 3
  have h4 := hmin 4; have h5 := hmin 5; have h6 := hmin 6
  unfold exponent
  obtain rfl | rfl | rfl | rfl | rfl | rfl | rfl | rfl :
    i = 0 ∨ i = 1 ∨ i = 2 ∨ i = 3 ∨ i = 4 ∨ i = 5 ∨ i = 6 ∨ i = 7 := by omega
  all_goals
    simp only [Nat.reducePow, Nat.reduceMul] at *
    repeat' split
    all_goals omega

theorem VarInt.lay (v : VarInt) : Lay v.write (Wire.varInt v) := by
  obtain ⟨v, ceil⟩ := v
  rcases Nat.lt_or_ge 507904 v.toNat with hv | hv
  · have hc := ((C12_range v ceil).2 hv).2
    unfold Lay Wire.varInt VarInt.write
    simp only [hc, if_neg (show ¬ v.toNat ≤ 507904 by omega)]
    rfl
  · obtain ⟨i, m, d, hi, hm, hmin, hle, hmeq, hc, hi8, hm8, -⟩ := VarInt.compress_spec v ceil hv
    have he := Wire.exponent_eq hi hv hle hmin
    have hpos : 0 < 4 ^ i := Nat.pow_pos (by omega)
    have hm' : m = if ceil then (v.toNat + 4 ^ i - 1) / 4 ^ i else v.toNat / 4 ^ i := by
      cases ceil with
      | false => simpa using hmeq
      | true =>
        rw [if_pos rfl, hmeq]
        have h2 := Nat.div_add_mod v.toNat (4 ^ i)
        have h3 := Nat.mod_lt v.toNat hpos
        generalize v.toNat / 4 ^ i = q at h2
        generalize v.toNat % 4 ^ i = r at h2 h3
        rw [Nat.mul_comm] at h2
        symm
        split
        · rename_i hr
          rw [Nat.div_eq_iff hpos, Nat.add_mul]
          omega
        · rename_i hr
          have : r = 0 := by simp at hr; exact hr
          rw [Nat.div_eq_iff hpos, Nat.add_zero]
          omega
    unfold Wire.varInt VarInt.write
    simp only [hc, he, if_pos hv, ← hm']
    exact Lay.fld (Fld.cons (Fld.enum (by omega) hi8) (Fld.cons (Fld.enum (by omega) hm8) Fld.nil)) rfl

end Dash7
