import Verif.Spec.FrameLayout
import Verif.Props.Layout
import Verif.Props.Foreground
import Verif.Props.TxStatus

/-!
# C56: the bits of every frame
-/

namespace Dash7
open Wire

/-- The writer puts out this row of bit fields, or refuses. -/
def Row (w : W) (o : Option (List (Nat × Nat))) : Prop :=
  w = match o with
    | some fs => .ok (fieldBits fs)
    | none => .error (.fault .invalidParam)

namespace Row

theorem fieldBits_octets (bs : List U8) : fieldBits (bs.map fun b => (8, b.toNat)) = bytesBits bs := by
  induction bs with
  | nil => rfl
  | cons b bs ih => simp only [List.map_cons, fieldBits, ih, bytesBits]

theorem lay {w : W} {o : Option (List U8)} (h : Lay w o) : Row w (octets o) := by
  unfold Lay at h
  subst h
  cases o with
  | none => rfl
  | some b => simp only [Row, octets, fieldBits_octets]

theorem fld {w : W} {fs : List (Nat × Nat)} (h : Fld w fs) : Row w (some fs) := h

theorem nil : Row (W.seq []) (rows []) := rfl

theorem cons {w : W} {ws : List W} {o : Option (List (Nat × Nat))} {os : List (Option (List (Nat × Nat)))}
    (h1 : Row w o) (h2 : Row (W.seq ws) (rows os)) : Row (W.seq (w :: ws)) (rows (o :: os)) := by
  unfold Row at *
  subst h1
  cases o with
  | none => rfl
  | some b =>
    rw [W.seq, h2]
    simp only [rows]
    cases rows os <;> simp [fieldBits_append]

theorem last {w : W} {o : Option (List (Nat × Nat))} (h : Row w o) : Row (W.seq [w]) (rows [o]) := cons h nil

theorem rows_append (os ps : List (Option (List (Nat × Nat)))) :
    rows (os ++ ps) = rows [rows os, rows ps] := by
  induction os with
  | nil => simp only [List.nil_append]; cases rows ps <;> simp [rows]
  | cons o os ih =>
    cases o with
    | none => rfl
    | some b =>
      simp only [List.cons_append, rows, ih]
      cases rows os <;> cases rows ps <;> simp [rows]

theorem rows_one (o : Option (List (Nat × Nat))) : rows [o] = o := by cases o <;> simp [rows]

/-- The first `n` writers put out one row. -/
theorem split (n : Nat) {ws : List W} {o : Option (List (Nat × Nat))} {os : List (Option (List (Nat × Nat)))}
    (h1 : Row (W.seq (ws.take n)) o) (h2 : Row (W.seq (ws.drop n)) (rows os)) :
    Row (W.seq ws) (rows (o :: os)) := by
  have e := List.take_append_drop n ws
  rw [← e, W.seq_append]
  rw [show o :: os = [o] ++ os from rfl, rows_append, rows_one]
  exact cons h1 (cons h2 nil)

/-- A part in a list of its own. -/
theorem flat {w : W} {os : List (Option (List (Nat × Nat)))} (h : Row w (rows os)) :
    Row (W.seq [w]) (rows os) := by
  rwa [W.seq_singleton]

theorem opt {α : Type} {w : α → W} {f : α → Option (List (Nat × Nat))} (h : ∀ a, Row (w a) (f a))
    (o : Option α) : Row (W.opt w o) (optionalRow f o) := by
  cases o with
  | none => rfl
  | some a => exact h a

theorem list {α : Type} {w : α → W} {f : α → Option (List (Nat × Nat))} (h : ∀ a, Row (w a) (f a))
    (l : List α) : Row (W.list w l) (rows (l.map f)) := by
  unfold W.list
  induction l with
  | nil => exact nil
  | cons a l ih => exact cons (h a) ih

theorem fieldBits_length (fs : List (Nat × Nat)) : (fieldBits fs).length = width fs := by
  induction fs with
  | nil => rfl
  | cons f fs ih => obtain ⟨w, v⟩ := f; simp [fieldBits, width, ih]

theorem width_append (fs gs : List (Nat × Nat)) : width (fs ++ gs) = width fs + width gs := by
  induction fs with
  | nil => simp [width]
  | cons f fs ih => obtain ⟨w, v⟩ := f; simp [width, ih]; omega

/-- Zero bits at the end make no difference to the bytes. -/
theorem packBits_zeros (l : List Bool) :
    packBits (l ++ List.replicate ((8 - l.length % 8) % 8) false) = packBits l := by
  have h1 : 8 ∣ (l.take (8 * (l.length / 8))).length := by simp; omega
  have hl := (List.take_append_drop (8 * (l.length / 8)) l)
  have h2 : (l.drop (8 * (l.length / 8))).length < 8 := by simp; omega
  have h3 : l.length % 8 = (l.drop (8 * (l.length / 8))).length := by simp; omega
  rw [h3]
  rw [← hl]
  generalize l.take (8 * (l.length / 8)) = a at *
  generalize l.drop (8 * (l.length / 8)) = b at *
  have e : ((a ++ b).drop (8 * ((a ++ b).length / 8))) = b := by
    obtain ⟨k, hk⟩ := h1
    have : 8 * ((a ++ b).length / 8) = a.length := by simp; omega
    rw [this]; simp
  rw [e, List.append_assoc, packBits_append _ _ h1, packBits_append _ _ h1]
  congr 1
  match b, h2 with
  | [], _ => rfl
  | [a], _ => rfl
  | [a, b], _ => rfl
  | [a, b, c], _ => rfl
  | [a, b, c, d], _ => rfl
  | [a, b, c, d, e], _ => rfl
  | [a, b, c, d, e, f], _ => rfl
  | [a, b, c, d, e, f, g], _ => rfl

theorem toBytes {w : W} {o : Option (List (Nat × Nat))} (h : Row w o) : w.toBytes = result (filled o) := by
  unfold Row at h
  subst h
  cases o with
  | none => rfl
  | some fs =>
    simp only [W.toBytes, result, filled, packed]
    congr 1
    have hz := (Fld.pad (n := (8 - width fs % 8) % 8))
    unfold Fld W.pad at hz
    injection hz with hz
    have hw : width (fs ++ [((8 - width fs % 8) % 8, 0)]) = 8 * ((width fs + 7) / 8) := by
      rw [width_append]; simp only [width]; omega
    have hb := natBits_bits (fs ++ [((8 - width fs % 8) % 8, 0)])
    rw [hw, fieldBits_append, ← hz] at hb
    rw [← packBits_zeros, fieldBits_length, ← hb, packBits_natBits]

end Row

/-! ## Writers -/

theorem Action.row (cfg : Cfg) (a : Action) :
    Row (a.write cfg) (actionRow cfg.variant cfg.bigEndianHost a) := by
  by_cases ha : ∃ o, a = .txStatus o
  · obtain ⟨o, rfl⟩ := ha
    refine Row.split 3 (Row.fld ?_) (Row.flat (Row.cons (Row.lay Lay.u8)
      (Row.last (Row.lay (writeLengthPrefixed_lay (InterfaceTxStatus.lay cfg _))))))
    exact Fld.cons (Fld.uint (by decide)) (Fld.cons Fld.pad (Fld.cons (Fld.uint (by decide)) Fld.nil))
  · have h := Row.lay (Action.lay cfg a fun o h => ha ⟨o, h⟩)
    cases a <;> first | exact h | exact absurd ⟨_, rfl⟩ ha

theorem Command.row (cfg : Cfg) (c : Command) :
    Row (c.write cfg) (commandRow cfg.variant cfg.bigEndianHost c) := Row.list (Action.row cfg) c.actions

theorem Trans.Control.fld (c : Trans.Control) : Fld c.write (transControl c) :=
  Fld.cons Fld.flag (Fld.cons Fld.flag (Fld.cons Fld.flag (Fld.cons Fld.flag (Fld.cons Fld.flag
    (Fld.cons Fld.flag (Fld.cons Fld.flag Fld.nil))))))

theorem Lay.two {a b : U8} : Lay (W.seq [W.u8 a, W.u8 b]) (raw [a, b]) := by
  have h := Lay.cons (Lay.u8 (v := a)) (Lay.last (Lay.u8 (v := b)))
  simpa [join, raw] using h

theorem Trans.Header.row (h : Trans.Header) : Row h.write (transHeader h) :=
  Row.cons (Row.fld (Trans.Control.fld _)) (Row.split 2 (Row.lay Lay.two)
    (Row.cons (Row.opt (fun _ => Row.lay Lay.u8) _)
    (Row.cons (Row.opt (fun _ => Row.lay (VarInt.lay _)) _)
    (Row.cons (Row.opt (fun _ => Row.lay (VarInt.lay _)) _)
    (Row.cons (Row.opt (fun _ => Row.lay (VarInt.lay _)) _)
    (Row.last (Row.opt (fun _ => Row.lay Lay.two) _)))))))

theorem Trans.Frame.row (cfg : Cfg) (f : Trans.Frame) :
    Row (f.write cfg) (transFrame cfg.variant cfg.bigEndianHost f) :=
  Row.cons (Trans.Header.row _) (Row.last (Command.row cfg _))

theorem NlsMethod.fld (cfg : Cfg) (m : NlsMethod) :
    Fld (m.write cfg) [(nlsWidth cfg.variant, nlsMethod m)] := by
  unfold NlsMethod.write NlsMethod.width
  cases cfg.variant
  · exact Fld.enum (n := 4) (by decide) (by cases m <;> rfl)
  · exact Fld.enum (n := 4) (by decide) (by cases m <;> rfl)
  · exact Fld.enum (n := 3) (by decide) (by cases m <;> rfl)

theorem Net.Control.fld (cfg : Cfg) (c : Net.Control) : Fld (c.write cfg) (netControl cfg.variant c) :=
  Fld.cons Fld.flag (Fld.cons Fld.flag (Fld.cons (AddressType.fld _) (Fld.cons Fld.pad
    (Fld.cons (NlsMethod.fld cfg _) Fld.nil))))

theorem Net.HoppingControl.fld (h : Net.HoppingControl) : Fld h.write (hopping h) :=
  Fld.cons Fld.pad (Fld.cons Fld.flag (Fld.cons (AddressType.fld _) (Fld.cons Fld.pad Fld.nil)))

theorem Net.Header.row (cfg : Cfg) (h : Net.Header) : Row (h.write cfg) (netHeader cfg.variant h) :=
  Row.cons (Row.fld (Net.Control.fld cfg _)) (Row.cons (Row.opt (fun _ => Row.fld (Net.HoppingControl.fld _)) _)
    (Row.cons (Row.lay (AccessClass.lay _)) (Row.last (Row.lay (Address.lay _)))))

theorem Net.Frame.row (cfg : Cfg) (f : Net.Frame) :
    Row (f.write cfg) (netFrame cfg.variant cfg.bigEndianHost f) :=
  Row.cons (Net.Header.row cfg _) (Row.last (Trans.Frame.row cfg _))

theorem ForegroundHeader.row (h : ForegroundHeader) : Row h.write (foregroundHeader h) :=
  Row.cons (Row.lay (Length.lay _)) (Row.cons (Row.lay Lay.u8)
    (Row.cons (Row.fld (Fld.cons (AddressType.fld _) (Fld.cons (Fld.uint (by omega)) Fld.nil)))
    (Row.last (Row.lay (Address.lay _)))))

theorem ForegroundFrame.row (cfg : Cfg) (f : ForegroundFrame) :
    Row (f.write cfg) (foregroundFrame cfg.variant cfg.bigEndianHost f) :=
  Row.cons (ForegroundHeader.row _) (Row.cons (Net.Frame.row cfg _) (Row.last (Row.lay Lay.uintHost)))

/-! ## The property -/

/-- **C56** The bytes of a transport frame, whatever the frame: its row of bit fields, filled up with zero
bits at the end; refused exactly if one of the parts is out of range. -/
theorem C56_transport (cfg : Cfg) (f : Trans.Frame) :
    f.toBytes cfg = result (filled (transFrame cfg.variant cfg.bigEndianHost f)) := (Trans.Frame.row cfg f).toBytes

/-- **C56** for network frames. -/
theorem C56_network (cfg : Cfg) (f : Net.Frame) :
    f.toBytes cfg = result (filled (netFrame cfg.variant cfg.bigEndianHost f)) := (Net.Frame.row cfg f).toBytes

/-- **C56** for foreground frames. -/
theorem C56_foreground (cfg : Cfg) (f : ForegroundFrame) :
    f.toBytes cfg = result (filled (foregroundFrame cfg.variant cfg.bigEndianHost f)) :=
  (ForegroundFrame.row cfg f).toBytes

/-- **C56** for commands, with or without TX statuses. -/
theorem C56_command (cfg : Cfg) (c : Command) :
    c.toBytes cfg = result (filled (commandRow cfg.variant cfg.bigEndianHost c)) := (Command.row cfg c).toBytes

/-- The rows of a foreground frame around one request, and the bytes these make. -/
example : Wire.foregroundFrame .spec false (Sample.foreground 25 ⟨[Sample.tag]⟩) ≠ none ∧
    filled (Wire.foregroundFrame .spec false (Sample.foreground 25 ⟨[Sample.tag]⟩)) =
      some [25, 85, 97, 227, 160, 16, 128, 8, 145, 25, 162, 42, 179, 59, 253, 7, 9, 48, 18, 95, 4, 1, 2, 180, 7,
        239, 190] := by decide +kernel
/-- The network frame of the same request fills its last bit in wizzilab builds. -/
example : filled (Wire.netFrame .wizzilab false ⟨Sample.netHeader, Sample.transFrame⟩) =
      some [231, 64, 33, 0, 17, 34, 51, 68, 85, 102, 119, 250, 14, 18, 96, 36, 190, 8, 2, 5, 2, 130, 135, 208,
        130, 88] ∧
    filled (Wire.netFrame .spec false ⟨Sample.netHeader, Sample.transFrame⟩) =
      some [227, 160, 16, 128, 8, 145, 25, 162, 42, 179, 59, 253, 7, 9, 48, 18, 95, 4, 1, 2, 129, 65, 67, 232,
        65, 44] := by decide +kernel
example : filled (Wire.transFrame .spec false Sample.transFrame) =
    some [250, 14, 18, 96, 36, 190, 8, 2, 5, 2, 130, 135, 208, 130, 88] := by decide +kernel
/-- A transmission status, and a length that does not fit. -/
example : (filled (commandRow .wizzilab false ⟨[Sample.tag, .txStatus Sample.txDash7, Sample.tag]⟩)).isSome ∧
    filled (Wire.foregroundFrame .spec false (Sample.foreground 0x40000000 ⟨[Sample.tag]⟩)) = none := by
  decide +kernel

#print axioms C56_transport
#print axioms C56_network
#print axioms C56_foreground
#print axioms C56_command

end Dash7
