import Verif.Lemmas.Hope4
import Verif.Props.Foreground
import Verif.Props.FrameAccept

/-!
# C77: the CRC of a frame
-/

namespace Dash7
open Sample

/-- Two bytes as a number in the byte order of the host. -/
def Spec.hostPair (big : Bool) (c d : U8) : U16 :=
  BitVec.ofNat 16 (if big then c.toNat * 256 + d.toNat else d.toNat * 256 + c.toNat)

theorem hostPair_form (big : Bool) (c d : U8) (n : U16) :
    Form.hostNumber big 2 n.toNat (Form.ofBytes [c, d]) ↔ n = Spec.hostPair big c d := by
  have hp : ∀ c d : U8, Form.number 2 (c.toNat * 256 + d.toNat) (Form.ofBytes [c, d]) := by
    intro c d
    refine ⟨rfl, ?_⟩
    rw [Form.ofBytes_eq, Form.value_eq]
    show bitsNat (natBits 8 c.toNat ++ (natBits 8 d.toNat ++ [])) = _
    rw [List.append_nil, bitsNat_append, bitsNat_natBits_of_lt c.isLt, bitsNat_natBits_of_lt d.isLt, natBits_length]
  have hlt : ∀ c d : U8, c.toNat * 256 + d.toNat < 2 ^ 16 := by
    intro c d
    have := c.isLt
    have := d.isLt
    omega
  have hs : Form.hostNumber big 2 (Spec.hostPair big c d).toNat (Form.ofBytes [c, d]) := by
    refine ⟨[c, d], rfl, ?_⟩
    unfold Spec.hostPair
    cases big
    · rw [if_neg (by simp), if_neg (by simp), BitVec.toNat_ofNat, Nat.mod_eq_of_lt (hlt d c)]
      exact hp d c
    · rw [if_pos rfl, if_pos rfl, BitVec.toNat_ofNat, Nat.mod_eq_of_lt (hlt c d)]
      exact hp c d
  constructor
  · intro h
    have key := Fits.host ⟨.spec, big, false, false, false⟩ 2
    have h1 := (key.whole n _).2 h
    have h2 := (key.whole (Spec.hostPair big c d) _).2 hs
    rw [h1] at h2
    cases h2
    rfl
  · rintro rfl
    exact hs

theorem hostNumber_two {big : Bool} {n : Nat} {bs : List U8} (h : Form.hostNumber big 2 n (Form.ofBytes bs)) :
    ∃ c d, bs = [c, d] := by
  obtain ⟨cs, hc, hl, -⟩ := h
  have hb : 8 * bs.length = 16 := by
    have h1 := congrArg List.length hc
    rw [Form.ofBytes_eq, bytesBits_length, Form.ofBytes_eq, bytesBits_length] at h1
    rw [Form.ofBytes_eq, bytesBits_length] at hl
    have : (if big then cs else cs.reverse).length = cs.length := by cases big <;> simp
    omega
  match bs, hb with
  | [c, d], _ => exact ⟨c, d, rfl⟩
  | [], hb => simp at hb
  | [_], hb => simp at hb
  | _ :: _ :: _ :: _, hb => simp at hb; omega

/-- **C77** (partial: nothing is checked) The last two bytes of a background frame are its CRC, in the byte order of the
host. Whatever they are, the frame is accepted, and with other two bytes only the CRC changes. -/
theorem C77_background_partial (cfg : Cfg) (data : List U8) (f : BackgroundFrame)
    (h : BackgroundFrame.tryFrom cfg data = .ok f) :
    ∃ front c d, data = front ++ [c, d] ∧ f.crc16 = Spec.hostPair cfg.bigEndianHost c d ∧
      ∀ c' d', BackgroundFrame.tryFrom cfg (front ++ [c', d']) =
        .ok { f with crc16 := Spec.hostPair cfg.bigEndianHost c' d' } := by
  have hl := (C31_accepts cfg data).1 ⟨f, h⟩
  rw [C57_background] at h
  match data, hl with
  | [a0, a1, a2, a3, c, d], _ =>
    have split : ∀ c d : U8, ∀ f : BackgroundFrame,
        Form.backgroundFrame cfg.bigEndianHost f (Form.ofBytes ([a0, a1, a2, a3] ++ [c, d])) ↔
        Form.all [Form.field 8 f.subnet.toNat, Form.all [Form.field 2 (Wire.addressType f.control.addressType),
          Form.field 6 f.control.tagId.toNat], Form.hostNumber cfg.bigEndianHost 2 f.payload.toNat]
          (Form.ofBytes [a0, a1, a2, a3]) ∧
        Form.hostNumber cfg.bigEndianHost 2 f.crc16.toNat (Form.ofBytes [c, d]) := by
      intro c d f
      have hap : Form.ofBytes ([a0, a1, a2, a3] ++ [c, d]) = Form.ofBytes [a0, a1, a2, a3] ++ Form.ofBytes [c, d] := rfl
      rw [hap]
      refine Iff.trans (Form.all_append [Form.field 8 f.subnet.toNat, Form.all [Form.field 2
        (Wire.addressType f.control.addressType), Form.field 6 f.control.tagId.toNat],
        Form.hostNumber cfg.bigEndianHost 2 f.payload.toNat]
        [Form.hostNumber cfg.bigEndianHost 2 f.crc16.toNat] _) ?_
      constructor
      · rintro ⟨x, y, hxy, hx, z, -, rfl, hz, rfl⟩
        have hz16 : z.length = 16 := by
          obtain ⟨cs, rfl, hl, -⟩ := hz
          rw [Form.ofBytes_eq, bytesBits_length] at hl ⊢
          have : (if cfg.bigEndianHost then cs else cs.reverse).length = cs.length := by
            cases cfg.bigEndianHost <;> simp
          omega
        have hlen := congrArg List.length hxy
        rw [List.length_append, List.length_append, List.append_nil, hz16] at hlen
        have h32 : (Form.ofBytes [a0, a1, a2, a3]).length = 32 := rfl
        have h16 : (Form.ofBytes [c, d]).length = 16 := rfl
        obtain ⟨e1, e2⟩ := List.append_inj hxy (by omega)
        rw [e1, e2, List.append_nil]
        exact ⟨hx, hz⟩
      · rintro ⟨hx, hy⟩
        exact ⟨_, _, rfl, hx, _, _, (List.append_nil _).symm, hy, rfl⟩
    refine ⟨[a0, a1, a2, a3], c, d, rfl, ?_, fun c' d' => ?_⟩
    · exact (hostPair_form _ _ _ _).1 ((split c d f).1 h).2
    · rw [C57_background, split]
      exact ⟨((split c d f).1 h).1, (hostPair_form _ _ _ _).2 rfl⟩

/-- **C77** (partial: nothing is checked) The two bytes behind the command of a foreground frame are its CRC, in the byte
order of the host. Whatever they are, and whatever the bytes behind them are, the frame is accepted, and with others only
the CRC changes. -/
theorem C77_foreground_partial (cfg : Cfg) (hv : cfg.variant ≠ .wizzilab) (data : List U8) (f : ForegroundFrame)
    (h : ForegroundFrame.tryFrom cfg data = .ok f) :
    ∃ front c d behind, data = front ++ (c :: d :: behind) ∧ f.crc16 = Spec.hostPair cfg.bigEndianHost c d ∧
      ∀ c' d' behind', behind'.length = behind.length →
        ForegroundFrame.tryFrom cfg (front ++ (c' :: d' :: behind')) =
          .ok { f with crc16 := Spec.hostPair cfg.bigEndianHost c' d' } := by
  obtain ⟨head, wire, crc, junk, rfl, ⟨h1, h2, h3, h4, h5⟩, hl⟩ := (C57_foreground_accepts cfg hv data f).1 h
  obtain ⟨c, d, rfl⟩ := hostNumber_two h5
  refine ⟨head ++ wire, c, d, junk, by simp, (hostPair_form _ _ _ _).1 h5, fun c' d' behind' hb => ?_⟩
  refine (C57_foreground_accepts cfg hv _ _).2 ⟨head, wire, [c', d'], behind', by simp,
    ⟨h1, h2, h3, h4, (hostPair_form _ _ _ _).2 rfl⟩, hb.trans hl⟩

/-- **C77** does not hold: whatever way to compute a checksum from the bytes in front of it, background frames with
another one are accepted. -/
theorem C77_background_violates (cfg : Cfg) :
    ¬ ∃ sum : List U8 → U8 × U8, ∀ front c d f,
      BackgroundFrame.tryFrom cfg (front ++ [c, d]) = .ok f → (c, d) = sum front := by
  rintro ⟨sum, h⟩
  obtain ⟨f, hf⟩ := (C31_accepts cfg ([0x12, 0xAA, 0x34, 0x12] ++ [0, 0])).2 rfl
  obtain ⟨g, hg⟩ := (C31_accepts cfg ([0x12, 0xAA, 0x34, 0x12] ++ [0, 1])).2 rfl
  have := (h _ _ _ _ hf).trans (h _ _ _ _ hg).symm
  revert this
  decide

/-- The bytes in front of the last two of a foreground frame that is accepted, whatever those are. -/
def Spec.frontOf (cfg : Cfg) : List U8 :=
  if cfg.variant = .wizzilab then
    [0x0A, 0x05, 0x40, 0, 0, 0, 0, 0, 0, 0] ++ (if cfg.endCounts && cfg.seekClears then [0] else [])
  else [0x01, 0x05, 0x40, 0, 0, 0, 0, 0, 0]

/-- **C77** does not hold: nor is there a checksum which all foreground frames that are accepted have, in any build. -/
theorem C77_foreground_violates (cfg : Cfg) :
    ¬ ∃ sum : List U8 → U8 × U8, ∀ front c d f,
      ForegroundFrame.tryFrom cfg (front ++ [c, d]) = .ok f → (c, d) = sum front := by
  rintro ⟨sum, h⟩
  have ok : ∀ d : U8, d = 0 ∨ d = 1 → (ForegroundFrame.tryFrom cfg (Spec.frontOf cfg ++ [0, d])).isOk = true := by
    clear h
    rcases cfg with ⟨v, a, b, c, e⟩
    rintro d (rfl | rfl) <;> cases v <;> revert a b c e <;> decide +kernel
  have key : ∀ d, d = 0 ∨ d = 1 → (0, d) = sum (Spec.frontOf cfg) := by
    intro d hd
    cases hx : ForegroundFrame.tryFrom cfg (Spec.frontOf cfg ++ [0, d]) with
    | ok f => exact h _ _ _ _ hx
    | error e => have := ok d hd; rw [hx] at this; cases this
  have := (key 0 (.inl rfl)).trans (key 1 (.inr rfl)).symm
  revert this
  decide

example : BackgroundFrame.tryFrom spec [0x12, 0xAA, 0x34, 0x12, 0xCD, 0xAB] = .ok Sample.background ∧
    BackgroundFrame.tryFrom spec [0x12, 0xAA, 0x34, 0x12, 0x01, 0x02] = .ok { Sample.background with crc16 := 0x0201 } := by
  decide +kernel
example : (ForegroundFrame.tryFrom spec' [0x01, 0x05, 0x40, 0, 0, 0, 0, 0, 0, 0xBE, 0xEF]).isOk = true := by decide +kernel

#print axioms C77_background_partial
#print axioms C77_foreground_partial
#print axioms C77_background_violates
#print axioms C77_foreground_violates

end Dash7
