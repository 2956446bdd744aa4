import Verif.Lemmas.FlipLarge
import Verif.Props.Flip
import Verif.Props.Layout

/-!
# C86: a flipped bit of an action carrying an access profile or a large PHY status
-/

namespace Dash7

open Sample
open Ignored (heed skip)

/-- For an action that carries a file: the bytes in front of the length of the file. -/
def Ignored.before : Action → Nat
  | .writeFileData o | .writeFileDataFlush o | .returnFileData o => 3 + Spec.lengthExtra o.offset.offset.val.toNat
  | _ => 0

/-! ## The bits of such an action -/

theorem length_selector (n : Nat) (hn : n < 2 ^ 30) (r : List U8) :
    Form.field 2 (Spec.lengthExtra n) ((Form.ofBytes (Spec.length n ++ r)).take 2) := by
  have h4 : Spec.lengthExtra n < 2 ^ 2 := by unfold Spec.lengthExtra; split <;> (try split) <;> (try split) <;> omega
  have hb : n < 2 ^ (6 + 8 * Spec.lengthExtra n) := by
    unfold Spec.lengthExtra
    split
    · assumption
    · split
      · assumption
      · split <;> assumption
  rw [Form.ofBytes_append, Form.ofBytes_eq, Spec.length, Spec.lengthWith, bytesBits_bigEndian,
    show 8 * (Spec.lengthExtra n + 1) = 2 + (6 + 8 * Spec.lengthExtra n) by omega, natBits_append, Nat.add_comm (_ * _),
    Nat.add_mul_div_right _ _ (Nat.two_pow_pos _), Nat.div_eq_of_lt hb, Nat.zero_add, List.append_assoc,
    List.take_left' (natBits_length 2 _)]
  exact ⟨natBits_length 2 _, by rw [Form.value_eq, bitsNat_natBits_of_lt h4]⟩

theorem Wire.join_some {p : Option (List U8)} {ps : List (Option (List U8))} {x : List U8}
    (h : Wire.join (p :: ps) = some x) : ∃ a b, p = some a ∧ Wire.join ps = some b ∧ x = a ++ b := by
  cases p with
  | none => cases h
  | some a =>
    rw [Wire.join] at h
    cases hb : Wire.join ps with
    | none => rw [hb] at h; cases h
    | some b => rw [hb] at h; cases h; exact ⟨a, b, rfl, rfl, rfl⟩

/-- Where the two lengths are in the encoding. -/
theorem Wire.fileData_lengths {big : Bool} {code : Nat} {o : Op.FileData} {x : List U8}
    (h : Wire.fileData big code o = some x) : ∃ b z, Wire.file big o.data = some z ∧
      o.offset.offset.val.toNat < 2 ^ 30 ∧ z.length % 2 ^ 32 < 2 ^ 30 ∧
      x = [b, o.offset.fileId] ++ (Spec.length o.offset.offset.val.toNat ++ (Spec.length (z.length % 2 ^ 32) ++ z)) := by
  unfold Wire.fileData at h
  obtain ⟨a, b, ha, hb, rfl⟩ := Wire.join_some h
  obtain ⟨c, d, hc, hd, rfl⟩ := Wire.join_some hb
  obtain ⟨e, f, he, hf, rfl⟩ := Wire.join_some hd
  cases hf
  obtain ⟨i, j, hi, hj, rfl⟩ := Wire.join_some (by exact hc)
  cases hi
  obtain ⟨k, l, hk, hl, rfl⟩ := Wire.join_some hj
  cases hl
  unfold Wire.prefixed at he
  cases hz : Wire.file big o.data with
  | none => rw [hz] at he; cases he
  | some z =>
    rw [hz] at he
    obtain ⟨m, n, hm, hn, rfl⟩ := Wire.join_some he
    obtain ⟨p, q, hp, hq, rfl⟩ := Wire.join_some hn
    cases hq
    cases hp
    unfold Wire.length at hk hm
    split at hk <;> cases hk
    split at hm <;> cases hm
    have ha' : ∃ b0, a = [b0] := by
      unfold Wire.header Wire.action1 Wire.byte Wire.packed at ha
      injection ha with ha
      exact ⟨_, ha.symm⟩
    obtain ⟨b0, rfl⟩ := ha'
    exact ⟨b0, z, rfl, by assumption, by assumption, by simp⟩

/-- What is used of an action that carries a large file. -/
structure Ignored.Large (cfg : Cfg) (a : Action) (code : Nat) (o : Op.FileData) : Prop where
  form : Form.action cfg a = Form.fileData cfg.bigEndianHost code o
  wire : Wire.action cfg.variant cfg.bigEndianHost a = Wire.fileData cfg.bigEndianHost code o
  marks : Ignored.action cfg.variant a = heed 8 ++ Ignored.fileOffset o.offset ++ Ignored.sized (Ignored.content o.data)
  before : Ignored.before a = 3 + Spec.lengthExtra o.offset.offset.val.toNat
  tx : a.isTx = false
  any : ∀ big b n n' c, Form.file big b n o.data c → Form.file big b n' o.data c
  size : ∀ n, Size.file o.data = some n → 64 ≤ n ∧ n < 2 ^ 14
  id : ∀ big b n c, Form.file big b n o.data c → b < 64
  op : a = .writeFileData o ∨ a = .writeFileDataFlush o ∨ a = .returnFileData o

theorem Ignored.Large.of {cfg : Cfg} {a : Action} (hw : a.WF cfg) (h : Ignored.large a = true) :
    ∃ code o, Ignored.Large cfg a code o := by
  have data : ∀ f : File, (∀ p, f = .phyStatus p → p.channelStatus.length < 256) → (match f with
        | .accessProfile _ _ => true
        | .phyStatus p => decide (17 ≤ p.channelStatus.length)
        | _ => false) = true →
      Ignored.file f = Ignored.sized (Ignored.content f) ∧
      (∀ big b n n' c, Form.file big b n f c → Form.file big b n' f c) ∧
      (∀ n, Size.file f = some n → 64 ≤ n ∧ n < 2 ^ 14) ∧
      ∀ big b n c, Form.file big b n f c → b < 64 := by
    intro f hp hf
    cases f with
    | accessProfile i p =>
      refine ⟨rfl, fun _ _ _ _ _ h => h, fun n hn => ?_, fun _ b _ c h => ?_⟩
      rotate_left
      · obtain ⟨_, _, -, ⟨-, h⟩, -⟩ := h
        have := i.isLt
        omega
      simp only [Size.file] at hn
      split at hn <;> cases hn
      omega
    | phyStatus p =>
      have := hp p rfl
      refine ⟨rfl, fun _ _ _ _ _ h => h, fun n hn => ?_, fun _ b _ c h => ?_⟩
      rotate_left
      · obtain ⟨_, _, -, ⟨-, h⟩, -⟩ := h
        omega
      simp only [decide_eq_true_eq] at hf
      cases hn
      omega
    | _ => cases hf
  have key : ∀ o : Op.FileData, (∃ fid, File.WF fid o.data) → ∀ p, o.data = .phyStatus p → p.channelStatus.length < 256 := by
    rintro o ⟨fid, hf⟩ p hp
    rw [hp] at hf
    rw [← hf.2.1]; exact p.channelStatusListLength.isLt
  cases a with
  | writeFileData o =>
    obtain ⟨h1, h2, h3, h4⟩ := data o.data (key o ⟨_, hw.2.2⟩) h
    exact ⟨4, o, rfl, rfl, by simp only [Ignored.action, h1], rfl, rfl, h2, h3, h4, .inl rfl⟩
  | writeFileDataFlush o =>
    obtain ⟨h1, h2, h3, h4⟩ := data o.data (key o ⟨_, hw.2.2⟩) h
    exact ⟨5, o, rfl, rfl, by simp only [Ignored.action, h1], rfl, rfl, h2, h3, h4, .inr (.inl rfl)⟩
  | returnFileData o =>
    obtain ⟨h1, h2, h3, h4⟩ := data o.data (key o ⟨_, hw.2.2⟩) h
    exact ⟨32, o, rfl, rfl, by simp only [Ignored.action, h1], rfl, rfl, h2, h3, h4, .inr (.inr rfl)⟩
  | _ => cases h

/-- The decoder, in terms of the parts. -/
theorem Ignored.Large.tryFrom {cfg : Cfg} {a : Action} {code : Nat} {o : Op.FileData} (h : Ignored.Large cfg a code o)
    (y : List U8) : Action.tryFrom cfg y = .ok a ↔
      ∃ c junk, (∃ k k', Form.FileParts cfg.bigEndianHost code o (Form.ofBytes y) k k' c junk) ∧ junk.length ≤ 8 := by
  rw [C54_try_from, h.tx, h.form]
  constructor
  · rintro ⟨w, junk, hy, hf, hj⟩
    obtain ⟨k, k', c, hp⟩ := Form.parts_of (fun n c => h.any _ _ n 0 c) hy hf
    exact ⟨c, junk, ⟨k, k', hp⟩, hj⟩
  · rintro ⟨c, junk, ⟨k, k', hp⟩, hj⟩
    obtain ⟨w, hy, hf⟩ := Form.of_parts (fun n c => h.any _ _ 0 n c) hp
    exact ⟨w, junk, hy, hf, hj⟩

/-- The parts of the encoding. -/
theorem Ignored.Large.parts {cfg : Cfg} {a : Action} {code : Nat} {o : Op.FileData} (h : Ignored.Large cfg a code o)
    (hw : a.WF cfg) {x : List U8} (hx : a.toBytes cfg = .ok x) :
    ∃ c, Form.FileParts cfg.bigEndianHost code o (Form.ofBytes x) (Spec.lengthExtra o.offset.offset.val.toNat) 1 c [] ∧
      c.length = (Ignored.content o.data).length ∧ (Ignored.content o.data).length / 8 < 2 ^ 14 ∧
      64 ≤ (Ignored.content o.data).length / 8 := by
  have hb := C51_action_layout cfg a h.tx
  rw [hx, h.wire] at hb
  cases hd : Wire.fileData cfg.bigEndianHost code o with
  | none => rw [hd] at hb; cases hb
  | some x' =>
    rw [hd] at hb
    injection hb with hb
    subst hb
    obtain ⟨b, z, hz, hn, -, e⟩ := Wire.fileData_lengths hd
    have hs := Size.of_file cfg.bigEndianHost o.data
    rw [hz] at hs
    have hs := hs.symm
    have hm := Marked.content o.data _ hs
    obtain ⟨hN, hN'⟩ := h.size _ hs
    rw [Nat.mod_eq_of_lt (by omega)] at e
    have h1 : Spec.lengthExtra z.length = 1 := by
      unfold Spec.lengthExtra
      rw [if_neg (by omega), if_pos (by omega)]
    obtain ⟨x'', hx'', hr⟩ := C02_action_roundtrip cfg a hw
    rw [hx] at hx''; cases hx''
    obtain ⟨c, junk, ⟨k, k', hp⟩, -⟩ := (h.tryFrom x).1 hr
    have hl1 : (Spec.length o.offset.offset.val.toNat).length = 1 + Spec.lengthExtra o.offset.offset.val.toNat := by
      rw [Spec.length, Spec.lengthWith, Spec.bigEndian_length]; omega
    have hl2 : (Spec.length z.length).length = 2 := by
      rw [Spec.length, Spec.lengthWith, Spec.bigEndian_length, h1]
    have hk : k = Spec.lengthExtra o.offset.offset.val.toNat := by
      have h2 := hp.sel
      have h3 := length_selector o.offset.offset.val.toNat hn (Spec.length z.length ++ z)
      rw [e, Form.ofBytes_append, List.drop_left' (by rw [Form.ofBytes_length]; rfl)] at h2
      exact h2.2.symm.trans h3.2
    subst hk
    have hk' : k' = 1 := by
      have h2 := hp.sel'
      have h3 := length_selector z.length (by omega) z
      rw [e, ← List.append_assoc, Form.ofBytes_append,
        List.drop_left' (by rw [Form.ofBytes_length, List.length_append, hl1]; simp only [List.length_cons, List.length_nil]; omega)] at h2
      rw [h1] at h3
      exact h2.2.symm.trans h3.2
    subst hk'
    have hlen := congrArg List.length hp.pre
    have hc := (Tight.file cfg.bigEndianHost o.offset.fileId.toNat 0 o.data).min c hp.content
    rw [List.length_drop, List.length_append, Form.ofBytes_length, e] at hlen
    simp only [List.length_append, hl1, hl2, List.length_cons, List.length_nil] at hlen
    have : junk = [] := List.eq_nil_of_length_eq_zero (by omega)
    subst this
    exact ⟨c, hp, by simp only [List.length_nil] at hlen; omega, by omega, by omega⟩

/-- No fewer bytes do for a number. -/
theorem lengthExtra_min (n k : Nat) (hk : k < 4) (hn : n < 2 ^ (6 + 8 * k)) : Spec.lengthExtra n ≤ k := by
  have e0 : (2 : Nat) ^ (6 + 8 * 0) = 2 ^ 6 := rfl
  have e1 : (2 : Nat) ^ (6 + 8 * 1) = 2 ^ 14 := rfl
  have e2 : (2 : Nat) ^ (6 + 8 * 2) = 2 ^ 22 := rfl
  unfold Spec.lengthExtra
  have : k = 0 ∨ k = 1 ∨ k = 2 ∨ k = 3 := by omega
  rcases this with rfl | rfl | rfl | rfl
  · rw [e0] at hn; repeat (first | omega | split)
  · rw [e1] at hn; repeat (first | omega | split)
  · rw [e2] at hn; repeat (first | omega | split)
  · repeat (first | omega | split)

/-- The form of such an action with its length in two bytes has the marks of the action. -/
theorem Ignored.Large.tight {cfg : Cfg} {a : Action} {code : Nat} {o : Op.FileData} (h : Ignored.Large cfg a code o)
    (hN : 64 ≤ (Ignored.content o.data).length / 8) (hN' : (Ignored.content o.data).length / 8 < 2 ^ 14) :
    Tight (Form.fileDataTwo cfg.bigEndianHost code o) (Ignored.action cfg.variant a) := by
  have h1 : Spec.lengthExtra ((Ignored.content o.data).length / 8) = 1 := by
    unfold Spec.lengthExtra
    rw [if_neg (by omega), if_pos (by omega)]
  refine (Tight.after (Rigid.header _) (Tight.after (Rigid.opcode _ _) (Tight.cons (Tight.fileOffset _)
    (Tight.after (Rigid.field 2 1) (Tight.cons (Tight.reserved 14) (Tight.last (Tight.file _ _ _ _))))))).cast ?_
  rw [h.marks, Ignored.sized, Ignored.size, h1]
  marks

/-! ## C86 -/

/-- **C86** for actions carrying an access profile or a PHY status of 64 bytes or more: the same holds of every bit but one,
the second of those telling how long the length of the file is. -/
theorem C86_large_partial (cfg : Cfg) (a : Action) (hw : a.WF cfg) (hl : Ignored.large a = true)
    (x : List U8) (hx : a.toBytes cfg = .ok x) (i : Nat) (hi : i < 8 * x.length) (hs : i ≠ 8 * Ignored.before a + 1) :
    Action.tryFrom cfg (Ignored.flip x i) = .ok a ↔ (Ignored.action cfg.variant a)[i]? = some true := by
  obtain ⟨code, o, h⟩ := Ignored.Large.of hw hl
  obtain ⟨c, hp, hc, hN', hN⟩ := h.parts hw hx
  have tight := h.tight hN hN'
  have hm := Ignored.action_length hw hx
  rw [h.before] at hs
  have step : Action.tryFrom cfg (Ignored.flip x i) = .ok a ↔
      Form.fileDataTwo cfg.bigEndianHost code o (Form.ofBytes (Ignored.flip x i)) := by
    constructor
    · intro hr
      obtain ⟨c', junk, ⟨k, k', hp'⟩, -⟩ := (h.tryFrom _).1 hr
      rw [Ignored.flip_bits] at hp' ⊢
      exact hp.flip (fun k hk hn => lengthExtra_min _ k hk hn) (fun c' hc' => by rw [hc]; exact (Tight.file _ _ _ _).min c' hc')
        (by rw [Form.ofBytes_length]; exact hi) (by omega) hp'
    · intro hf
      rw [C54_try_from, h.form]
      exact ⟨_, [], by simp, Form.two_all (fun n c => h.any _ _ 0 n c) hf, by simp⟩
  rw [step]
  exact tight.flip hi hp.two hm

/-- **C86** The one bit left: it goes unnoticed just if it would go unnoticed that the second byte of the length is sent
twice. -/
theorem C86_selector (cfg : Cfg) (a : Action) (hw : a.WF cfg) (hl : Ignored.large a = true) (x : List U8)
    (hx : a.toBytes cfg = .ok x) :
    Action.tryFrom cfg (Ignored.flip x (8 * Ignored.before a + 1)) = .ok a ↔
      Action.tryFrom cfg (x.take (Ignored.before a + 2) ++ x.drop (Ignored.before a + 1)) = .ok a := by
  obtain ⟨code, o, h⟩ := Ignored.Large.of hw hl
  obtain ⟨c, hp, -⟩ := h.parts hw hx
  have hd : Form.ofBytes (x.take (Ignored.before a + 2) ++ x.drop (Ignored.before a + 1)) =
      (Form.ofBytes x).take (40 + 8 * Spec.lengthExtra o.offset.offset.val.toNat) ++
        (Form.ofBytes x).drop (32 + 8 * Spec.lengthExtra o.offset.offset.val.toNat) := by
    have hlong := hp.long
    rw [Form.ofBytes_length] at hlong
    have split : ∀ n, n ≤ x.length → (Form.ofBytes x).take (8 * n) = Form.ofBytes (x.take n) ∧
        (Form.ofBytes x).drop (8 * n) = Form.ofBytes (x.drop n) := by
      intro n hn
      have e := congrArg Form.ofBytes (List.take_append_drop n x)
      rw [Form.ofBytes_append] at e
      have hl : (Form.ofBytes (x.take n)).length = 8 * n := by rw [Form.ofBytes_length, List.length_take]; omega
      exact ⟨by rw [← e]; exact List.take_left' hl, by rw [← e]; exact List.drop_left' hl⟩
    rw [Form.ofBytes_append, h.before,
      show 40 + 8 * Spec.lengthExtra o.offset.offset.val.toNat = 8 * (3 + Spec.lengthExtra o.offset.offset.val.toNat + 2) by omega,
      show 32 + 8 * Spec.lengthExtra o.offset.offset.val.toNat = 8 * (3 + Spec.lengthExtra o.offset.offset.val.toNat + 1) by omega,
      (split _ (by omega)).1, (split _ (by omega)).2]
  rw [h.tryFrom, h.tryFrom, hd, Ignored.flip_bits, h.before,
    show 8 * (3 + Spec.lengthExtra o.offset.offset.val.toNat) + 1 = 25 + 8 * Spec.lengthExtra o.offset.offset.val.toNat by omega]
  simp only [hp.selector, hp.doubled]

/-! ## Commands -/

theorem Form.actions_pair (cfg : Cfg) (as bs : List Action) (w : List Bool) :
    Form.actions cfg (as ++ bs) w ↔ ∃ x y, w = x ++ y ∧ Form.actions cfg as x ∧ Form.actions cfg bs y := by
  rw [Form.actions, List.map_append, Form.all_append]; rfl

/-- An encoding has the form of what it encodes. -/
theorem Form.encoded {cfg : Cfg} {as : List Action} (h : ∀ a ∈ as, a.WF cfg) :
    ∃ x : List U8, (Command.mk as).toBytes cfg = .ok x ∧ W.list (Action.write cfg) as = .ok (bytesBits x) ∧
      Form.actions cfg as (Form.ofBytes x) := by
  suffices hs : ∃ x : List U8, W.list (Action.write cfg) as = .ok (bytesBits x) ∧
      Form.actions cfg as (Form.ofBytes x) by
    obtain ⟨x, h1, h2⟩ := hs
    refine ⟨x, ?_, h1, h2⟩
    show W.toBytes (W.list (Action.write cfg) as) = _
    rw [h1, W.toBytes, packBits_bytesBits]
  induction as with
  | nil => exact ⟨[], rfl, rfl⟩
  | cons a as ih =>
    obtain ⟨x, h1, h2⟩ := ih fun x hx => h x (by simp [hx])
    obtain ⟨bs, hw, h8, -, hd⟩ := Action.decode_write (h a (by simp))
    obtain ⟨bytes, hb, rfl⟩ := W.toBytes_ok hw h8
    refine ⟨bytes ++ x, ?_, ?_⟩
    · rw [bytesBits_append]
      exact W.seq_cons_ok.2 ⟨_, _, hw, h1, rfl⟩
    · rw [Form.ofBytes_append]
      exact ⟨_, _, rfl, by rw [Form.ofBytes_eq]; exact (Action.decode_iff cfg a _ []).1 (hd []), h2⟩

/-- Only one way to read an action at the head of the input. -/
theorem Form.action_prefix {cfg : Cfg} {a : Action} {w w' r r' : List Bool} (h : Form.action cfg a w)
    (h' : Form.action cfg a w') (e : w ++ r = w' ++ r') : w = w' := by
  have h1 := (Action.decode_iff cfg a w r).2 h
  have h2 := (Action.decode_iff cfg a w' r').2 h'
  rw [← e, h1] at h2
  injection h2 with h2
  injection h2 with _ h2
  subst h2
  exact List.append_cancel_right e

theorem Form.actions_prefix {cfg : Cfg} {as : List Action} : ∀ {w w' r r' : List Bool}, Form.actions cfg as w →
    Form.actions cfg as w' → w ++ r = w' ++ r' → w = w' := by
  induction as with
  | nil => rintro w w' r r' rfl rfl _; rfl
  | cons a as ih =>
    rintro w w' r r' ⟨x, y, rfl, hx, hy⟩ ⟨x', y', rfl, hx', hy'⟩ e
    rw [List.append_assoc, List.append_assoc] at e
    have := Form.action_prefix hx hx' e
    subst this
    rw [ih hy hy' (List.append_cancel_left e)]

theorem Form.actions_dvd {cfg : Cfg} {as : List Action} (h : ∀ a ∈ as, a.isTx = false) : ∀ {w : List Bool},
    Form.actions cfg as w → 8 ∣ w.length := by
  induction as with
  | nil => rintro w rfl; exact Nat.dvd_zero 8
  | cons a as ih =>
    rintro w ⟨x, y, rfl, hx, hy⟩
    obtain ⟨c, e, hd, -⟩ := Action.decode_ok ((Action.decode_iff cfg a x []).2 hx)
    rw [List.append_nil, List.append_nil] at e
    subst e
    rw [List.length_append]
    exact Nat.dvd_add (hd.dvd (h a (by simp))) (ih (fun b hb => h b (by simp [hb])) hy)

/-- The action of `C86_selector_violates` meets the hypotheses. Its bit 25 is the one left out; bit 24 in front of it is
noticed, bit 26 behind it is not. -/
example : echo.WF spec ∧ Ignored.large echo = true ∧ 8 * Ignored.before echo + 1 = 25 ∧
    (∃ x, echo.toBytes spec = .ok x ∧ 26 < 8 * x.length) ∧
    (Ignored.action .spec echo)[24]? = some false ∧ (Ignored.action .spec echo)[26]? = some true :=
  ⟨by decide +kernel, rfl, rfl, ⟨[0x04, 0x20, 0x00, 0x40, 0x41, 0x41, 0x41] ++ List.replicate 63 0x10, by decide +kernel,
    by decide +kernel⟩, by decide +kernel, by decide +kernel⟩

/-- Most access profiles are not mistaken: with other content the bit is noticed. -/
example : Action.tryFrom spec ([0x04, 0x20, 0x00, 0x40, 0x41] ++ List.replicate 65 0x10) ≠
      Action.tryFrom spec (Ignored.flip ([0x04, 0x20, 0x00, 0x40, 0x41] ++ List.replicate 65 0x10) 25) ∧
    (Action.tryFrom spec ([0x04, 0x20, 0x00, 0x40, 0x41] ++ List.replicate 65 0x10)).isOk = true := by decide +kernel

end Dash7

#print axioms Dash7.C86_large_partial
#print axioms Dash7.C86_selector
