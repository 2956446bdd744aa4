import Verif.Lemmas.Hope3
import Verif.Lemmas.Accept7
import Verif.Lemmas.Enough
import Verif.Spec.Hopeless

/-!
# Exactly when more input can complete file data and TX states
-/

namespace Dash7

/-! ## One reader after the other -/

theorem HopeX.next {α β : Type} {k j : Nat} {p : P α} {g : α → P β} {Y : α → List Bool → Prop}
    (hp : Hope k j p) (hg : ∀ a, HopeX j (g a) (Y a)) :
    HopeX k (p.bind g) fun s => ∃ a s', p.eval s = .ok (a, s') ∧ Y a s' := by
  refine (HopeX.bind hp fun a _ => hg a).mono ?_
  rintro s ⟨a, s', he, ⟨h, -⟩ | h⟩
  · exact absurd trivial h
  · exact ⟨a, s', he, h⟩

theorem HopeX.front {α β : Type} {k j l : Nat} {p : P α} {g : α → P β} {X : List Bool → Prop}
    (hp : HopeX k p X) (hw : Post p fun _ n => (k + n) % 8 = j % 8) (hg : ∀ a, Hope j l (g a)) :
    HopeX k (p.bind g) X where
  can := by
    obtain ⟨s, a, he⟩ := hp.can
    obtain ⟨t, b, -, he'⟩ := (hg a).can
    refine ⟨s ++ t, b, ?_⟩
    rw [P.eval_bind, p.eval_extend he]
    exact he'
  more := by
    intro s hs he
    rw [P.eval_bind] at he
    split at he
    · rename_i a s' ha
      have hl : 8 ∣ j + s'.length := by
        obtain ⟨c, rfl, -⟩ := p.eval_ok ha
        have : (k + c.length) % 8 = j % 8 := hw _ _ _ ha
        rw [List.length_append] at hs
        omega
      obtain ⟨t, b, -, hb⟩ := (hg a).more s' hl he
      refine .inr ⟨t, b, ?_⟩
      rw [P.eval_bind, p.eval_extend ha]
      exact hb
    · rename_i e ha
      cases he
      rcases hp.more s hs ha with h | ⟨t, a, ha⟩
      · exact .inl h
      · obtain ⟨t', b, -, hb⟩ := (hg a).can
        refine .inr ⟨t ++ t', b, ?_⟩
        rw [P.eval_bind, ← List.append_assoc, p.eval_extend ha]
        exact hb

theorem HopeX.self {α : Type} {k : Nat} {p : P α} (hc : ∃ s a, p.eval s = .ok (a, [])) :
    HopeX k p fun s => p.eval s = .error .incomplete ∧ ¬ ∃ t a, p.eval (s ++ t) = .ok (a, []) where
  can := hc
  more := fun _ _ he => (Classical.em _).symm.imp_left fun h => ⟨he, h⟩

theorem Fits.took {α : Type} {p : P α} {F : α → Form} (h : Fits p F) {s s' : List Bool} {a : α}
    (he : p.eval s = .ok (a, s')) : ∃ c, s = c ++ s' ∧ F a c := by
  obtain ⟨c, hc, -⟩ := p.eval_ok he
  subst hc
  exact ⟨c, rfl, (h a c s').1 he⟩

theorem Fits.whole {α : Type} {p : P α} {F : α → Form} (h : Fits p F) (a : α) (c : List Bool) :
    p.eval c = .ok (a, []) ↔ F a c := by
  have := h a c []
  rwa [List.append_nil] at this

/-! ## File data -/

open Spec (LostVersion LostFileData LostTxStatus)

theorem firmware_can : ∃ s a, FirmwareVersion.read.eval s = .ok (a, []) := by
  have h : (FirmwareVersion.read.eval (List.replicate 120 false)).isOk = true := by decide +kernel
  cases he : FirmwareVersion.read.eval (List.replicate 120 false) with
  | error e => rw [he] at h; cases h
  | ok x =>
    obtain ⟨v, s'⟩ := x
    have := (FirmwareVersion.post.mono fun _ _ h => h.2).drops he
    subst this
    exact ⟨_, v, he⟩

theorem P.bind_inv {α β : Type} {p : P α} {g : α → P β} {s s' : List Bool} {b : β}
    (h : (p.bind g).eval s = .ok (b, s')) : ∃ a s1, p.eval s = .ok (a, s1) ∧ (g a).eval s1 = .ok (b, s') := by
  rw [P.eval_bind] at h
  split at h
  · rename_i a s1 ha
    exact ⟨a, s1, ha, h⟩
  · cases h

theorem anyLength_read {c : List Bool} (h : Form.anyLength c) :
    ∃ l, ∀ s, Length.read.eval (c ++ s) = .ok (l, s) := by
  obtain ⟨n, h⟩ := h
  have hn : n < 2 ^ 32 := by
    obtain ⟨k, hk, x, y, rfl, -, y', z, rfl, ⟨hl, hv⟩, -⟩ := h
    rw [Form.value_eq] at hv
    have := bitsNat_lt y'
    rw [hv, hl] at this
    exact Nat.lt_of_lt_of_le this (Nat.pow_le_pow_right (by decide) (by omega))
  refine ⟨⟨BitVec.ofNat 32 n⟩, fun s => (Length.fits _ _ _).2 ?_⟩
  show Form.length (BitVec.ofNat 32 n).toNat c
  rwa [BitVec.toNat_ofNat, Nat.mod_eq_of_lt hn]

theorem length_any {s s' : List Bool} {l : Length} (h : Length.read.eval s = .ok (l, s')) :
    ∃ c, s = c ++ s' ∧ Form.anyLength c := by
  obtain ⟨c, hc, hf⟩ := Length.fits.took h
  exact ⟨c, hc, _, hf⟩

theorem u8_took {s s' : List Bool} {b : U8} (h : P.u8.eval s = .ok (b, s')) :
    ∃ c, s = c ++ s' ∧ Form.field 8 b.toNat c := Fits.u8.took h

theorem took_len {α : Type} {p : P α} {n : Nat} (h : Post p fun _ m => m = n) {s s' : List Bool} {a : α}
    (he : p.eval s = .ok (a, s')) : ∃ c, s = c ++ s' ∧ c.length = n := by
  obtain ⟨c, rfl, -⟩ := p.eval_ok he
  exact ⟨c, rfl, h _ _ _ he⟩

/-- A reader of so many bits, at bits of this number. -/
theorem took_at {α : Type} {p : P α} {n : Nat} (h : Post p fun _ m => m = n) {c s s' : List Bool} {a : α}
    (hc : c.length = n) (he : p.eval (c ++ s) = .ok (a, s')) : s' = s := by
  rw [h.drops he, ← hc, List.drop_left]

theorem lostVersion_of {s : List Bool} (hi : FirmwareVersion.read.eval s = .error .incomplete)
    (hno : ¬ ∃ t a, FirmwareVersion.read.eval (s ++ t) = .ok (a, [])) : LostVersion s := by
  refine ⟨Nat.lt_of_not_le fun h => ?_, fun v more hv => hno ⟨more, v, (FirmwareVersion.fits.whole _ _).2 hv⟩⟩
  rcases FirmwareVersion.enough s h with ⟨f, hf⟩ | ⟨a, s', ha, -⟩
  · rw [hf] at hi; cases hi
  · rw [ha] at hi; cases hi

theorem lostVersion_no {s : List Bool} (h : LostVersion s) (t s' : List Bool) (v : FirmwareVersion) :
    FirmwareVersion.read.eval (s ++ t) ≠ .ok (v, s') := by
  intro he
  obtain ⟨c, hc, hf⟩ := FirmwareVersion.fits.took he
  have hl : c.length = 120 := (FirmwareVersion.post.mono fun _ _ h => h.2) c s' v (hc ▸ he)
  have hs : c = s ++ c.drop s.length := by
    have h1 := congrArg (List.take s.length) hc
    rw [List.take_left, List.take_append_of_le_length (by have := h.1; omega)] at h1
    have := List.take_append_drop s.length c
    rw [← h1] at this
    exact this.symm
  rw [hs] at hf
  exact h.2 v _ hf

theorem Op.FileData.hopeExact (cfg : Cfg) : HopeX 0 (FileData.read cfg) LostFileData := by
  unfold FileData.read FileOffset.read FileData.readData
  simp only [P.bind_eq, Ign.bind_assoc, P.pure_bind]
  refine HopeX.mono (HopeX.next (Y := fun _ s => ∃ o s', OpCode.read.eval s = .ok (o, s') ∧
      ∃ b s'', P.u8.eval s' = .ok (b, s'') ∧ b = 2 ∧ ∃ l s3, Length.read.eval s'' = .ok (l, s3) ∧
        ∃ n s4, Length.read.eval s3 = .ok (n, s4) ∧ FirmwareVersion.read.eval s4 = .error .incomplete ∧
          ¬ ∃ t a, FirmwareVersion.read.eval (s4 ++ t) = .ok (a, []))
    ActionHeader.hope fun h => HopeX.next OpCode.hope fun o => HopeX.next (j := 8) Hope.u8 fun b => ?_) ?_
  · by_cases hb : b = 2
    · subst hb
      refine HopeX.mono (HopeX.next Length.hope fun l => HopeX.next Length.hope fun n => ?_)
        (fun s h => ⟨rfl, h⟩)
      rw [show FileId.ofId 2 = .firmwareVersion from rfl]
      unfold File.read
      dsimp only
      simp only [P.bind_eq, Ign.bind_assoc, P.pure_bind]
      exact HopeX.map (HopeX.self firmware_can) _
    · exact HopeG.x (Hope.bind Length.hope fun l => Hope.bind Length.hope fun n =>
          Hope.bind (Hope.at (File.hope cfg _ _ (FileId.ofId_firmware hb)) (by decide)) fun _ => Hope.pure) _
  · rintro s ⟨h, s0, he0, o, s1, he1, b, s2, he2, rfl, l, s3, he3, n, s4, he4, hi, hno⟩
    obtain ⟨c0, rfl, h0⟩ := took_len (ActionHeader.post.mono fun _ _ h => h.2) he0
    obtain ⟨c1, rfl, h1⟩ := took_len (OpCode.post.mono fun _ _ h => h.2) he1
    obtain ⟨c2, rfl, h2⟩ := u8_took he2
    obtain ⟨c3, rfl, h3⟩ := length_any he3
    obtain ⟨c4, rfl, h4⟩ := length_any he4
    refine ⟨c0 ++ c1 ++ (c2 ++ (c3 ++ (c4 ++ []))), s4, by simp, lostVersion_of hi hno,
      ⟨_, _, rfl, ?_, _, _, rfl, h2, _, _, rfl, h3, _, _, rfl, h4, rfl⟩⟩
    show (c0 ++ c1).length = 8
    rw [List.length_append]
    omega

theorem Op.FileData.lost (cfg : Cfg) {s : List Bool} (h : LostFileData s) (t s' : List Bool) (o : FileData) :
    (FileData.read cfg).eval (s ++ t) ≠ .ok (o, s') := by
  intro he
  obtain ⟨wire, content, rfl, hno, ⟨c0, -, rfl, h0, c2, -, rfl, h2, c3, -, rfl, h3, c4, -, rfl, h4, rfl⟩⟩ := h
  unfold FileData.read FileOffset.read FileData.readData at he
  simp only [P.bind_eq, Ign.bind_assoc, P.pure_bind, List.append_assoc, List.nil_append] at he
  obtain ⟨h, s0, he0, he⟩ := P.bind_inv he
  obtain ⟨o, s1, he1, he⟩ := P.bind_inv he
  have hs1 : s1 = c2 ++ (c3 ++ (c4 ++ (content ++ t))) := by
    rw [(OpCode.post.mono fun _ _ h => h.2).drops he1, (ActionHeader.post.mono fun _ _ h => h.2).drops he0,
      List.drop_drop, show 2 + 6 = c0.length from h0.symm, List.drop_left]
  subst hs1
  rw [P.eval_bind, (Fits.u8 2 c2 _).2 h2] at he
  dsimp only at he
  obtain ⟨l, hl⟩ := anyLength_read h3
  obtain ⟨n, hn⟩ := anyLength_read h4
  rw [P.eval_bind, hl] at he
  dsimp only at he
  rw [P.eval_bind, hn] at he
  dsimp only at he
  rw [show FileId.ofId 2 = .firmwareVersion from rfl] at he
  unfold File.read at he
  dsimp only at he
  simp only [P.bind_eq, Ign.bind_assoc, P.pure_bind] at he
  obtain ⟨v, s2, hv, -⟩ := P.bind_inv he
  exact lostVersion_no hno _ _ _ hv

/-! ## TX states -/

/-- Numbers of which every beginning can be continued. -/
theorem Hope.enumAny {ε : Type} {k n : Nat} {ofId : U8 → Option ε} (hn : n ≤ 8)
    (h : ∀ x : List Bool, x.length < n → 8 ∣ k + x.length → ∃ t a, (P.enum n ofId).eval (x ++ t) = .ok (a, []))
    (hc : ∃ t a, (P.enum n ofId).eval t = .ok (a, [])) : Hope k (k + n) (P.enum n ofId) where
  can := let ⟨t, a, h⟩ := hc; ⟨t, a, trivial, h⟩
  more := by
    intro s hs he
    have hl : s.length < n := by
      unfold P.enum at he
      rw [P.eval_bind] at he
      unfold P.uint at he
      rw [if_neg (by omega), P.eval_bits] at he
      split at he
      · rename_i a s' hx
        split at he <;> cases he
      · rename_i e' hx
        split at hx
        · cases hx
        · omega
    obtain ⟨t, a, ht⟩ := h s hl hs
    exact ⟨t, a, trivial, ht⟩
  width := by
    intro c s a he
    obtain ⟨i, s1, h1, h2⟩ := P.bind_inv he
    have : s1 = s := by
      split at h2
      · cases h2; rfl
      · cases h2
    subst this
    have : c.length = n := (Post.uint.mono fun _ _ h => h.1) _ _ _ h1
    show (k + c.length) % 8 = (k + n) % 8
    omega

theorem ChannelHeader.hope6 : Hope 6 6 ChannelHeader.read := by
  unfold ChannelHeader.read ChannelBand.read ChannelClass.read ChannelCoding.read
  simp only [P.bind_eq]
  refine Hope.end (j := 6 + 1 + 3 + 2 + 2) ?_ (by decide)
  · refine Hope.bind Hope.pad fun _ => Hope.bind (Hope.enumAny (by decide) ?_ ?_) fun _ => ?_
    · intro x hx h8
      match x, hx, h8 with
      | [], _, h8 => simp at h8
      | [true], _, _ => exact ⟨[false, false], .band915, rfl⟩
      | [false], _, _ => exact ⟨[true, true], .band868, rfl⟩
      | [_, _], _, h8 => simp at h8
    · exact ⟨[false, true, true], .band868, rfl⟩
    · hope_run
theorem Channel.hope6 : Hope 6 6 Channel.read := by
  unfold Channel.read
  simp only [P.bind_eq]
  exact Hope.bind ChannelHeader.hope6 fun _ => Hope.end (Hope.bind (Hope.uint (by decide)) fun _ => Hope.pure) (by decide)

theorem Address.hope6 (t : AddressType) : Hope 6 6 (Address.read t) := by cases t <;> unfold Address.read <;> hope
theorem NlsState.hope6 (m : NlsMethod) : Hope 6 6 (NlsState.read m) := by cases m <;> unfold NlsState.read <;> hope
theorem AccessClass.hope6 : Hope 6 6 AccessClass.read := by unfold AccessClass.read; hope

theorem Addressee.hope6 (cfg : Cfg) (hv : cfg.variant = .wizzilab) : Hope 6 6 (Addressee.read cfg) := by
  obtain ⟨v, b, e, c, u⟩ := cfg
  cases hv
  unfold Addressee.read
  simp only [P.bind_eq]
  refine Hope.bind (j := 6) ?_ fun x => Hope.bind AccessClass.hope6 fun _ => Hope.bind (Address.hope6 _) fun _ =>
    Hope.bind (NlsState.hope6 _) fun _ => Hope.pure
  unfold Addressee.readCtlWizzilab AddressType.read NlsMethod.read NlsMethod.width GroupCondition.read
  hope

theorem InterfaceFinalStatusCode.hope6 : HopeX 6 InterfaceFinalStatusCode.read fun s => ∃ b, s = [b, !b] where
  can := ⟨List.replicate 8 false, ⟨0, .inl rfl⟩, rfl⟩
  more := by
    intro s hs he
    have hl : s.length < 8 := Nat.lt_of_not_le fun h => by
      unfold read at he
      simp only [P.bind_eq] at he
      rcases Enough.u8 s h with ⟨f, hf⟩ | ⟨a, s', ha, -⟩
      · rw [P.eval_bind, hf] at he; cases he
      · rw [P.eval_bind, ha] at he
        dsimp only at he
        split at he <;> cases he
    match s, hs, hl with
    | [], hs, _ => simp at hs
    | [_], hs, _ => simp at hs
    | [false, false], _, _ => exact .inr ⟨List.replicate 6 false, ⟨0, .inl rfl⟩, rfl⟩
    | [true, true], _, _ => exact .inr ⟨List.replicate 6 true, ⟨255, .inr (by decide)⟩, rfl⟩
    | [false, true], _, _ => exact .inl ⟨false, rfl⟩
    | [true, false], _, _ => exact .inl ⟨true, rfl⟩
    | _ :: _ :: _ :: _, hs, hl => simp at hs hl; omega

theorem InterfaceFinalStatusCode.width6 : Post InterfaceFinalStatusCode.read fun _ n => (6 + n) % 8 = 6 % 8 :=
  InterfaceFinalStatusCode.hope.width.mono fun _ _ h => by omega

/-- The error code, when it is reached, may be wrong. -/
theorem Dash7InterfaceTxStatus.hope6 (cfg : Cfg) (hv : cfg.variant = .wizzilab) :
    HopeX 6 (Dash7InterfaceTxStatus.read cfg) fun s => ∃ c b, c.length = 32 ∧ s = c ++ [b, !b] := by
  unfold Dash7InterfaceTxStatus.read
  simp only [P.bind_eq]
  refine HopeX.mono (HopeX.next Channel.hope6 fun c => HopeX.next (Hope.end (j' := 6) Hope.u8 (by decide)) fun t =>
    HopeX.front InterfaceFinalStatusCode.hope6 InterfaceFinalStatusCode.width6 fun e =>
      Hope.bind (Hope.end (j' := 6) Hope.pad (by decide)) fun _ =>
      Hope.bind (Hope.end (j' := 6) Hope.uintHost (by decide)) fun l =>
      Hope.bind (Addressee.hope6 cfg hv) fun a => Hope.pure) ?_
  rintro s ⟨c, s1, h1, t, s2, h2, b, rfl⟩
  obtain ⟨x, rfl, hx⟩ := took_len (Channel.post.mono fun _ _ h => h.2) h1
  obtain ⟨y, rfl, hy, -⟩ := u8_took h2
  exact ⟨x ++ y, b, by rw [List.length_append]; omega, by simp⟩

theorem OpCode.hope6 : Hope 0 6 OpCode.read := by unfold OpCode.read; hope

theorem Op.txInterface_hope : Hope 0 2 (P.enum 2 txStatusTypeOfId) :=
  Hope.enum (k := 0) (n := 2) (by decide) 1 (by decide) (by decide)

theorem Op.InterfaceTxStatusOperation.hope6 (cfg : Cfg) (hv : cfg.variant = .wizzilab) :
    HopeX 6 (InterfaceTxStatusOperation.read cfg) fun s =>
      ∃ c b, s = c ++ [b, !b] ∧ Form.all [Form.field 8 0xD7, Form.anyLength, Form.reserved 32] c := by
  unfold InterfaceTxStatusOperation.read InterfaceTxStatus.read
  simp only [P.bind_eq]
  refine HopeX.mono (HopeX.next (Y := fun i s => ∃ l s', Length.read.eval s = .ok (l, s') ∧ i = 0xD7 ∧
      ∃ c b, c.length = 32 ∧ s' = c ++ [b, !b])
    (Hope.end (j' := 6) Hope.u8 (by decide)) fun i => HopeX.next (Hope.end (j' := 6) Length.hope (by decide)) fun l => ?_) ?_
  · split
    · rename_i hi
      exact HopeX.map (HopeX.map ((Dash7InterfaceTxStatus.hope6 cfg hv).mono fun _ h => ⟨hi, h⟩) _) _
    · exact HopeX.map (HopeX.map (HopeG.x (Hope.bytes _) _) _) _
  · rintro s ⟨i, s1, h1, l, s2, h2, rfl, z, b, hz, rfl⟩
    obtain ⟨x, rfl, hx⟩ := u8_took h1
    obtain ⟨y, rfl, hy⟩ := length_any h2
    exact ⟨x ++ (y ++ (z ++ [])), b, by simp, _, _, rfl, hx, _, _, rfl, hy, _, _, rfl, hz, rfl⟩

theorem Op.TxStatusOperation.hopeExact (cfg : Cfg) (hv : cfg.variant = .wizzilab) :
    HopeX 0 (TxStatusOperation.read cfg) LostTxStatus := by
  unfold TxStatusOperation.read
  simp only [P.bind_eq]
  refine HopeX.mono (HopeX.next Op.txInterface_hope fun _ =>
    HopeX.next (Hope.end (j' := 0) Hope.pad (by decide)) fun _ =>
    HopeX.next OpCode.hope6 fun o => HopeX.map (InterfaceTxStatusOperation.hope6 cfg hv) _) ?_
  rintro s ⟨u, s1, h1, v, s2, h2, o, s3, h3, c, b, rfl, hc⟩
  obtain ⟨x, rfl, hx⟩ := took_len (Post.enum.mono fun _ _ h => h.1) h1
  obtain ⟨y, rfl, hy⟩ := took_len (Post.pad.mono fun _ _ h => h.1) h2
  obtain ⟨z, rfl, hz⟩ := took_len (OpCode.post.mono fun _ _ h => h.2) h3
  refine ⟨x ++ y ++ z ++ c, b, by simp, _, _, rfl, ?_, hc⟩
  show (x ++ y ++ z).length = 14
  simp only [List.length_append]
  omega

theorem InterfaceFinalStatusCode.lost (b : Bool) (t s' : List Bool) (c : InterfaceFinalStatusCode) :
    InterfaceFinalStatusCode.read.eval ([b, !b] ++ t) ≠ .ok (c, s') := by
  intro he
  unfold read at he
  simp only [P.bind_eq] at he
  obtain ⟨v, s1, h1, h2⟩ := P.bind_inv he
  obtain ⟨x, hx, hl, hv⟩ := u8_took h1
  have key : ∀ b b2 b3 b4 b5 b6 b7 : Bool, 64 ≤ bitsNat [b, !b, b2, b3, b4, b5, b6, b7] ∧
      bitsNat [b, !b, b2, b3, b4, b5, b6, b7] < 192 := by decide
  rw [Form.value_eq] at hv
  match x, hl with
  | [b0, b1, b2, b3, b4, b5, b6, b7], _ =>
    simp only [List.cons_append, List.nil_append, List.cons.injEq] at hx
    rw [← hx.1, ← hx.2.1] at hv
    have := key b b2 b3 b4 b5 b6 b7
    rw [dif_neg] at h2
    · cases h2
    · rintro (h | h)
      · rw [h] at hv
        have : bitsNat [b, !b, b2, b3, b4, b5, b6, b7] = 0 := hv
        omega
      · omega

theorem Op.TxStatusOperation.lost (cfg : Cfg) {s : List Bool} (h : LostTxStatus s) (t s' : List Bool)
    (o : TxStatusOperation) : (TxStatusOperation.read cfg).eval (s ++ t) ≠ .ok (o, s') := by
  intro he
  obtain ⟨wire, b, rfl, c0, -, rfl, h0, c1, -, rfl, h1, c2, -, rfl, h2, c3, -, rfl, h3, rfl⟩ := h
  unfold TxStatusOperation.read InterfaceTxStatusOperation.read InterfaceTxStatus.read Dash7InterfaceTxStatus.read at he
  simp only [P.bind_eq, Ign.bind_assoc, P.pure_bind, List.append_assoc, List.nil_append] at he
  obtain ⟨u, s0, he0, he⟩ := P.bind_inv he
  obtain ⟨v, s1, he1, he⟩ := P.bind_inv he
  obtain ⟨p, s2, he2, he⟩ := P.bind_inv he
  have hs : s2 = c1 ++ (c2 ++ (c3 ++ ([b, !b] ++ t))) := by
    rw [(OpCode.post.mono fun _ _ h => h.2).drops he2, (Post.pad.mono fun _ _ h => h.1).drops he1,
      (Post.enum.mono fun _ _ h => h.1).drops he0, List.drop_drop, List.drop_drop, show 2 + 6 + 6 = c0.length from h0.symm,
      List.drop_left]
  subst hs
  rw [P.eval_bind, (Fits.u8 0xD7 c1 _).2 h1] at he
  dsimp only at he
  obtain ⟨l, hl⟩ := anyLength_read h2
  rw [P.eval_bind, hl] at he
  dsimp only at he
  rw [if_pos rfl] at he
  simp only [Ign.bind_assoc, P.pure_bind] at he
  obtain ⟨ch, s3, he3, he⟩ := P.bind_inv he
  obtain ⟨lv, s4, he4, he⟩ := P.bind_inv he
  obtain ⟨e, s5, he5, -⟩ := P.bind_inv he
  have hs : s4 = [b, !b] ++ t := by
    obtain ⟨y, rfl, hy, -⟩ := u8_took he4
    have := (Channel.post.mono fun _ _ h => h.2).drops he3
    have := congrArg (List.drop 8) this
    rw [List.drop_drop, show 24 + 8 = c3.length from h3.symm, List.drop_left, ← hy, List.drop_left] at this
    exact this
  subst hs
  exact InterfaceFinalStatusCode.lost _ _ _ _ he5

end Dash7
