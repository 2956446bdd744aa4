import Verif.Props.FlipLarge

/-!
# For C86: a flipped bit shifts nothing that comes behind it
-/

namespace Dash7

open Ignored (heed skip)

namespace Form

/-- What is read at the head is read with more behind it. -/
theorem FileParts.more {big : Bool} {code : Nat} {o : Op.FileData} {y c : List Bool} {k k' : Nat}
    (h : FileParts big code o y k k' c []) (r : List Bool) : FileParts big code o (y ++ r) k k' c r := by
  have hl := h.long
  have part : ∀ j n, j + n ≤ y.length → ((y ++ r).drop j).take n = (y.drop j).take n := by
    intro j n hj
    rw [List.drop_append_of_le_length (by omega), List.take_append_of_le_length (by rw [List.length_drop]; omega)]
  refine ⟨h.hk, h.hk', by rw [List.length_append]; omega, ?_, ?_, ?_, ?_, h.content, ?_⟩
  · rw [part _ _ (by omega)]; exact h.start
  · rw [part _ _ (by omega)]; exact h.sel
  · rw [part _ _ (by omega)]; exact h.offset
  · rw [part _ _ (by omega)]; exact h.sel'
  · rw [List.drop_append_of_le_length (by omega), h.pre, List.append_nil]

/-- A write or return of a large file is not found one byte behind its beginning, ending where it ends. -/
theorem FileParts.not_late {big : Bool} {code : Nat} {o : Op.FileData} (hid : o.offset.fileId.toNat < 64)
    {x c0 e w r c : List Bool} {k0 : Nat} (hx : FileParts big code o x k0 1 c0 []) (he : e.length = 8)
    (hw : FileParts big code o w k0 0 c []) (h : x ++ r = e ++ w) : False := by
  have hl := hx.long
  have hl' := hw.long
  have part : ∀ j n, 8 + j + n ≤ x.length → (w.drop j).take n = (x.drop (8 + j)).take n := by
    intro j n hj
    have h1 : (x ++ r).drop 8 = w := by rw [h]; exact List.drop_left' he
    rw [← h1, List.drop_drop, List.drop_append_of_le_length (by omega),
      List.take_append_of_le_length (by rw [List.length_drop]; omega)]
  have f1 := hw.id
  rw [part _ _ (by omega)] at f1
  have f2 := f1.2
  have g7 : (x.drop (8 + 8)).take 8 = (x.drop 16).take 2 ++ ((x.drop 16).drop 2).take 6 := by rw [← List.take_add]
  rw [g7, value_append, hx.sel.2] at f2
  have g6 : (((x.drop 16).drop 2).take 6).length = 6 := by
    rw [List.length_take, List.length_drop, List.length_drop]; omega
  rw [g6] at f2
  have : k0 = 0 := by omega
  subst this
  have e2 := part 16 2 (by omega)
  exact absurd (field_part hw.sel hx.sel' e2) (by omega)

theorem FileParts.total {big : Bool} {code : Nat} {o : Op.FileData} {y c : List Bool} {k k' : Nat}
    (h : FileParts big code o y k k' c []) : y.length = 32 + 8 * k + 8 * k' + c.length := by
  have h1 := congrArg List.length h.pre
  have h2 := h.long
  rw [List.length_drop, List.append_nil] at h1
  omega

/-- No form of an action is shorter than its encoding, but a large file may be by one byte. -/
theorem action_min {cfg : Cfg} {a : Action} (hw : a.WF cfg) {x : List U8} (hx : a.toBytes cfg = .ok x) {w : List Bool}
    (h : Form.action cfg a w) : 8 * x.length ≤ w.length ∨ Ignored.large a = true := by
  cases hl : Ignored.large a with
  | true => exact .inr rfl
  | false =>
    have := (Tight.action cfg a hw.isTx hw.plain hl).min w h
    rw [Ignored.action_length hw hx] at this
    exact .inl this

theorem action_dvd {cfg : Cfg} {a : Action} (ht : a.isTx = false) {w : List Bool} (h : Form.action cfg a w) :
    8 ∣ w.length := by
  have := Form.actions_dvd (cfg := cfg) (as := [a]) (by simpa using ht) (w := w) ⟨w, [], by simp, h, rfl⟩
  exact this

/-- Actions are not found in their own encoding, behind its beginning. -/
theorem never_late (cfg : Cfg) (cs : List Action) (hw : ∀ a ∈ cs, a.WF cfg) : ∀ (x : List U8),
    W.list (Action.write cfg) cs = .ok (bytesBits x) → ∀ (e w junk : List Bool), Form.ofBytes x = e ++ (w ++ junk) →
    Form.actions cfg cs w → 8 ∣ e.length → e = [] := by
  induction cs with
  | nil =>
    intro x hx e w junk h _ _
    have : bytesBits x = [] := (Except.ok.inj hx).symm
    rw [Form.ofBytes_eq, this] at h
    exact (List.append_eq_nil_iff.1 h.symm).1
  | cons a cs ih =>
    rintro x hx e w junk h ⟨wa, wc, rfl, ha, hc⟩ he
    have hwa : a.WF cfg := hw a (by simp)
    have ha : Form.action cfg a wa := ha
    obtain ⟨xa', hxa', ha8, -, hda⟩ := Action.decode_write hwa
    obtain ⟨xa, hxa, rfl⟩ := W.toBytes_ok hxa' ha8
    obtain ⟨y, xc, hy, hxc, e1⟩ := W.seq_cons_ok.1 hx
    rw [hxa'] at hy; cases hy
    obtain ⟨xc', rfl⟩ : ∃ xc', xc = bytesBits xc' := by
      obtain ⟨xc', -, h2, -⟩ := Form.encoded (cfg := cfg) (as := cs) fun b hb => hw b (by simp [hb])
      exact ⟨xc', by have := hxc.symm.trans h2; cases this; rfl⟩
    rw [Form.ofBytes_eq, e1, ← Form.ofBytes_eq, ← Form.ofBytes_eq] at h
    have hd := action_dvd hwa.isTx ha
    apply Decidable.byContradiction
    intro hne
    have hpos : 0 < e.length := List.length_pos_iff.2 hne
    have more : ¬ 8 * xa.length < e.length + wa.length := by
      intro hlt
      have e2 : (e ++ wa) ++ ((wc ++ junk)) = Form.ofBytes xa ++ Form.ofBytes xc' := by
        rw [h]; simp only [List.append_assoc]
      obtain ⟨r, hr⟩ : ∃ r, e ++ wa = Form.ofBytes xa ++ r := by
        have : Form.ofBytes xa <+: e ++ wa := List.prefix_of_prefix_length_le (l₃ := Form.ofBytes xa ++ Form.ofBytes xc')
          (List.prefix_append _ _) (by rw [← e2]; exact List.prefix_append _ _)
          (by rw [Form.ofBytes_length, List.length_append]; omega)
        obtain ⟨r, hr⟩ := this
        exact ⟨r, hr.symm⟩
      have hrl := congrArg List.length hr
      rw [List.length_append, List.length_append, Form.ofBytes_length] at hrl
      rw [hr, List.append_assoc] at e2
      have := ih (fun b hb => hw b (by simp [hb])) xc' hxc r wc junk (List.append_cancel_left e2).symm hc (by omega)
      rw [this] at hrl
      simp at hrl
      omega
    rcases action_min hwa hxa ha with hm | hm
    · omega
    · obtain ⟨code, o, hL⟩ := Ignored.Large.of hwa hm
      obtain ⟨c0, hp, hc0, -, -⟩ := hL.parts hwa hxa
      rw [hL.form] at ha
      obtain ⟨k, k', c, hp'⟩ := Form.parts_of (junk := []) (fun n c => hL.any _ _ n 0 c) (List.append_nil wa).symm ha
      have h1 := hp.total
      have h2 := hp'.total
      rw [Form.ofBytes_length] at h1
      have h3 := lengthExtra_min _ k hp'.hk (field_lt hp'.offset)
      have h4 : c0.length ≤ c.length := by rw [hc0]; exact (Tight.file _ _ _ _).min c hp'.content
      obtain ⟨m, hm8⟩ := he
      have hk' : k' = 0 := by omega
      have hkk : k = Spec.lengthExtra o.offset.offset.val.toNat := by omega
      subst hk' hkk
      have h5 : Form.ofBytes xa = e ++ wa := by
        have e2 : (e ++ wa) ++ (wc ++ junk) = Form.ofBytes xa ++ Form.ofBytes xc' := by
          rw [h]; simp only [List.append_assoc]
        exact ((List.append_inj e2 (by rw [Form.ofBytes_length, List.length_append]; omega)).1).symm
      exact FileParts.not_late (hL.id _ _ _ _ hp.content) hp (e := e) (r := []) (by omega) hp' (by rw [List.append_nil]; exact h5)

end Form

end Dash7
