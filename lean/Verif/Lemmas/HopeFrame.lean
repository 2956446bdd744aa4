import Verif.Spec.LostFrame
import Verif.Props.Hope
import Verif.Props.FrameAccept
import Verif.Props.Checksum

/-!
# Completing frames
-/

namespace Dash7
open Spec


theorem Trans.AckTemplate.hope : Hope 0 0 Trans.AckTemplate.read := by
  unfold Trans.AckTemplate.read
  hope

theorem Trans.Header.hope : Hope 1 0 Trans.Header.read := by
  unfold Trans.Header.read
  simp only [P.bind_eq]
  refine Hope.bind (j := 8) (by unfold Trans.Control.read; hope) fun c =>
    Hope.bind (j := 0) (Hope.end Hope.u8 (by decide)) fun _ => Hope.bind (j := 0) (Hope.end Hope.u8 (by decide)) fun _ =>
    Hope.bind (j := 0) (Hope.cond _ (Hope.end Hope.u8 (by decide))) fun _ =>
    Hope.bind (j := 0) (Hope.cond _ (Hope.end VarInt.hope (by decide))) fun _ =>
    Hope.bind (j := 0) (Hope.cond _ (Hope.end VarInt.hope (by decide))) fun _ =>
    Hope.bind (j := 0) (Hope.cond _ (Hope.end VarInt.hope (by decide))) fun _ =>
    Hope.bind (j := 0) (Hope.cond _ Trans.AckTemplate.hope) fun _ => Hope.pure

theorem Address.hope1 (t : AddressType) : Hope 1 1 (Address.read t) := by cases t <;> unfold Address.read <;> hope

theorem AccessClass.hope1 : Hope 1 1 AccessClass.read := by unfold AccessClass.read; hope

theorem Net.HoppingControl.hope1 : Hope 1 1 Net.HoppingControl.read := by
  unfold Net.HoppingControl.read AddressType.read
  hope

/-- The headers of a network frame in turn. -/
def Net.bothHeaders (cfg : Cfg) : P (Net.Header × Trans.Header) :=
  (Net.Header.read cfg).bind fun n => Trans.Header.read.bind fun t => P.pure (n, t)

theorem Net.bothHeaders_hope (cfg : Cfg) (hv : cfg.variant ≠ .wizzilab) :
    HopeX 0 (Net.bothHeaders cfg) fun s => s.length = 8 ∧ 4 ≤ bitsNat (s.drop 5) := by
  have hw : NlsMethod.width cfg = 4 := by
    unfold NlsMethod.width
    cases h : cfg.variant <;> first | rfl | exact absurd h hv
  have h1 : HopeX 0 (Net.Header.read cfg) fun s => s.length = 8 ∧ 4 ≤ bitsNat (s.drop 5) := by
    unfold Net.Header.read
    simp only [P.bind_eq]
    refine HopeX.front (j := 1) (l := 1) (Net.Control.hopeExact cfg hv)
      ((Net.Control.post cfg).mono fun _ n h => by rw [h.2, hw]) fun c => ?_
    exact Hope.bind (j := 1) (Hope.cond _ Net.HoppingControl.hope1) fun _ => Hope.bind (j := 1) AccessClass.hope1 fun _ =>
      Hope.bind (j := 1) (Address.hope1 _) fun _ => Hope.pure
  refine HopeX.front (j := 1) (l := 0) h1 ?_ fun n => Hope.bind (j := 0) Trans.Header.hope fun _ => Hope.pure
  intro c s a he
  have := Form.netHeader_mod8 ((Net.Header.fits cfg a c s).1 he)
  rw [if_neg hv] at this
  show (0 + c.length) % 8 = 1 % 8
  omega

theorem ForegroundHeader.hope : Hope 0 0 ForegroundHeader.read := by
  unfold ForegroundHeader.read ForegroundFrameControl.read AddressType.read
  hope

theorem Net.bothHeaders_fits (cfg : Cfg) :
    Fits (Net.bothHeaders cfg) fun x => Form.all [Form.netHeader cfg.variant x.1, Form.transHeader x.2] := by
  intro x c s
  unfold Net.bothHeaders
  constructor
  · intro h
    obtain ⟨n, s1, h1, h2⟩ := P.bind_inv h
    obtain ⟨t, s2, h2, h3⟩ := P.bind_inv h2
    cases h3
    obtain ⟨c1, hc1, hF1⟩ := (Net.Header.fits cfg).took h1
    obtain ⟨c2, rfl, hF2⟩ := Trans.Header.fits.took h2
    rw [← List.append_assoc] at hc1
    have := List.append_cancel_right hc1
    subst this
    exact ⟨c1, c2, rfl, hF1, c2, [], by simp, hF2, rfl⟩
  · rintro ⟨c1, _, rfl, hF1, c2, _, rfl, hF2, rfl⟩
    rw [List.append_nil, List.append_assoc, P.eval_bind, (Net.Header.fits cfg _ _ _).2 hF1]
    show P.eval _ _ = _
    rw [P.eval_bind, (Trans.Header.fits _ _ _).2 hF2]
    rfl

theorem Net.headers_dvd {cfg : Cfg} (hv : cfg.variant ≠ .wizzilab) {n : Net.Header} {t : Trans.Header} {c : List Bool}
    (h : Form.all [Form.netHeader cfg.variant n, Form.transHeader t] c) : 8 ∣ c.length := by
  obtain ⟨nb, _, rfl, hn, tb, _, rfl, ht, rfl⟩ := h
  have m1 := Form.netHeader_mod8 hn
  rw [if_neg hv] at m1
  have m2 := Form.transHeader_mod8 ht
  simp only [List.append_nil, List.length_append]
  omega

/-- What the bits of an input begin with is the only form they begin with. -/
theorem Fits.only {α : Type} {p : P α} {F : α → Form} (h : Fits p F) {a b : α} {c d s t : List Bool} (ha : F a c)
    (hb : F b d) (he : c ++ s = d ++ t) : a = b ∧ c = d ∧ s = t := by
  have h1 := (h a c s).2 ha
  rw [he, (h b d t).2 hb] at h1
  cases h1
  exact ⟨rfl, List.append_cancel_right he, rfl⟩

theorem Fits.onlyBytes {α : Type} {p : P α} {F : α → Form} (h : Fits p F) {a b : α} {c d s t : List U8}
    (ha : F a (Form.ofBytes c)) (hb : F b (Form.ofBytes d)) (he : c ++ s = d ++ t) : a = b ∧ c = d ∧ s = t := by
  rw [Form.ofBytes_eq] at ha hb
  obtain ⟨h1, h2, h3⟩ := h.only ha hb (s := bytesBits s) (t := bytesBits t)
    (by rw [← bytesBits_append, ← bytesBits_append, he])
  exact ⟨h1, bytesBits_inj h2, bytesBits_inj h3⟩

theorem hopeless_ne {cfg : Cfg} {cut : List U8} (h : Hopeless cfg cut) : cut ≠ [] := (hopeless_iff.1 h).1

theorem hopeless_no {cfg : Cfg} {cut more wire rest : List U8} {a : Action} (h : Hopeless cfg cut)
    (ha : Form.action cfg a (Form.ofBytes wire)) (he : cut ++ more = wire ++ rest) : False := by
  obtain ⟨hn, hs⟩ := hopeless_iff.1 h
  rw [Form.ofBytes_eq] at ha
  have hd := (Action.decode_iff cfg a _ (bytesBits rest)).2 ha
  rw [← bytesBits_append, ← he, bytesBits_append] at hd
  refine Action.decode_lost ?_ (by rw [bytesBits_length]; omega) hs _ _ _ hd
  have := List.length_pos_iff.2 hn
  rw [bytesBits_length]; omega

theorem action_ne {cfg : Cfg} {a : Action} (h : Form.action cfg a (Form.ofBytes [])) : False := by
  have hd := (Action.decode_iff cfg a _ []).2 h
  rw [Form.ofBytes_eq] at hd
  cases hd

theorem action_only {cfg : Cfg} {a b : Action} {c d s t : List U8} (ha : Form.action cfg a (Form.ofBytes c))
    (hb : Form.action cfg b (Form.ofBytes d)) (he : c ++ s = d ++ t) : a = b ∧ c = d ∧ s = t := by
  rw [Form.ofBytes_eq] at ha hb
  have h1 := (Action.decode_iff cfg a _ (bytesBits s)).2 ha
  rw [← bytesBits_append, he, bytesBits_append, (Action.decode_iff cfg b _ (bytesBits t)).2 hb] at h1
  injection h1 with h1
  injection h1 with h1 h2
  have hs := bytesBits_inj h2
  subst hs
  exact ⟨h1.symm, List.append_cancel_right he, rfl⟩

theorem lost_actions {cfg : Cfg} {limit : Nat} {as bs : List Action} :
    ∀ {pos : Nat} {wire cut more wire' rest : List U8}, actionsBelow cfg limit pos as wire →
    (∀ a ∈ as, a.isIndirectForward = false) → ¬ limitReached limit (pos + wire.length) → Hopeless cfg cut →
    wire ++ (cut ++ more) = wire' ++ rest → actionsBelow cfg limit pos bs wire' →
    (limitReached limit (pos + wire'.length) ∨ endsWithForward bs ∨ rest = []) → False := by
  induction as generalizing bs with
  | nil =>
    intro pos wire cut more wire' rest hA _ hl hh he hB hstop
    have : wire = [] := hA
    subst this
    cases bs with
    | nil =>
      have : wire' = [] := hB
      subst this
      rcases hstop with h | h | h
      · exact hl h
      · exact absurd (endsWithForward_ne h) (by simp)
      · subst h
        exact (hopeless_ne hh) (List.append_eq_nil_iff.1 (by simpa using he)).1
    | cons b bs =>
      obtain ⟨-, w, m, rfl, hb, -⟩ := hB
      exact hopeless_no hh (more := more) (rest := m ++ rest) hb (by simpa using he)
  | cons a as ih =>
    intro pos wire cut more wire' rest hA hi hl hh he hB hstop
    obtain ⟨hp, w, m, rfl, ha, hA⟩ := hA
    cases bs with
    | nil =>
      have : wire' = [] := hB
      subst this
      rcases hstop with h | h | h
      · have : limit ≠ 0 ∧ limit ≤ pos + 0 := h
        omega
      · exact absurd (endsWithForward_ne h) (by simp)
      · subst h
        have he := congrArg List.length he
        have := List.length_pos_iff.2 (hopeless_ne hh)
        simp only [List.length_append, List.length_nil] at he
        omega
    | cons b bs =>
      obtain ⟨-, w', m', rfl, hb, hB⟩ := hB
      obtain ⟨rfl, rfl, he'⟩ := action_only ha hb (s := m ++ (cut ++ more)) (t := m' ++ rest) (by simpa using he)
      refine ih hA (fun x hx => hi x (by simp [hx])) ?_ hh he' hB ?_
      · rw [List.length_append, ← Nat.add_assoc] at hl; exact hl
      · rcases hstop with h | ⟨x, hx, hx'⟩ | h
        · rw [List.length_append, ← Nat.add_assoc] at h; exact .inl h
        · refine .inr (.inl ⟨x, ?_, hx'⟩)
          cases bs with
          | nil =>
            cases hx
            change a.isIndirectForward = true at hx'
            rw [hi a (by simp)] at hx'
            cases hx'
          | cons c bs => rwa [List.getLast?_cons_cons] at hx
        · exact .inr (.inr h)

/-- Nothing makes a network frame of what is lost. -/
theorem lost_network {cfg : Cfg} (hv : cfg.variant ≠ .wizzilab) {limit pos : Nat} {data more head wire rest : List U8}
    {n : Net.Header} {t : Trans.Header} {bs : List Action} (h : LostNetwork cfg limit pos data)
    (he : data ++ more = head ++ (wire ++ rest))
    (hH : Form.all [Form.netHeader cfg.variant n, Form.transHeader t] (Form.ofBytes head))
    (hB : actionsBelow cfg limit (pos + head.length) bs wire)
    (hstop : limitReached limit (pos + (head ++ wire).length) ∨ endsWithForward bs ∨ rest = []) : False := by
  rcases h with ⟨b, rfl, hb⟩ | ⟨n', t', as, head', wire', cut, rfl, hH', hA, hi, hl, hh⟩
  · obtain ⟨_, _, hc, ⟨c, _, rfl, hc1, -⟩, -⟩ := hH
    rename_i t1 t2
    rw [Form.ofBytes_eq] at hc
    have hev := (Net.Control.fits cfg _ c (t2 ++ (t1 ++ bytesBits (wire ++ rest)))).2 hc1
    rw [show c ++ (t2 ++ (t1 ++ bytesBits (wire ++ rest))) = bytesBits [b] ++ bytesBits more by
      rw [← bytesBits_append, he, bytesBits_append head, hc]; simp] at hev
    exact Net.Control.lost cfg hv rfl (by rw [lowBits]; exact hb) hev
  · have key := (Net.bothHeaders_fits cfg).onlyBytes (a := (n', t')) (b := (n, t)) hH' hH
      (s := wire' ++ (cut ++ more)) (t := wire ++ rest) (by simpa using he)
    obtain ⟨-, rfl, he'⟩ := key
    rw [List.length_append, ← Nat.add_assoc] at hl hstop
    exact lost_actions hA hi hl hh he' hB hstop

/-! ## Completing what can be completed -/

/-- A network frame from byte `pos` on which ends by itself. -/
def Ends (cfg : Cfg) (limit pos : Nat) (bytes : List U8) : Prop :=
  ∃ n t bs head wire, bytes = head ++ wire ∧
    Form.all [Form.netHeader cfg.variant n, Form.transHeader t] (Form.ofBytes head) ∧
    actionsBelow cfg limit (pos + head.length) bs wire ∧ forwardLast bs ∧
    (limitReached limit (pos + bytes.length) ∨ endsWithForward bs)

theorem actionsBelow_append {cfg : Cfg} {limit : Nat} {as bs : List Action} :
    ∀ {pos : Nat} {u v : List U8}, actionsBelow cfg limit pos as u → actionsBelow cfg limit (pos + u.length) bs v →
      actionsBelow cfg limit pos (as ++ bs) (u ++ v) := by
  induction as with
  | nil =>
    intro pos u v hu hv
    have : u = [] := hu
    subst this
    exact hv
  | cons a as ih =>
    rintro pos u v ⟨hp, w, m, rfl, ha, hA⟩ hv
    refine ⟨hp, w, m ++ v, by simp, ha, ih hA ?_⟩
    rw [Nat.add_assoc, ← List.length_append]
    exact hv

theorem forward_form (cfg : Cfg) : ∃ a, Form.action cfg a (Form.ofBytes [0x33]) ∧ a.isIndirectForward = true := by
  have : ∃ a, Action.decode cfg (bytesBits [0x33]) = .ok (a, []) ∧ a.isIndirectForward = true := by
    rcases cfg with ⟨v, a, b, c, d⟩
    cases v <;> exact ⟨.indirectForward ⟨⟨false, false⟩, ⟨51⟩, none⟩, rfl, rfl⟩
  obtain ⟨a, hd, hi⟩ := this
  refine ⟨a, ?_, hi⟩
  rw [Form.ofBytes_eq]
  exact (Action.decode_iff cfg a _ []).1 (by rw [List.append_nil]; exact hd)

theorem ends_of_actions {cfg : Cfg} {limit pos : Nat} {head wire : List U8} {n : Net.Header} {t : Trans.Header}
    {as : List Action} (hH : Form.all [Form.netHeader cfg.variant n, Form.transHeader t] (Form.ofBytes head))
    (hA : actionsBelow cfg limit (pos + head.length) as wire) (hi : ∀ a ∈ as, a.isIndirectForward = false) :
    ∃ more, Ends cfg limit pos (head ++ wire ++ more) := by
  by_cases hl : limitReached limit (pos + (head ++ wire).length)
  · exact ⟨[], n, t, as, head, wire, by simp, hH, hA, fun a ha => hi a (List.dropLast_subset _ ha), .inl (by simpa using hl)⟩
  · obtain ⟨a, ha, hia⟩ := forward_form cfg
    refine ⟨[0x33], n, t, as ++ [a], head, wire ++ [0x33], by simp, hH, actionsBelow_append hA ?_, ?_,
      .inr ⟨a, by simp, hia⟩⟩
    · refine ⟨?_, [0x33], [], by simp, ha, rfl⟩
      rw [List.length_append, ← Nat.add_assoc] at hl
      unfold limitReached at hl
      omega
    · intro b hb
      rw [List.dropLast_concat] at hb
      exact hi b hb

theorem ends_of_cut {cfg : Cfg} (hv : cfg.variant ≠ .wizzilab) {limit pos : Nat} {head wire cut : List U8}
    {n : Net.Header} {t : Trans.Header}
    {as : List Action} (hH : Form.all [Form.netHeader cfg.variant n, Form.transHeader t] (Form.ofBytes head))
    (hA : actionsBelow cfg limit (pos + head.length) as wire) (hi : ∀ a ∈ as, a.isIndirectForward = false)
    (hl : ¬ limitReached limit (pos + (head ++ wire).length))
    (hd : Action.decode cfg (bytesBits cut) = .error .incomplete) (hh : ¬ Hopeless cfg cut) :
    ∃ more, Ends cfg limit pos (head ++ (wire ++ cut) ++ more) := by
  rcases Action.decode_more cfg hd with hs | ⟨more, a, c, hm, hcl⟩
  · exact absurd (hopeless_iff.2 hs) hh
  · have htx : a.isTx = false := by
      obtain ⟨_, -, hn, -⟩ := Action.decode_ok hm
      cases hx : a.isTx with
      | false => rfl
      | true => exact absurd (hn.variant hx) hv
    rw [htx] at hcl
    have := List.length_eq_zero_iff.1 hcl
    subst this
    have hF : Form.action cfg a (Form.ofBytes (cut ++ more)) := by
      rw [Form.ofBytes_eq]
      exact (Action.decode_iff cfg a _ []).1 (by rw [List.append_nil]; exact hm)
    have hA' : actionsBelow cfg limit (pos + head.length) (as ++ [a]) (wire ++ (cut ++ more)) := by
      refine actionsBelow_append hA ⟨?_, cut ++ more, [], by simp, hF, rfl⟩
      rw [List.length_append, ← Nat.add_assoc] at hl
      unfold limitReached at hl
      omega
    cases hia : a.isIndirectForward with
    | true =>
      refine ⟨more, n, t, as ++ [a], head, wire ++ (cut ++ more), by simp, hH, hA', ?_, .inr ⟨a, by simp, hia⟩⟩
      intro b hb
      rw [List.dropLast_concat] at hb
      exact hi b hb
    | false =>
      obtain ⟨m, hm⟩ := ends_of_actions hH hA' (by
        intro b hb
        rcases List.mem_append.1 hb with hb | hb
        · exact hi b hb
        · rw [List.mem_singleton.1 hb]; exact hia)
      exact ⟨more ++ m, by simpa using hm⟩

theorem bytes_of_bits {q : List U8} {t : List Bool} (h : 8 ∣ (bytesBits q ++ t).length) : ∃ p, t = bytesBits p := by
  rw [List.length_append, bytesBits_length] at h
  exact ⟨packBits t, (bytesBits_packBits _ (by omega)).symm⟩

theorem ends_of_headers {cfg : Cfg} (hv : cfg.variant ≠ .wizzilab) {limit pos : Nat} {q : List U8}
    (he : (Net.bothHeaders cfg).eval (bytesBits q) = .error .incomplete) :
    LostNetwork cfg limit pos q ∨ ∃ more, Ends cfg limit pos (q ++ more) := by
  rcases (Net.bothHeaders_hope cfg hv).more _ (by rw [bytesBits_length]; omega) he with ⟨hl, hb⟩ | ⟨t, x, hx⟩
  · rw [bytesBits_length] at hl
    match q, hl with
    | [b], _ => rw [lowBits] at hb; exact .inl (.inl ⟨b, rfl, hb⟩)
    | [], hl => simp at hl
    | _ :: _ :: _, hl => simp at hl; omega
  · have hF := ((Net.bothHeaders_fits cfg).whole _ _).1 hx
    obtain ⟨p, rfl⟩ := bytes_of_bits (Net.headers_dvd hv hF)
    rw [← bytesBits_append, ← Form.ofBytes_eq] at hF
    obtain ⟨more, hm⟩ := ends_of_actions (limit := limit) (pos := pos) (as := []) (wire := []) hF rfl (by simp)
    exact .inr ⟨p ++ more, by simpa using hm⟩

theorem ends_some {cfg : Cfg} (hv : cfg.variant ≠ .wizzilab) (limit pos : Nat) : ∃ more, Ends cfg limit pos more := by
  rcases ends_of_headers hv (limit := limit) (pos := pos) (q := []) rfl with (⟨b, hb, -⟩ | h) | h
  · cases hb
  · obtain ⟨-, -, -, head, wire, cut, he, -, -, -, -, hh⟩ := h
    have := congrArg List.length he
    have := List.length_pos_iff.2 (hopeless_ne hh)
    simp only [List.length_append, List.length_nil] at *
    omega
  · exact h

/-- A command runs out of input within an action. -/
theorem Command.loop_cut {cfg : Cfg} (hv : cfg.variant ≠ .wizzilab) {L : U32} {fuel : Nat} {acc : List Action} {r : Rd}
    (h : r.Fresh) (hl : loop cfg L fuel acc r = .error .incomplete) :
    ∃ bs s', Below cfg r.data.length L.toNat bs r.rem s' ∧ (∀ a ∈ bs, a.isIndirectForward = false) ∧ s' ≠ [] ∧
      (L.toNat = 0 ∨ 8 * r.data.length < 8 * L.toNat + s'.length) ∧ Action.decode cfg s' = .error .incomplete := by
  induction fuel generalizing acc r with
  | zero => cases hl
  | succ fuel ih =>
    by_cases hL : L.toNat = 0 ∨ 8 * r.data.length < 8 * L.toNat + r.rem.length
    · by_cases hne : r.rem = []
      · rw [loop_at_end h hne] at hl
        cases hl
      · cases hi : endsIndirect acc with
        | true =>
          obtain ⟨r1, hr1, -⟩ := loop_at_forward (cfg := cfg) (fuel := fuel) h hL hne hi
          rw [hr1] at hl
          cases hl
        | false =>
          cases hd : Action.decode cfg r.rem with
          | error e =>
            obtain ⟨r1, hr1, ha, hrem, -⟩ := R.atEnd_fresh (cfg := cfg) h hne
            rw [loop_succ, validLength_fresh' h] at hl
            simp only [hL, decide_true, Bool.true_eq_false, if_false] at hl
            rw [hr1] at hl
            simp only [Bool.false_eq_true, if_false, hi] at hl
            rw [Action.read_aligned_err ha (by rw [hrem]; exact hd)] at hl
            cases hl
            exact ⟨[], r.rem, .nil _, by simp, hne, hL, hd⟩
          | ok p =>
            obtain ⟨a, s1⟩ := p
            have htx : a.isTx = false := by
              obtain ⟨_, -, hn, -⟩ := Action.decode_ok hd
              cases hx : a.isTx with
              | false => rfl
              | true => exact absurd (hn.variant hx) hv
            obtain ⟨r3, hr3, hf, hrem3, hdata3, hb3⟩ := loop_turn (fuel := fuel) h hL hi hd htx
            rw [hr3] at hl
            obtain ⟨bs, s', hB, hib, hs', hL', hd'⟩ := ih hf hl
            rw [hrem3, hdata3] at hB
            rw [hdata3] at hL'
            cases hia : a.isIndirectForward with
            | true =>
              exfalso
              have hei : endsIndirect (acc ++ [a]) = true := by rw [endsIndirect_concat]; exact hia
              obtain ⟨fuel, rfl⟩ : ∃ k, fuel = k + 1 := by
                cases fuel with
                | zero => cases hl
                | succ k => exact ⟨k, rfl⟩
              by_cases hL3 : L.toNat = 0 ∨ 8 * r3.data.length < 8 * L.toNat + r3.rem.length
              · by_cases hne3 : r3.rem = []
                · rw [loop_at_end hf hne3] at hl
                  cases hl
                · obtain ⟨r4, hr4, -⟩ := loop_at_forward (cfg := cfg) (fuel := fuel) hf hL3 hne3 hei
                  rw [hr4] at hl
                  cases hl
              · rw [loop_at_limit hf hL3] at hl
                cases hl
            | false =>
              refine ⟨a :: bs, s', .cons hL hd htx hB, ?_, hs', hL', hd'⟩
              intro b hb
              rcases List.mem_cons.1 hb with rfl | hb
              · exact hia
              · exact hib b hb
    · rw [loop_at_limit h hL] at hl
      cases hl

theorem Below.noTx {cfg : Cfg} {N L : Nat} {as : List Action} {s s' : List Bool} (h : Below cfg N L as s s') :
    ∀ a ∈ as, a.isTx = false := by
  induction h with
  | nil => intro a ha; cases ha
  | cons _ _ h _ ih =>
    intro a ha
    rcases List.mem_cons.1 ha with rfl | ha
    · exact h
    · exact ih a ha

/-- What is read of a network frame that runs out of input. -/
theorem Net.read_cut {cfg : Cfg} (hv : cfg.variant ≠ .wizzilab) {L : U32} {r : Rd} {q : List U8} (h : r.Con)
    (h8 : 8 ∣ r.cur) (hq : r.rem = bytesBits q) (hle : q.length ≤ r.data.length)
    (he : Net.Frame.read cfg L r = .error .incomplete) :
    LostNetwork cfg L.toNat (r.data.length - q.length) q ∨
      ∃ more, Ends cfg L.toNat (r.data.length - q.length) (q ++ more) := by
  have hb : (Net.bothHeaders cfg).eval r.rem = .error .incomplete ∨ ∃ n t r2 c,
      Form.all [Form.netHeader cfg.variant n, Form.transHeader t] c ∧ r.rem = c ++ r2.rem ∧ r2.Fresh ∧
      r2.data = r.data ∧ Command.read cfg L r2 = .error .incomplete := by
    unfold Net.Frame.read at he
    simp only [R.bind_eq] at he
    unfold R.bind at he
    split at he
    · rename_i n r1 h1
      dsimp only at he
      obtain ⟨c1, hF1, hrem1, hcon1, hd1, hc1, -, -⟩ := (Net.Header.fits cfg).run h h1
      unfold Trans.Frame.read at he
      simp only [R.bind_eq] at he
      unfold R.bind at he
      cases h2 : Trans.Header.read.run r1 with
      | error e =>
        rw [h2] at he
        cases he
        left
        unfold Net.bothHeaders
        rw [P.eval_bind, hrem1, (Net.Header.fits cfg _ _ _).2 hF1]
        show P.eval _ _ = _
        rw [P.eval_bind, P.run_err' _ hcon1.toOK h2]
      | ok x =>
        obtain ⟨t, r2⟩ := x
        rw [h2] at he
        obtain ⟨c2, hF2, hrem2, hcon2, hd2, hc2, -, hl2⟩ := Trans.Header.fits.run hcon1 h2
        have m1 := Form.netHeader_mod8 hF1
        rw [if_neg hv] at m1
        have m2 := Form.transHeader_mod8 hF2
        refine .inr ⟨n, t, r2, c1 ++ c2, ⟨c1, c2, rfl, hF1, c2, [], by simp, hF2, rfl⟩, by rw [hrem1, hrem2]; simp,
          hcon2.fresh (hl2 (by omega)) (by omega), hd2.trans hd1, ?_⟩
        dsimp only at he
        cases h3 : Command.read cfg L r2 with
        | error e => rw [h3] at he; cases he; rfl
        | ok x => rw [h3] at he; cases he
    · rename_i e h1
      cases he
      left
      unfold Net.bothHeaders
      rw [P.eval_bind, P.run_err' _ h.toOK h1]
  rcases hb with hb | ⟨n, t, r2, c, hH, hrem, hf, hd, hc⟩
  · rw [hq] at hb
    exact ends_of_headers hv hb
  · obtain ⟨bs, s', hB, hi, hs', hL, hdec⟩ := Command.loop_cut hv hf (Command.read_error hc)
    rw [hq] at hrem
    obtain ⟨head, q', rfl, rfl, hq', -⟩ := bytesBits_suffix hrem (Net.headers_dvd hv hH)
    rw [hq'] at hB
    obtain ⟨x, hx, hx8, -⟩ := hB.reads.length
    obtain ⟨wire, cut, rfl, rfl, rfl, -⟩ := bytesBits_suffix hx hx8
    rw [hd] at hB hL
    have htx := hB.noTx
    simp only [List.length_append] at hle
    have hA := (below_iff htx wire cut (by simp only [List.length_append]; omega)).1 hB
    have e1 : r.data.length - (wire ++ cut).length = r.data.length - (head ++ (wire ++ cut)).length + head.length := by
      simp only [List.length_append]; omega
    have hl : ¬ limitReached L.toNat (r.data.length - (head ++ (wire ++ cut)).length + (head ++ wire).length) := by
      rw [bytesBits_length] at hL
      unfold limitReached
      simp only [List.length_append]
      omega
    rw [e1] at hA
    rw [← Form.ofBytes_eq] at hH
    by_cases hh : Hopeless cfg cut
    · exact .inl (.inr ⟨n, t, bs, head, wire, cut, rfl, hH, hA, hi, hl, hh⟩)
    · exact .inr (ends_of_cut hv hH hA hi hl hdec hh)

/-- What is read of a network frame that is complete. -/
theorem Net.read_whole {cfg : Cfg} (hv : cfg.variant ≠ .wizzilab) {L : U32} {r r' : Rd} {q : List U8} {f : Net.Frame}
    (h : r.Con) (h8 : 8 ∣ r.cur) (hq : r.rem = bytesBits q) (hle : q.length ≤ r.data.length)
    (hr : Net.Frame.read cfg L r = .ok (f, r')) :
    ∃ bytes rest, q = bytes ++ rest ∧ r'.rem = bytesBits rest ∧ r'.Con ∧
      (Ends cfg L.toNat (r.data.length - q.length) bytes ∨
        rest = [] ∧ ∃ more, Ends cfg L.toNat (r.data.length - q.length) (bytes ++ more)) := by
  obtain ⟨nb, tb, r2, hn, ht, hrem, hf, hd, -, hdv, hc⟩ := Net.heads_conv hv h h8 hr
  have hH : Form.all [Form.netHeader cfg.variant f.header, Form.transHeader f.frame.header] (nb ++ tb) :=
    ⟨nb, tb, rfl, hn, tb, [], by simp, ht, rfl⟩
  rw [hq, ← List.append_assoc] at hrem
  obtain ⟨head, q', rfl, hhead, hq', -⟩ := bytesBits_suffix hrem (by rw [List.length_append]; exact hdv)
  have htx := noTx hv hf.toOK hc
  obtain ⟨bs, hbs, hB, hcon, hdd, k, hbits, hstop⟩ := Command.loop_limit_conv hf (Command.read_ok hc) htx
  rw [List.nil_append] at hbs
  subst hbs
  obtain ⟨-, -, -, -, -, -, hind⟩ := Command.loop_ok hf.toOK (Command.read_ok hc)
  have hlast : forwardLast f.frame.command.actions := hind (by simp)
  obtain ⟨x, hx, hx8, -⟩ := hB.reads.length
  rw [hq'] at hx
  obtain ⟨wire, rest, rfl, rfl, hj, -⟩ := bytesBits_suffix hx hx8
  rw [hd] at hB
  rw [hq', hj] at hB
  simp only [List.length_append] at hle
  have hA := (below_iff htx wire rest (by simp only [List.length_append]; omega)).1 hB
  have e1 : r.data.length - (wire ++ rest).length = r.data.length - (head ++ (wire ++ rest)).length + head.length := by
    simp only [List.length_append]; omega
  rw [e1] at hA
  rw [hhead, ← Form.ofBytes_eq] at hH
  refine ⟨head ++ wire, rest, by simp, hj, hcon, ?_⟩
  rw [hd, hj, bytesBits_length] at hstop
  rcases hstop with ⟨h1, -⟩ | ⟨h1, -⟩ | ⟨-, h2, -⟩
  · refine .inl ⟨_, _, _, head, wire, rfl, hH, hA, hlast, .inl ?_⟩
    unfold limitReached
    simp only [List.length_append]
    omega
  · have hr0 : rest = [] := bytesBits_eq_nil.1 h1
    subst hr0
    by_cases hew : endsWithForward f.frame.command.actions
    · exact .inl ⟨_, _, _, head, wire, rfl, hH, hA, hlast, .inr hew⟩
    · refine .inr ⟨rfl, ends_of_actions hH hA ?_⟩
      intro a ha
      cases hia : a.isIndirectForward with
      | false => rfl
      | true =>
        exfalso
        have hne : f.frame.command.actions ≠ [] := by intro h0; rw [h0] at ha; cases ha
        rw [← List.dropLast_concat_getLast hne] at ha
        rcases List.mem_append.1 ha with ha | ha
        · rw [hlast a ha] at hia; cases hia
        · rw [List.mem_singleton] at ha
          exact hew ⟨a, by rw [ha]; exact List.getLast?_eq_some_getLast hne, hia⟩
  · exact .inl ⟨_, _, _, head, wire, rfl, hH, hA, hlast, .inr ((Command.endsIndirect_iff _).1 h2)⟩

end Dash7
