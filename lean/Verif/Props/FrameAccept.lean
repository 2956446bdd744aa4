import Verif.Lemmas.Limit2
import Verif.Props.Accept
import Verif.Props.Foreground

/-!
# C57: what the decoders of frames accept
-/

namespace Dash7
open Sample

/-- What running a reader that fits says about the input. -/
theorem Fits.run {α : Type} {p : P α} {F : α → Form} (hp : Fits p F) {r r' : Rd} {a : α} (h : r.Con)
    (hr : p.run r = .ok (a, r')) :
    ∃ c, F a c ∧ r.rem = c ++ r'.rem ∧ r'.Con ∧ r'.data = r.data ∧ r'.cur = r.cur + c.length ∧
      r'.bitsRead = r.bitsRead + c.length ∧ (0 < c.length → r'.left.length < 8) := by
  obtain ⟨he, n, st, hn⟩ := P.run_ok' p h.toOK hr
  obtain ⟨c, hc, -⟩ := P.eval_ok p he
  have hl := congrArg List.length hc
  rw [List.length_append] at hl
  have hn : n = c.length := by omega
  subst hn
  exact ⟨c, (hp a c _).1 (hc ▸ he), hc, st.con h, st.data, st.cur, st.bitsRead, st.left_lt h.toOK⟩

/-! ## Taking the readers of frames apart -/

theorem R.bind_ok {α β : Type} {m : R α} {k : α → R β} {r r' : Rd} {b : β} :
    R.bind m k r = .ok (b, r') ↔ ∃ a r1, m r = .ok (a, r1) ∧ k a r1 = .ok (b, r') := by
  unfold R.bind
  constructor
  · intro h
    split at h
    · exact ⟨_, _, by assumption, h⟩
    · cases h
  · rintro ⟨a, r1, h1, h2⟩
    rw [h1]; exact h2

theorem Trans.read_iff {cfg : Cfg} {L : U32} {r r' : Rd} {f : Trans.Frame} :
    Trans.Frame.read cfg L r = .ok (f, r') ↔
      ∃ r1, Trans.Header.read.run r = .ok (f.header, r1) ∧ Command.read cfg L r1 = .ok (f.command, r') := by
  unfold Trans.Frame.read
  simp only [R.bind_eq, R.bind_ok, R.pure]
  constructor
  · rintro ⟨h, r1, h1, c, r2, h2, h3⟩
    cases h3
    exact ⟨r1, h1, h2⟩
  · rintro ⟨r1, h1, h2⟩
    exact ⟨_, r1, h1, _, r', h2, rfl⟩

theorem Net.read_iff {cfg : Cfg} {L : U32} {r r' : Rd} {f : Net.Frame} :
    Net.Frame.read cfg L r = .ok (f, r') ↔
      ∃ r1, (Net.Header.read cfg).run r = .ok (f.header, r1) ∧ Trans.Frame.read cfg L r1 = .ok (f.frame, r') := by
  unfold Net.Frame.read
  simp only [R.bind_eq, R.bind_ok, R.pure]
  constructor
  · rintro ⟨h, r1, h1, c, r2, h2, h3⟩
    cases h3
    exact ⟨r1, h1, h2⟩
  · rintro ⟨r1, h1, h2⟩
    exact ⟨_, r1, h1, _, r', h2, rfl⟩

theorem ForegroundFrame.read_iff {cfg : Cfg} {r r' : Rd} {f : ForegroundFrame} :
    ForegroundFrame.read cfg r = .ok (f, r') ↔
      ∃ r1 r2, ForegroundHeader.read.run r = .ok (f.header, r1) ∧
        Net.Frame.read cfg f.header.length.val r1 = .ok (f.frame, r2) ∧
        (P.uintHost cfg 2).run r2 = .ok (f.crc16, r') := by
  unfold ForegroundFrame.read
  simp only [R.bind_eq, R.bind_ok, R.pure]
  constructor
  · rintro ⟨h, r1, h1, n, r2, h2, c, r3, h3, h4⟩
    cases h4
    exact ⟨r1, r2, h1, h2, h3⟩
  · rintro ⟨r1, r2, h1, h2, h3⟩
    exact ⟨_, r1, h1, _, r2, h2, _, r', h3, rfl⟩

theorem derivedTryFrom_iff {α : Type} {m : R α} {data : List U8} {a : α} :
    derivedTryFrom m data = .ok a ↔ ∃ r, m (Rd.new data) = .ok (a, r) ∧ r.bitsRead / 8 = data.length := by
  unfold derivedTryFrom
  constructor
  · intro h
    split at h
    · cases h
    · rename_i b r hr
      split at h
      · cases h
      · rename_i hb
        cases h
        exact ⟨r, hr, by omega⟩
  · rintro ⟨r, hr, hb⟩
    rw [hr]
    simp [hb]

/-! ## Headers, in every build -/

/-- **C57** Whatever transport frame is decoded, its header is what the first bits say. -/
theorem C57_transport_partial (cfg : Cfg) (data : List U8) (f : Trans.Frame)
    (h : Trans.Frame.tryFrom cfg data = .ok f) :
    ∃ head rest, Form.ofBytes data = head ++ rest ∧ Form.transHeader f.header head := by
  rw [Form.ofBytes_eq]
  obtain ⟨r, hr, -⟩ := derivedTryFrom_iff.1 h
  obtain ⟨r1, h1, -⟩ := Trans.read_iff.1 hr
  obtain ⟨c, hF, hrem, -⟩ := Trans.Header.fits.run (Rd.new_con data) h1
  rw [Rd.new_rem] at hrem
  exact ⟨c, r1.rem, hrem, hF⟩

/-- **C57** Whatever network frame is decoded, its headers are what the first bits say. -/
theorem C57_network_headers (cfg : Cfg) (data : List U8) (f : Net.Frame)
    (h : Net.Frame.tryFrom cfg data = .ok f) :
    ∃ head rest, Form.ofBytes data = head ++ rest ∧
      Form.all [Form.netHeader cfg.variant f.header, Form.transHeader f.frame.header] head := by
  rw [Form.ofBytes_eq]
  obtain ⟨r, hr, -⟩ := derivedTryFrom_iff.1 h
  obtain ⟨r1, h1, h2⟩ := Net.read_iff.1 hr
  obtain ⟨r2, h2, -⟩ := Trans.read_iff.1 h2
  obtain ⟨c, hF, hrem, hcon, -⟩ := (Net.Header.fits cfg).run (Rd.new_con data) h1
  obtain ⟨c2, hF2, hrem2, -⟩ := Trans.Header.fits.run hcon h2
  rw [Rd.new_rem, hrem2] at hrem
  exact ⟨c ++ c2, r2.rem, by rw [hrem, List.append_assoc], c, c2, rfl, hF, c2, [], by simp, hF2, rfl⟩

/-- **C57** Whatever foreground frame is decoded, its headers are what the first bits say. -/
theorem C57_foreground_headers (cfg : Cfg) (data : List U8) (f : ForegroundFrame)
    (h : ForegroundFrame.tryFrom cfg data = .ok f) :
    ∃ head rest, Form.ofBytes data = head ++ rest ∧
      Form.all [Form.foregroundHeader f.header, Form.netHeader cfg.variant f.frame.header,
        Form.transHeader f.frame.frame.header] head := by
  rw [Form.ofBytes_eq]
  obtain ⟨r, hr, -⟩ := derivedTryFrom_iff.1 h
  obtain ⟨r0, _, h0, hr, -⟩ := ForegroundFrame.read_iff.1 hr
  obtain ⟨r1, h1, h2⟩ := Net.read_iff.1 hr
  obtain ⟨r2, h2, -⟩ := Trans.read_iff.1 h2
  obtain ⟨c0, hF0, hrem0, hcon0, -⟩ := ForegroundHeader.fits.run (Rd.new_con data) h0
  obtain ⟨c, hF, hrem, hcon, -⟩ := (Net.Header.fits cfg).run hcon0 h1
  obtain ⟨c2, hF2, hrem2, -⟩ := Trans.Header.fits.run hcon h2
  rw [Rd.new_rem, hrem, hrem2] at hrem0
  exact ⟨c0 ++ (c ++ c2), r2.rem, by rw [hrem0]; simp, c0, _, rfl, hF0, c, c2, rfl, hF, c2, [], by simp, hF2, rfl⟩

/-- **C57** `BackgroundFrame::try_from` gives the frame `f` exactly when the input is the form of `f`. -/
theorem C57_background (cfg : Cfg) (data : List U8) (f : BackgroundFrame) :
    BackgroundFrame.tryFrom cfg data = .ok f ↔
      Form.backgroundFrame cfg.bigEndianHost f (Form.ofBytes data) := by
  rw [Form.ofBytes_eq]
  constructor
  · intro h
    have h6 := (C31_accepts cfg data).1 ⟨f, h⟩
    obtain ⟨r, hr, hb⟩ := derivedTryFrom_iff.1 h
    obtain ⟨c, hF, hrem, -, -, -, hbr, -⟩ := (BackgroundFrame.fits cfg).run (Rd.new_con data) hr
    have hlen := congrArg List.length hrem
    rw [Rd.new_rem, bytesBits_length, List.length_append] at hlen
    rw [Rd.new_rem] at hrem
    have h0 : (Rd.new data).bitsRead = 0 := rfl
    have hc : c.length = 48 := by
      obtain ⟨_, _, rfl, ⟨h1, -⟩, _, _, rfl, ⟨_, _, rfl, ⟨h2, -⟩, _, _, rfl, ⟨h3, -⟩, rfl⟩, _, _, rfl,
        ⟨_, rfl, h4, -⟩, _, _, rfl, ⟨_, rfl, h5, -⟩, rfl⟩ := hF
      have hh : ∀ (b : Bool) (l : List U8), (Form.ofBytes (if b then l else l.reverse)).length
          = (Form.ofBytes l).length := by
        intro b l
        rw [Form.ofBytes_eq, Form.ofBytes_eq, bytesBits_length, bytesBits_length]
        split <;> simp
      rw [hh] at h4 h5
      simp only [List.length_append, h1, h2, h3, h4, h5, List.length_nil]
    have : r.rem = [] := List.eq_nil_of_length_eq_zero (by omega)
    rw [this, List.append_nil] at hrem
    rwa [hrem]
  · intro h
    have he := (BackgroundFrame.fits cfg f _ []).2 h
    rw [List.append_nil] at he
    obtain ⟨r, hr, hb, -⟩ := P.run_new he
    refine derivedTryFrom_iff.2 ⟨r, hr, ?_⟩
    simp at hb
    omega

/-! ## Network frames at a byte boundary -/

theorem Action.form_dvd {cfg : Cfg} {a : Action} {c : List Bool} (h : Form.action cfg a c)
    (ht : a.isTx = false) : 8 ∣ c.length ∧ 0 < c.length := by
  have hd := (Action.decode_iff cfg a c []).2 h
  obtain ⟨x, hx, hdec, -⟩ := Action.decode_ok hd
  simp at hx
  subst hx
  exact ⟨hdec.dvd ht, Nat.lt_of_lt_of_le (by decide) hdec.pos⟩

theorem noTx {cfg : Cfg} (hv : cfg.variant ≠ .wizzilab) {L : U32} {r r' : Rd} {c : Command} (h : r.OK)
    (hr : Command.read cfg L r = .ok (c, r')) : ∀ a ∈ c.actions, a.isTx = false := by
  intro a ha
  obtain ⟨ps, hps, -, -, hd, -⟩ := Command.loop_ok h (Command.read_ok hr)
  rw [hps, List.nil_append] at ha
  obtain ⟨p, hp, rfl⟩ := List.mem_map.1 ha
  cases hx : p.1.isTx with
  | false => rfl
  | true => exact absurd ((hd p hp).variant hx) hv

/-- The two headers of a network frame end at a byte boundary. -/
theorem Net.heads_conv {cfg : Cfg} (hv : cfg.variant ≠ .wizzilab) {L : U32} {r r' : Rd} {f : Net.Frame}
    (h : r.Con) (h8 : 8 ∣ r.cur) (hr : Net.Frame.read cfg L r = .ok (f, r')) :
    ∃ nb tb r2, Form.netHeader cfg.variant f.header nb ∧ Form.transHeader f.frame.header tb ∧
      r.rem = nb ++ (tb ++ r2.rem) ∧ r2.Fresh ∧ r2.data = r.data ∧
      r2.bitsRead = r.bitsRead + nb.length + tb.length ∧ 8 ∣ nb.length + tb.length ∧
      Command.read cfg L r2 = .ok (f.frame.command, r') := by
  obtain ⟨r1, h1, h2⟩ := Net.read_iff.1 hr
  obtain ⟨r2, h2, h3⟩ := Trans.read_iff.1 h2
  obtain ⟨c, hF, hrem, hcon, hd1, hc1, hb1, -⟩ := (Net.Header.fits cfg).run h h1
  obtain ⟨c2, hF2, hrem2, hcon2, hd2, hc2, hb2, hl2⟩ := Trans.Header.fits.run hcon h2
  have m1 := Form.netHeader_mod8 hF
  rw [if_neg hv] at m1
  have m2 := Form.transHeader_mod8 hF2
  exact ⟨c, c2, r2, hF, hF2, by rw [hrem, hrem2], hcon2.fresh (hl2 (by omega)) (by omega), hd2.trans hd1,
    by omega, by omega, h3⟩

theorem Net.heads_form {cfg : Cfg} (hv : cfg.variant ≠ .wizzilab) {r : Rd} {f : Net.Frame} {nb tb s : List Bool}
    (h : r.Con) (h8 : 8 ∣ r.cur) (hn : Form.netHeader cfg.variant f.header nb)
    (ht : Form.transHeader f.frame.header tb) (hrem : r.rem = nb ++ (tb ++ s)) :
    ∃ r2, r2.Fresh ∧ r2.rem = s ∧ r2.data = r.data ∧ r2.bitsRead = r.bitsRead + nb.length + tb.length ∧
      8 ∣ nb.length + tb.length ∧
      ∀ L r', Command.read cfg L r2 = .ok (f.frame.command, r') → Net.Frame.read cfg L r = .ok (f, r') := by
  have m1 := Form.netHeader_mod8 hn
  rw [if_neg hv] at m1
  have m2 := Form.transHeader_mod8 ht
  obtain ⟨r1, e1, c1, rm1, d1, -, u1, b1⟩ := P.run_con h hrem ((Net.Header.fits cfg _ _ _).2 hn) (by omega)
  obtain ⟨r2, e2, c2, rm2, d2, l2, u2, b2⟩ := P.run_con c1 rm1 ((Trans.Header.fits _ _ _).2 ht) (by omega)
  refine ⟨r2, c2.fresh l2 (by omega), rm2, d2.trans d1, by omega, by omega, fun L r' hc => ?_⟩
  exact Net.read_iff.2 ⟨r1, e1, Trans.read_iff.2 ⟨r2, e2, hc⟩⟩

theorem below_iff {cfg : Cfg} {N L : Nat} {as : List Action} (ht : ∀ a ∈ as, a.isTx = false)
    (body post : List U8) (hN : (body ++ post).length ≤ N) :
    Below cfg N L as (bytesBits (body ++ post)) (bytesBits post) ↔
      Spec.actionsBelow cfg L (N - (body ++ post).length) as body := by
  induction as generalizing body with
  | nil =>
    show _ ↔ body = []
    constructor
    · intro h
      generalize hs : bytesBits (body ++ post) = s at h
      cases h
      have := congrArg List.length hs
      rw [bytesBits_length, bytesBits_length, List.length_append] at this
      exact List.eq_nil_of_length_eq_zero (by omega)
    · rintro rfl
      exact .nil _
  | cons a as ih =>
    have ih := fun b => ih (fun x hx => ht x (by simp [hx])) b
    show _ ↔ _ ∧ _
    have hpos : (L = 0 ∨ 8 * N < 8 * L + (bytesBits (body ++ post)).length) ↔
        (L = 0 ∨ N - (body ++ post).length < L) := by
      rw [bytesBits_length]
      constructor <;> (rintro (h | h); exact .inl h; exact .inr (by omega))
    constructor
    · intro h
      generalize hs : bytesBits (body ++ post) = s at h
      cases h with
      | cons hL hd hta hR =>
        obtain ⟨x, hx, hdec, -⟩ := Action.decode_ok hd
        obtain ⟨y, rfl, -⟩ := hR.reads.length
        have hxd := hd
        rw [hx] at hxd
        subst hs
        refine ⟨hpos.1 hL, ?_⟩
        rw [bytesBits_append, ← List.append_assoc] at hx
        have hb := List.append_cancel_right hx
        obtain ⟨w, more, rfl, rfl, rfl, -⟩ := bytesBits_suffix hb (hdec.dvd hta)
        refine ⟨w, more, rfl, ?_, ?_⟩
        · rw [Form.ofBytes_eq]
          exact (Action.decode_iff _ _ _ _).1 hxd
        · rw [← bytesBits_append] at hR
          have hlen : (more ++ post).length ≤ N := by
            simp only [List.length_append] at hN ⊢; omega
          have := (ih more hlen).1 hR
          have e : N - (w ++ more ++ post).length + w.length = N - (more ++ post).length := by
            simp only [List.length_append] at hN ⊢; omega
          rwa [e]
    · rintro ⟨hL, w, more, rfl, ha, hm⟩
      have hlen : (more ++ post).length ≤ N := by
        simp only [List.length_append] at hN ⊢; omega
      have e : N - (w ++ more ++ post).length + w.length = N - (more ++ post).length := by
        simp only [List.length_append] at hN ⊢; omega
      rw [e] at hm
      refine .cons (hpos.2 hL) (s1 := bytesBits (more ++ post)) ?_ (ht a (by simp)) ((ih more hlen).2 hm)
      rw [List.append_assoc, bytesBits_append w]
      rw [Form.ofBytes_eq] at ha
      exact (Action.decode_iff _ _ _ _).2 ha

theorem actionsBelow_noTx {cfg : Cfg} (hv : cfg.variant ≠ .wizzilab) {L : Nat} {as : List Action} :
    ∀ {pos : Nat} {body : List U8}, Spec.actionsBelow cfg L pos as body → ∀ a ∈ as, a.isTx = false := by
  induction as with
  | nil => intro _ _ _ a ha; cases ha
  | cons b bs ih =>
    rintro pos body ⟨-, w, more, -, hb, hm⟩ a ha
    rcases List.mem_cons.1 ha with rfl | ha
    · have := (Action.decode_iff cfg a _ []).2 hb
      obtain ⟨_, -, hn, -⟩ := Action.decode_ok this
      cases hx : a.isTx with
      | false => rfl
      | true => exact absurd (hn.variant hx) hv
    · exact ih hm a ha

theorem hostForm_length {big : Bool} {k v : Nat} {c : List Bool} (h : Form.hostNumber big k v c) :
    c.length = 8 * k := by
  obtain ⟨l, rfl, h4, -⟩ := h
  rw [← h4, Form.ofBytes_eq, Form.ofBytes_eq, bytesBits_length, bytesBits_length]
  split <;> simp

/-- Reading the command of a frame, from a byte boundary on. -/
theorem Command.read_limit_iff {cfg : Cfg} (hv : cfg.variant ≠ .wizzilab) {L : U32} {r : Rd} (h : r.Fresh)
    {q : List U8} (hq : r.rem = bytesBits q) (c : Command) (body post : List U8) (n : Nat) (hs : q = body ++ post) :
    (∃ r', Command.read cfg L r = .ok (c, r') ∧ r'.Con ∧ r'.data = r.data ∧ r'.rem = bytesBits post ∧
      r'.bitsRead + 8 * post.length = r.bitsRead + 8 * q.length + n) ↔
    Spec.actionsBelow cfg L.toNat (r.data.length - q.length) c.actions body ∧ Spec.forwardLast c.actions ∧
      ((L.toNat ≠ 0 ∧ L.toNat ≤ r.data.length - post.length) ∧ n = c.actions.length * (8 + cfg.endCost) ∨
        post = [] ∧ n = c.actions.length * (8 + cfg.endCost) ∨
        ¬ (L.toNat ≠ 0 ∧ L.toNat ≤ r.data.length - post.length) ∧ post ≠ [] ∧
          Spec.endsWithForward c.actions ∧ n = c.actions.length * (8 + cfg.endCost) + cfg.endCost) := by
  subst hs
  have hsz := h.size
  rw [hq, bytesBits_length] at hsz
  have hlim : ∀ (p : List U8), p.length ≤ r.data.length →
      (¬ (L.toNat = 0 ∨ 8 * r.data.length < 8 * L.toNat + (bytesBits p).length) ↔
        (L.toNat ≠ 0 ∧ L.toNat ≤ r.data.length - p.length)) := by
    intro p hp
    rw [bytesBits_length]
    omega
  have hpost : post.length ≤ r.data.length := by simp only [List.length_append] at hsz; omega
  constructor
  · rintro ⟨r', hr, hcon, hd, hrem, hb⟩
    have ht := noTx hv h.toOK hr
    obtain ⟨bs, hbs, hB, -, -, k, hbits, hstop⟩ := loop_limit_conv h (read_ok hr) ht
    rw [List.nil_append] at hbs
    subst hbs
    obtain ⟨-, -, -, -, -, -, hind⟩ := loop_ok h.toOK (read_ok hr)
    rw [hq, hrem] at hB
    rw [hrem, hq, bytesBits_length, bytesBits_length] at hbits
    rw [hrem] at hstop
    refine ⟨(below_iff ht body post (by omega)).1 hB, hind (by simp), ?_⟩
    rcases hstop with ⟨h1, h2⟩ | ⟨h1, h2⟩ | ⟨h1, h2, h3, h4⟩
    · exact .inl ⟨(hlim post hpost).1 h1, by omega⟩
    · exact .inr (.inl ⟨bytesBits_eq_nil.1 h1, by omega⟩)
    · refine .inr (.inr ⟨fun h0 => (hlim post hpost).2 h0 h1, fun h0 => h3 (by rw [h0]; rfl),
        (Command.endsIndirect_iff _).1 h2, by omega⟩)
  · rintro ⟨hB, hi, hstop⟩
    have ht := actionsBelow_noTx hv hB
    have hB := (below_iff ht body post (by omega)).2 hB
    obtain ⟨x, hx, h8, hle⟩ := hB.reads.length
    have hxl := congrArg List.length hx
    rw [List.length_append, bytesBits_length, bytesBits_length] at hxl
    obtain ⟨fuel, hfuel⟩ : ∃ fuel, r.data.length + 1 = (fuel + 1) + c.actions.length :=
      ⟨r.data.length - c.actions.length, by omega⟩
    obtain ⟨r1, hr1, hf, hrem, hdata, hb⟩ := loop_below (fuel := fuel + 1) hB (acc := []) h hq rfl
      (by rw [List.nil_append]; exact hi)
    rw [← hfuel, List.nil_append] at hr1
    rw [bytesBits_length, bytesBits_length] at hb
    have hfin : ∀ r', loop cfg L (fuel + 1) c.actions r1 = .ok (c.actions, r') →
        Command.read cfg L r = .ok (c, r') := by
      intro r' hl
      unfold Command.read
      simp only [R.bind, hr1, hl]
      rfl
    rcases hstop with ⟨h1, h2⟩ | ⟨h1, h2⟩ | ⟨h1, h2, h3, h4⟩
    · refine ⟨r1, hfin r1 (loop_at_limit hf ?_), hf.toCon, hdata, hrem, by omega⟩
      rw [hdata, hrem]; exact (hlim post hpost).2 h1
    · refine ⟨r1, hfin r1 (loop_at_end hf (by rw [hrem, h1]; rfl)), hf.toCon, hdata, hrem, by omega⟩
    · obtain ⟨r2, hr2, hal, hrem2, hd2, hb2⟩ := loop_at_forward (cfg := cfg) (L := L) (fuel := fuel) hf
        (acc := c.actions) (by
          rw [hdata, hrem]
          by_cases hy : L.toNat = 0 ∨ 8 * r.data.length < 8 * L.toNat + (bytesBits post).length
          · exact hy
          · exact absurd ((hlim post hpost).1 hy) h1)
        (by rw [hrem]; intro h0; exact h2 (bytesBits_eq_nil.1 h0)) ((Command.endsIndirect_iff _).2 h3)
      exact ⟨r2, hfin r2 hr2, hal.toCon, hd2.trans hdata, by rw [hrem2, hrem], by omega⟩

theorem lost_bits (cfg : Cfg) (n : Nat) : n * (8 + cfg.endCost) = 8 * (n * (if cfg.endCounts then 2 else 1)) := by
  unfold Cfg.endCost
  split <;> omega

theorem lost_bits' (cfg : Cfg) (n : Nat) : n * (8 + cfg.endCost) + cfg.endCost = 8 * Spec.dropped cfg n := by
  unfold Cfg.endCost Spec.dropped
  split <;> omega

theorem actionsBelow_zero {cfg : Cfg} {as : List Action} (ht : ∀ a ∈ as, a.isTx = false) (pos : Nat) (wire : List U8) :
    Spec.actionsBelow cfg 0 pos as wire ↔ Form.actions cfg as (Form.ofBytes wire) := by
  rw [Form.ofBytes_eq]
  induction as generalizing pos wire with
  | nil => show wire = [] ↔ _ = []; exact bytesBits_eq_nil.symm
  | cons a as ih =>
    have ih := ih (fun x hx => ht x (by simp [hx]))
    constructor
    · rintro ⟨-, w, more, rfl, ha, hm⟩
      rw [Form.ofBytes_eq] at ha
      exact ⟨_, _, bytesBits_append _ _, ha, (ih _ more).1 hm⟩
    · rintro ⟨x, y, hxy, ha, hm⟩
      obtain ⟨w, more, rfl, rfl, rfl, -⟩ := bytesBits_suffix hxy (Action.form_dvd ha (ht a (by simp))).1
      exact ⟨.inl rfl, w, more, rfl, by rw [Form.ofBytes_eq]; exact ha, (ih _ more).2 hm⟩

theorem endsWithForward_ne {as : List Action} (h : Spec.endsWithForward as) : 0 < as.length := by
  obtain ⟨a, ha, -⟩ := h
  cases as with
  | nil => cases ha
  | cons => simp

/-- **C57** Outside wizzilab builds, `Frame::try_from` of the network layer gives the frame `f` exactly when
the input begins with forms of its headers and of its actions, and then either there is no action and
nothing more, or the last action is an indirect forward and exactly as many bytes follow as get lost. -/
theorem C57_network_accepts (cfg : Cfg) (hv : cfg.variant ≠ .wizzilab) (data : List U8) (f : Net.Frame) :
    Net.Frame.tryFrom cfg data = .ok f ↔
      ∃ head wire junk, data = head ++ (wire ++ junk) ∧
        Form.all [Form.netHeader cfg.variant f.header, Form.transHeader f.frame.header] (Form.ofBytes head) ∧
        Form.actions cfg f.frame.command.actions (Form.ofBytes wire) ∧
        Spec.forwardLast f.frame.command.actions ∧
        (f.frame.command.actions = [] ∧ junk = [] ∨
          Spec.endsWithForward f.frame.command.actions ∧
            junk.length = Spec.dropped cfg f.frame.command.actions.length) := by
  unfold Net.Frame.tryFrom
  rw [derivedTryFrom_iff]
  constructor
  · rintro ⟨r, hr, hb⟩
    obtain ⟨nb, tb, r2, hn, ht, hrem, hf, hd, hbr, h8, hc⟩ := Net.heads_conv hv (Rd.new_con data)
      (by simp) hr
    rw [Rd.new_rem, ← List.append_assoc] at hrem
    rw [show (Rd.new data).bitsRead = 0 from rfl] at hbr
    obtain ⟨head, q, rfl, hhead, hq, hhl⟩ := bytesBits_suffix hrem (by simp; omega)
    have htx := noTx hv hf.toOK hc
    obtain ⟨bs, hbs, hB, hcon, hdd, -⟩ := Command.loop_limit_conv hf (Command.read_ok hc) htx
    rw [List.nil_append] at hbs
    subst hbs
    obtain ⟨x, hx, hx8, hxn⟩ := hB.reads.length
    rw [hq] at hx
    obtain ⟨wire, junk, rfl, rfl, hj, -⟩ := bytesBits_suffix hx hx8
    have hL : (0 : U32).toNat = 0 := rfl
    have hlen := congrArg List.length hhead
    rw [bytesBits_length, List.length_append] at hlen
    obtain ⟨hA, hi, hstop⟩ := (Command.read_limit_iff hv hf hq f.frame.command wire junk
      (r.bitsRead + 8 * junk.length - (r2.bitsRead + 8 * (wire ++ junk).length)) rfl).1 ⟨r, hc, hcon, hdd, hj, by
        simp only [List.length_append] at hb ⊢; omega⟩
    rw [hL] at hA hstop
    refine ⟨head, wire, junk, rfl, ?_, (actionsBelow_zero htx _ _).1 hA, hi, ?_⟩
    · rw [Form.ofBytes_eq, ← hhead]
      exact ⟨nb, tb, rfl, hn, tb, [], by simp, ht, rfl⟩
    · rw [lost_bits', lost_bits] at hstop
      simp only [List.length_append] at hb hstop
      rcases hstop with ⟨h1, -⟩ | ⟨rfl, h1⟩ | ⟨-, h1, h2, h3⟩
      · exact absurd rfl h1.1
      · refine .inl ⟨List.eq_nil_of_length_eq_zero ?_, rfl⟩
        simp only [List.length_nil] at hb h1
        split at h1 <;> omega
      · exact .inr ⟨h2, by omega⟩
  · rintro ⟨head, wire, junk, rfl, ⟨nb, _, hh, hn, tb, _, rfl, ht, rfl⟩, hA, hi, hstop⟩
    rw [Form.ofBytes_eq, List.append_nil] at hh
    obtain ⟨r2, hf, hrem, hd, hbr, h8, hread⟩ := Net.heads_form hv (s := bytesBits (wire ++ junk))
      (Rd.new_con (head ++ (wire ++ junk))) (by simp) hn ht
      (by rw [Rd.new_rem, bytesBits_append, hh, List.append_assoc])
    rw [show (Rd.new (head ++ (wire ++ junk))).bitsRead = 0 from rfl] at hbr
    have htx : ∀ a ∈ f.frame.command.actions, a.isTx = false := by
      generalize Form.ofBytes wire = w at hA
      generalize f.frame.command.actions = as at hA
      clear hi hstop hread
      induction as generalizing w with
      | nil => simp
      | cons b bs ih =>
        obtain ⟨x, y, -, hb, hbs⟩ := hA
        intro a ha
        rcases List.mem_cons.1 ha with rfl | ha
        · have := (Action.decode_iff cfg a x []).2 hb
          obtain ⟨_, -, hn, -⟩ := Action.decode_ok this
          cases hx : a.isTx with
          | false => rfl
          | true => exact absurd (hn.variant hx) hv
        · exact ih y hbs a ha
    have hA := (actionsBelow_zero htx (r2.data.length - (wire ++ junk).length) wire).2 hA
    have hlen := congrArg List.length hh
    rw [bytesBits_length, List.length_append] at hlen
    obtain ⟨r', hr', -, -, -, hb'⟩ := (Command.read_limit_iff (L := 0) hv hf hrem f.frame.command wire junk
      (8 * junk.length) rfl).2 ⟨hA, hi, by
        rw [lost_bits', lost_bits]
        rcases hstop with ⟨h1, rfl⟩ | ⟨h1, h2⟩
        · exact .inr (.inl ⟨rfl, by simp [h1]⟩)
        · refine .inr (.inr ⟨by simp, ?_, h1, by omega⟩)
          rintro rfl
          have := endsWithForward_ne h1
          unfold Spec.dropped at h2
          simp only [List.length_nil] at h2
          split at h2 <;> omega⟩
    refine ⟨r', hread _ _ hr', ?_⟩
    simp only [List.length_append] at hb' ⊢
    omega

theorem ForegroundFrame.read_form {cfg : Cfg} (hv : cfg.variant ≠ .wizzilab) (data : List U8)
    (f : ForegroundFrame) (n : Nat) :
    (∃ r, ForegroundFrame.read cfg (Rd.new data) = .ok (f, r) ∧ r.bitsRead = n) ↔
      ∃ head wire crc junk, data = head ++ (wire ++ (crc ++ junk)) ∧ Spec.foregroundForm cfg f head wire crc ∧
        n = 8 * ((head ++ (wire ++ crc)).length +
          Spec.frameLost cfg f.header.length.val.toNat (head ++ wire).length
            f.frame.frame.command.actions.length) := by
  constructor
  · rintro ⟨r, hr, hb⟩
    obtain ⟨r0, r3, h0, hr, h3⟩ := ForegroundFrame.read_iff.1 hr
    obtain ⟨c0, hF0, hrem0, hcon0, hd0, hc0, hb0, -⟩ := ForegroundHeader.fits.run (Rd.new_con data) h0
    have hm0 := (Form.foregroundHeader_dvd hF0).1
    rw [show (Rd.new data).cur = 0 by simp] at hc0
    rw [show (Rd.new data).bitsRead = 0 from rfl] at hb0
    obtain ⟨nb, tb, r2, hn, ht, hrem, hf, hd, hbr, h8, hc⟩ := Net.heads_conv hv hcon0 (by omega) hr
    rw [Rd.new_rem, hrem] at hrem0
    have hrem' : bytesBits data = (c0 ++ (nb ++ tb)) ++ r2.rem := by rw [hrem0]; simp
    obtain ⟨head, q, rfl, hhead, hq, hhl⟩ := bytesBits_suffix hrem' (by simp; omega)
    have htx := noTx hv hf.toOK hc
    obtain ⟨bs, hbs, hB, hcon, hdd, -⟩ := Command.loop_limit_conv hf (Command.read_ok hc) htx
    rw [List.nil_append] at hbs
    subst hbs
    obtain ⟨x, hx, hx8, hxn⟩ := hB.reads.length
    rw [hq] at hx
    obtain ⟨wire, q2, rfl, rfl, hj, -⟩ := bytesBits_suffix hx hx8
    obtain ⟨cb, hcF, hcrem, -, -, -, hcb, -⟩ := (Fits.host cfg 2).run hcon h3
    have hc16 := hostForm_length hcF
    rw [hj] at hcrem
    obtain ⟨crc, junk, rfl, rfl, hj2, -⟩ := bytesBits_suffix hcrem (by omega)
    have hlen := congrArg List.length hhead
    rw [bytesBits_length, List.length_append, List.length_append] at hlen
    rw [bytesBits_length] at hc16
    have hdl : r2.data.length = (head ++ (wire ++ (crc ++ junk))).length := by rw [hd, hd0]; rfl
    obtain ⟨hA, hi, hstop⟩ := (Command.read_limit_iff hv hf hq f.frame.frame.command wire (crc ++ junk)
      (r3.bitsRead + 8 * (crc ++ junk).length - (r2.bitsRead + 8 * (wire ++ (crc ++ junk)).length)) rfl).1
        ⟨r3, hc, hcon, hdd, hj, by
          obtain ⟨bs, hbs, hB', -, -, k, hbits, -⟩ := Command.loop_limit_conv hf (Command.read_ok hc) htx
          rw [hj, hq, bytesBits_length, bytesBits_length] at hbits
          omega⟩
    have hpos : r2.data.length - (wire ++ (crc ++ junk)).length = head.length := by
      rw [hdl]; simp
    have hpos' : r2.data.length - (crc ++ junk).length = (head ++ wire).length := by
      rw [hdl]; simp; omega
    rw [hpos] at hA
    rw [hpos', lost_bits', lost_bits] at hstop
    have hne : crc ++ junk ≠ [] := by
      intro h0
      rw [List.append_eq_nil_iff] at h0
      rw [h0.1, List.length_nil] at hc16
      omega
    have hbb := hcb
    rw [bytesBits_length] at hbb
    refine ⟨head, wire, crc, junk, rfl, ⟨?_, hA, hi, ?_, ?_⟩, ?_⟩
    · rw [Form.ofBytes_eq, ← hhead]
      exact ⟨c0, _, rfl, hF0, nb, tb, rfl, hn, tb, [], by simp, ht, rfl⟩
    · rcases hstop with ⟨h1, -⟩ | ⟨h1, -⟩ | ⟨-, -, h2, -⟩
      · exact .inl h1
      · exact absurd h1 hne
      · exact .inr h2
    · rw [Form.ofBytes_eq]; exact hcF
    · unfold Spec.frameLost
      obtain ⟨bs, hbs, hB', -, -, k, hbits, -⟩ := Command.loop_limit_conv hf (Command.read_ok hc) htx
      rw [hj, hq, bytesBits_length, bytesBits_length] at hbits
      generalize bs.length * (8 + cfg.endCost) = X at hbits
      rcases hstop with ⟨h1, h2⟩ | ⟨h1, -⟩ | ⟨h1, -, h2, h3⟩
      · rw [if_pos (show Spec.limitReached _ _ from h1)]
        generalize f.frame.frame.command.actions.length * (if cfg.endCounts = true then 2 else 1) = Y at *
        clear hA hB' hB hF0 hhead hcF hx
        simp only [List.length_append] at *
        omega
      · exact absurd h1 hne
      · rw [if_neg (show ¬ Spec.limitReached _ _ from h1)]
        clear hA hB' hB hF0 hhead hcF hx
        simp only [List.length_append] at *
        omega
  · rintro ⟨head, wire, crc, junk, rfl, ⟨⟨c0, _, hh, h0, nb, _, rfl, hn, tb, _, rfl, ht, rfl⟩, hA, hi, hstop, hcF⟩, rfl⟩
    rw [Form.ofBytes_eq, List.append_nil] at hh
    rw [Form.ofBytes_eq] at hcF
    have hm0 := Form.foregroundHeader_dvd h0
    have hc16 := hostForm_length hcF
    rw [bytesBits_length] at hc16
    obtain ⟨r0, e0, c0', m0, d0, -, u0, b0⟩ := P.run_con (Rd.new_con (head ++ (wire ++ (crc ++ junk))))
      (s := nb ++ (tb ++ bytesBits (wire ++ (crc ++ junk))))
      (by rw [Rd.new_rem, bytesBits_append, hh]; simp) ((ForegroundHeader.fits _ _ _).2 h0) hm0.2
    rw [show (Rd.new (head ++ (wire ++ (crc ++ junk)))).bitsRead = 0 from rfl] at b0
    rw [show (Rd.new (head ++ (wire ++ (crc ++ junk)))).cur = 0 by simp] at u0
    obtain ⟨r2, hf, hrem, hd, hbr, h8, hread⟩ := Net.heads_form hv c0' (by omega) hn ht m0
    have hdl : r2.data.length = (head ++ (wire ++ (crc ++ junk))).length := by rw [hd, d0]; rfl
    have hpos : r2.data.length - (wire ++ (crc ++ junk)).length = head.length := by
      rw [hdl]; simp
    have hpos' : r2.data.length - (crc ++ junk).length = (head ++ wire).length := by
      rw [hdl]; simp; omega
    have hlen := congrArg List.length hh
    rw [bytesBits_length, List.length_append, List.length_append] at hlen
    have hne : crc ++ junk ≠ [] := by
      intro h0
      rw [List.append_eq_nil_iff] at h0
      rw [h0.1, List.length_nil] at hc16
      omega
    obtain ⟨r3, hr3, hcon3, -, hrem3, hb3⟩ := (Command.read_limit_iff hv hf hrem f.frame.frame.command wire
      (crc ++ junk) (8 * Spec.frameLost cfg f.header.length.val.toNat (head ++ wire).length
            f.frame.frame.command.actions.length) rfl).2 ⟨by rw [hpos]; exact hA, hi, by
        rw [lost_bits', lost_bits, hpos']
        unfold Spec.frameLost
        by_cases hl : Spec.limitReached f.header.length.val.toNat (head ++ wire).length
        · rw [if_pos hl]; exact .inl ⟨hl, rfl⟩
        · rw [if_neg hl]; exact .inr (.inr ⟨hl, hne, hstop.resolve_left hl, rfl⟩)⟩
    obtain ⟨r4, e4, -, -, -, -, -, b4⟩ := P.run_con hcon3 (s := bytesBits junk)
      (by rw [hrem3, bytesBits_append]) ((Fits.host cfg 2 _ _ _).2 hcF) (by rw [bytesBits_length]; omega)
    refine ⟨r4, ForegroundFrame.read_iff.2 ⟨r0, r3, e0, hread _ _ hr3, e4⟩, ?_⟩
    rw [bytesBits_length] at b4
    simp only [List.length_append] at *
    omega

/-- **C57** Outside wizzilab builds, `ForegroundFrame::try_from` gives the frame `f` exactly when the input
begins with forms of its headers, its actions and its CRC and exactly as many bytes follow as get lost. -/
theorem C57_foreground_accepts (cfg : Cfg) (hv : cfg.variant ≠ .wizzilab) (data : List U8)
    (f : ForegroundFrame) :
    ForegroundFrame.tryFrom cfg data = .ok f ↔
      ∃ head wire crc junk, data = head ++ (wire ++ (crc ++ junk)) ∧ Spec.foregroundForm cfg f head wire crc ∧
        junk.length = Spec.frameLost cfg f.header.length.val.toNat (head ++ wire).length
          f.frame.frame.command.actions.length := by
  unfold ForegroundFrame.tryFrom
  rw [derivedTryFrom_iff]
  constructor
  · rintro ⟨r, hr, hb⟩
    obtain ⟨head, wire, crc, junk, rfl, hF, hn⟩ := (ForegroundFrame.read_form hv data f _).1 ⟨r, hr, rfl⟩
    refine ⟨head, wire, crc, junk, rfl, hF, ?_⟩
    simp only [List.length_append] at *
    omega
  · rintro ⟨head, wire, crc, junk, rfl, hF, hn⟩
    obtain ⟨r, hr, hb⟩ := (ForegroundFrame.read_form hv _ f _).2 ⟨head, wire, crc, junk, rfl, hF, rfl⟩
    refine ⟨r, hr, ?_⟩
    simp only [List.length_append] at *
    omega

/-- **C57** Outside wizzilab builds, `ForegroundFrame::from_bytes` gives the frame `f` and the rest `rest`
exactly when the input begins with forms of its headers, its actions and its CRC, and `rest` is what
follows without the bytes that get lost, all of which must be there. -/
theorem C57_foreground_from_bytes (cfg : Cfg) (hv : cfg.variant ≠ .wizzilab) (data : List U8) (rest : Rest)
    (f : ForegroundFrame) :
    ForegroundFrame.fromBytes cfg (data, 0) = .ok (rest, f) ↔
      ∃ head wire crc lost more, data = head ++ (wire ++ (crc ++ (lost ++ more))) ∧
        Spec.foregroundForm cfg f head wire crc ∧ rest = (more, 0) ∧
        lost.length = Spec.frameLost cfg f.header.length.val.toNat (head ++ wire).length
          f.frame.frame.command.actions.length := by
  have key : ForegroundFrame.fromBytes cfg (data, 0) = .ok (rest, f) ↔
      ∃ r, ForegroundFrame.read cfg (Rd.new data) = .ok (f, r) ∧
        r.bitsRead / 8 ≤ data.length ∧ rest = (data.drop (r.bitsRead / 8), r.bitsRead % 8) := by
    unfold ForegroundFrame.fromBytes derivedFromBytes
    dsimp only
    rw [startAt_zero]
    constructor
    · intro h
      split at h
      · cases h
      · rename_i a r hr
        unfold sliceFrom at h
        split at h
        · rename_i x hx
          split at hx
          · cases hx; cases h
            exact ⟨r, hr, by assumption, rfl⟩
          · cases hx
        · cases h
    · rintro ⟨r, hr, hle, rfl⟩
      rw [hr]
      simp [sliceFrom, hle]
  rw [key]
  constructor
  · rintro ⟨r, hr, hle, rfl⟩
    obtain ⟨head, wire, crc, junk, rfl, hF, hn⟩ := (ForegroundFrame.read_form hv data f _).1 ⟨r, hr, rfl⟩
    rw [hn] at hle ⊢
    generalize hk : Spec.frameLost cfg f.header.length.val.toNat (head ++ wire).length
            f.frame.frame.command.actions.length = k at *
    have hkl : k ≤ junk.length := by simp only [List.length_append] at hle; omega
    refine ⟨head, wire, crc, junk.take k, junk.drop k, by simp, hF, ?_, by rw [hk]; simp; omega⟩
    rw [Nat.mul_div_cancel_left _ (by omega), Nat.mul_mod_right]
    congr 1
    rw [show head ++ (wire ++ (crc ++ junk)) = (head ++ (wire ++ crc)) ++ junk by simp, List.drop_append]
    simp
  · rintro ⟨head, wire, crc, lost, more, rfl, hF, rfl, hl⟩
    obtain ⟨r, hr, hb⟩ := (ForegroundFrame.read_form hv _ f _).2 ⟨head, wire, crc, lost ++ more, rfl, hF, rfl⟩
    refine ⟨r, hr, ?_, ?_⟩
    · simp only [List.length_append] at *
      omega
    · rw [hb, Nat.mul_div_cancel_left _ (by omega), Nat.mul_mod_right, ← hl]
      congr 1
      rw [show head ++ (wire ++ (crc ++ (lost ++ more))) = (head ++ (wire ++ crc) ++ lost) ++ more by simp,
        ← List.length_append, List.drop_left]

/-! ## Cases that meet the hypotheses -/

/-- A foreground frame with its length field at the end of the one request it holds, and the one byte
behind its CRC that gets lost. -/
def Sample.foregroundWire : List U8 :=
  [25, 85, 97, 227, 160, 16, 128, 8, 145, 25, 162, 42, 179, 59, 253, 7, 9, 48, 18, 95, 4, 1, 2, 180, 7, 239, 190]

example : ForegroundFrame.tryFrom spec (Sample.foregroundWire ++ [99]) = .ok (Sample.foreground 25 ⟨[tag]⟩) ∧
    ForegroundFrame.tryFrom spec Sample.foregroundWire = .error (.fault .parse) ∧
    ForegroundFrame.fromBytes spec (Sample.foregroundWire ++ [99, 1, 2], 0) =
      .ok (([1, 2], 0), Sample.foreground 25 ⟨[tag]⟩) := by decide +kernel
/-- The same frame with another length field goes on to read its CRC as an action. -/
example : (match ForegroundFrame.tryFrom spec ((26 : U8) :: Sample.foregroundWire.tail ++ [99]) with
    | .ok _ => true | .error _ => false) = false := by decide +kernel
example : Net.Frame.tryFrom spec [227, 160, 16, 128, 8, 145, 25, 162, 42, 179, 59, 253, 7, 9, 48, 18, 95, 4, 1, 2]
    = .ok ⟨Sample.netHeader, ⟨Sample.transHeader, ⟨[]⟩⟩⟩ := by decide +kernel
example : (match Trans.Frame.tryFrom spec [250, 14, 18, 96, 36, 190, 8, 2, 4, 0] with
    | .ok f => decide (f.header = Sample.transHeader) | .error _ => false) = true := by decide +kernel
example : BackgroundFrame.tryFrom spec [0x12, 0xAA, 0x34, 0x12, 0xCD, 0xAB] = .ok Sample.background := by
  decide +kernel

#print axioms C57_transport_partial
#print axioms C57_network_headers
#print axioms C57_foreground_headers
#print axioms C57_background
#print axioms C57_network_accepts
#print axioms C57_foreground_accepts
#print axioms C57_foreground_from_bytes

end Dash7
