import Verif.Lemmas.Close
import Verif.Props.HopeFrame

/-!
# C84 for transport frames, and for the frames of every build

Seeking has to drop the bits kept back: if it keeps them, operands that do not begin at a byte boundary overlap.
-/

namespace Dash7
open Spec Sample

/-! ## What is missing -/

theorem Trans.Frame.read_only {cfg : Cfg} {L : U32} {r : Rd} (hp : r.Part) {e : Err}
    (h : Trans.Frame.read cfg L r = .error e) :
    Trans.Header.read.eval r.rem = .error e ∨
      ∃ t as left, transContinuing cfg L.toNat r.data.length t as r.rem left ∧ refuses cfg left e := by
  unfold Trans.Frame.read at h
  simp only [R.bind_eq] at h
  unfold R.bind at h
  split at h
  · rename_i t r1 h1
    obtain ⟨c, hF, hrem, -, hd, -, hpart⟩ := Trans.Header.fits.ok hp.toOK h1
    dsimp only at h
    split at h
    · cases h
    · rename_i e' h2
      cases h
      obtain ⟨as, left, hc, hr⟩ := (Command.read_refused (hpart hp) _).1 h2
      rw [hd] at hc
      exact .inr ⟨t, as, left, ⟨c, _, hrem, hF, hc⟩, hr⟩
  · rename_i e' h1
    cases h
    exact .inl (P.run_err' _ hp.toOK h1)

theorem Net.Frame.read_only {cfg : Cfg} {L : U32} {r : Rd} (hp : r.Part) {e : Err}
    (h : Net.Frame.read cfg L r = .error e) :
    (Net.bothHeaders cfg).eval r.rem = .error e ∨ ∃ n t as head body left, r.rem = head ++ body ∧
      Form.netHeader cfg.variant n head ∧ transContinuing cfg L.toNat r.data.length t as body left ∧
      refuses cfg left e := by
  unfold Net.Frame.read at h
  simp only [R.bind_eq] at h
  unfold R.bind at h
  split at h
  · rename_i n r1 h1
    obtain ⟨c, hF, hrem, -, hd, -, hpart⟩ := (Net.Header.fits cfg).ok hp.toOK h1
    dsimp only at h
    split at h
    · cases h
    · rename_i e' h2
      cases h
      rcases Trans.Frame.read_only (hpart hp) h2 with h3 | ⟨t, as, left, hc, hr⟩
      · left
        unfold Net.bothHeaders
        rw [P.eval_bind, hrem, (Net.Header.fits cfg _ _ _).2 hF]
        show P.eval _ _ = _
        rw [P.eval_bind, h3]
      · rw [hd] at hc
        exact .inr ⟨n, t, as, c, _, left, hrem, hF, hc, hr⟩
  · rename_i e' h1
    cases h
    left
    unfold Net.bothHeaders
    rw [P.eval_bind, P.run_err' _ hp.toOK h1]

theorem Fits.no {α : Type} {p : P α} {F : α → Form} (h : Fits p F) {s : List Bool} {e : Err} (he : p.eval s = .error e)
    (a : α) (c t : List Bool) (hs : s = c ++ t) : ¬ F a c := by
  intro hF
  have := (h a c t).2 hF
  rw [← hs, he] at this
  cases this

theorem derivedFromBytes_error {α : Type} {m : R α} {data : List U8} {off : Nat} {e : Err}
    (h : derivedFromBytes m (data, off) = .error e) :
    8 * data.length < off ∧ e = .incomplete ∨ e = .fault .panic ∨
      off ≤ 8 * data.length ∧ ∃ r : Rd, r.Part ∧ r.data = data ∧ r.rem = (Form.ofBytes data).drop off ∧ m r = .error e := by
  obtain ⟨h1, h2⟩ := startAt_part data off
  unfold derivedFromBytes at h
  dsimp only at h
  by_cases hle : off ≤ 8 * data.length
  · obtain ⟨r0, hp, hd, hrem, hb, hm⟩ := h1 hle
    rw [hm m] at h
    split at h
    · rename_i e' he
      cases h
      exact .inr (.inr ⟨hle, r0, hp, hd, by rw [hrem, Form.ofBytes_eq], he⟩)
    · unfold sliceFrom at h
      split at h
      · cases h
      · rename_i hs
        split at hs
        · cases hs
        · cases hs
          cases h
          exact .inr (.inl rfl)
  · rw [h2 hle m] at h
    cases h
    exact .inl ⟨by omega, rfl⟩

/-- **C50** The other way round, at any bit offset: if a transport frame is refused, the bits to be skipped are not
there, or slicing panics, or there is no header, or an action spoils it as in `C50_frames`, with the same error. -/
theorem C50_transport_only (cfg : Cfg) (data : List U8) (off : Nat) (e : Err)
    (h : Trans.Frame.fromBytes cfg (data, off) = .error e) :
    8 * data.length < off ∧ e = .incomplete ∨ e = .fault .panic ∨
      (∀ x head body, (Form.ofBytes data).drop off = head ++ body → ¬ Form.transHeader x head) ∨
      ∃ x as left, transContinuing cfg 0 data.length x as ((Form.ofBytes data).drop off) left ∧ refuses cfg left e := by
  rcases derivedFromBytes_error h with h | h | ⟨-, r, hp, hd, hrem, h⟩
  · exact .inl h
  · exact .inr (.inl h)
  · rcases Trans.Frame.read_only hp h with h | ⟨x, as, left, hc, hr⟩
    · rw [hrem] at h
      exact .inr (.inr (.inl fun x head body hs => Trans.Header.fits.no h x head body hs))
    · rw [hrem, hd] at hc
      exact .inr (.inr (.inr ⟨x, as, left, hc, hr⟩))

/-- **C50** The same for network frames. -/
theorem C50_network_only (cfg : Cfg) (data : List U8) (off : Nat) (e : Err)
    (h : Net.Frame.fromBytes cfg (data, off) = .error e) :
    8 * data.length < off ∧ e = .incomplete ∨ e = .fault .panic ∨
      (∀ n x head tail body, (Form.ofBytes data).drop off = head ++ (tail ++ body) →
        ¬ (Form.netHeader cfg.variant n head ∧ Form.transHeader x tail)) ∨
      ∃ n x as head body left, (Form.ofBytes data).drop off = head ++ body ∧ Form.netHeader cfg.variant n head ∧
        transContinuing cfg 0 data.length x as body left ∧ refuses cfg left e := by
  rcases derivedFromBytes_error h with h | h | ⟨-, r, hp, hd, hrem, h⟩
  · exact .inl h
  · exact .inr (.inl h)
  · rcases Net.Frame.read_only hp h with h | ⟨n, x, as, head, body, left, hs, hN, hc, hr⟩
    · rw [hrem] at h
      refine .inr (.inr (.inl fun n x head tail body hs hx => ?_))
      exact (Net.bothHeaders_fits cfg).no h (n, x) (head ++ tail) body (by rw [hs, List.append_assoc])
        ⟨head, tail, rfl, hx.1, tail, [], by simp, hx.2, rfl⟩
    · rw [hd] at hc
      rw [hrem] at hs
      exact .inr (.inr (.inr ⟨n, x, as, head, body, left, hs, hN, hc, hr⟩))

/-- **C50** The same for foreground frames; here the CRC may be missing as well. -/
theorem C50_foreground_only (cfg : Cfg) (data : List U8) (off : Nat) (e : Err)
    (h : ForegroundFrame.fromBytes cfg (data, off) = .error e) :
    8 * data.length < off ∧ e = .incomplete ∨ e = .fault .panic ∨
      (∀ f n x link head tail body, (Form.ofBytes data).drop off = link ++ (head ++ (tail ++ body)) →
        ¬ (Form.foregroundHeader f link ∧ Form.netHeader cfg.variant n head ∧ Form.transHeader x tail)) ∨
      (∃ f n x as link head body left, (Form.ofBytes data).drop off = link ++ (head ++ body) ∧
        Form.foregroundHeader f link ∧ Form.netHeader cfg.variant n head ∧
        transContinuing cfg f.length.val.toNat data.length x as body left ∧ refuses cfg left e) ∨
      e = .incomplete ∧ ∃ f nf link body left n, (Form.ofBytes data).drop off = link ++ body ∧
        Form.foregroundHeader f link ∧ netReading cfg f.length.val.toNat data.length nf body left n ∧
        left.length < 16 := by
  rcases derivedFromBytes_error h with h | h | ⟨-, r, hp, hd, hrem, h⟩
  · exact .inl h
  · exact .inr (.inl h)
  · refine .inr (.inr ?_)
    unfold ForegroundFrame.read at h
    simp only [R.bind_eq] at h
    unfold R.bind at h
    split at h
    · rename_i f r1 h1
      obtain ⟨link, hK, hrem1, -, hd1, -, hpart⟩ := ForegroundHeader.fits.ok hp.toOK h1
      rw [hrem] at hrem1
      dsimp only at h
      split at h
      · rename_i nf r2 h2
        obtain ⟨n, hN, hok2, -, -⟩ := (Net.Frame.takes cfg f.length.val).conv (hpart hp) h2
        rw [hd1, hd] at hN
        split at h
        · cases h
        · rename_i e' h3
          cases h
          have h3 := P.run_err' _ hok2 h3
          have hlt : r2.rem.length < 16 := by
            refine Nat.lt_of_not_le fun hge => ?_
            have h16 : (r2.rem.take 16).length = 16 := by rw [List.length_take]; omega
            obtain ⟨c, hc⟩ : ∃ c, r2.rem.take 16 = bytesBits c :=
              ⟨packBits _, (bytesBits_packBits _ (by rw [h16]; omega)).symm⟩
            rw [hc, bytesBits_length] at h16
            match c, h16 with
            | [c, d], _ =>
              refine (Fits.host cfg 2).no h3 (hostPair cfg.bigEndianHost c d) (bytesBits [c, d]) (r2.rem.drop 16)
                (by rw [← hc, List.take_append_drop]) ?_
              rw [← Form.ofBytes_eq]
              exact (hostPair_form _ _ _ _).2 rfl
            | [], h => simp at h
            | [_], h => simp at h
            | _ :: _ :: _ :: _, h => simp at h; omega
          refine .inr (.inr ⟨?_, f, nf, link, r1.rem, r2.rem, n, hrem1, hK, hN, hlt⟩)
          have : ∀ (s : List Bool) e, (P.uintHost cfg 2).eval s = .error e → e = .incomplete := by
            intro s e he
            unfold P.uintHost at he
            split at he
            · unfold P.uint at he
              rw [if_neg (by decide)] at he
              unfold P.eval at he
              split at he <;> cases he
              rfl
            · unfold P.uintLE P.eval at he
              split at he <;> cases he
              rfl
          exact this _ _ h3
      · rename_i e' h2
        cases h
        rcases Net.Frame.read_only (hpart hp) h2 with h | ⟨n, x, as, head, body, left, hs, hN, hc, hr⟩
        · refine .inl fun f' n x link' head tail body hs hx => ?_
          obtain ⟨-, -, hq⟩ := ForegroundHeader.fits.only hK hx.1 (hrem1.symm.trans hs)
          exact (Net.bothHeaders_fits cfg).no h (n, x) (head ++ tail) body (by rw [hq, List.append_assoc])
            ⟨head, tail, rfl, hx.2.1, tail, [], by simp, hx.2.2, rfl⟩
        · rw [hd1, hd] at hc
          exact .inr (.inl ⟨f, n, x, as, link, head, body, left, by rw [hrem1, hs], hK, hN, hc, hr⟩)
    · rename_i e' h1
      cases h
      have h1 := P.run_err' _ hp.toOK h1
      rw [hrem] at h1
      exact .inl fun f n x link head tail body hs hx => ForegroundHeader.fits.no h1 f link _ hs hx.1

/-! ## Headers that run out of input -/

theorem Trans.Header.hope0 : Hope 0 7 Trans.Header.read := by
  unfold Trans.Header.read
  simp only [P.bind_eq]
  refine Hope.bind (j := 7) (by unfold Trans.Control.read; hope) fun c =>
    Hope.bind (j := 7) (Hope.end Hope.u8 (by decide)) fun _ => Hope.bind (j := 7) (Hope.end Hope.u8 (by decide)) fun _ =>
    Hope.bind (j := 7) (Hope.cond _ (Hope.end Hope.u8 (by decide))) fun _ =>
    Hope.bind (j := 7) (Hope.cond _ (Hope.end VarInt.hope (by decide))) fun _ =>
    Hope.bind (j := 7) (Hope.cond _ (Hope.end VarInt.hope (by decide))) fun _ =>
    Hope.bind (j := 7) (Hope.cond _ (Hope.end VarInt.hope (by decide))) fun _ =>
    Hope.bind (j := 7) (Hope.cond _ (by unfold Trans.AckTemplate.read; hope)) fun _ => Hope.pure

theorem Net.bothHeaders_hope_all (cfg : Cfg) : HopeX 0 (Net.bothHeaders cfg)
    fun s => cfg.variant ≠ .wizzilab ∧ s.length = 8 ∧ 4 ≤ Form.value (s.drop 5) := by
  by_cases hv : cfg.variant = .wizzilab
  · have h1 : Hope 0 0 (Net.Header.read cfg) := by
      unfold Net.Header.read
      simp only [P.bind_eq]
      refine Hope.bind (j := 0) ?_ fun c => Hope.bind (j := 0) (Hope.cond _ ?_) fun _ => Hope.bind (j := 0) ?_ fun _ =>
        Hope.bind (j := 0) ?_ fun _ => Hope.pure
      · unfold Net.Control.read AddressType.read NlsMethod.read NlsMethod.width
        rw [hv]
        hope
      · unfold Net.HoppingControl.read AddressType.read
        hope
      · unfold AccessClass.read; hope
      · cases c.originAddressType <;> unfold Address.read <;> hope
    exact HopeG.x (Hope.bind (j := 0) h1 fun n => Hope.bind (j := 7) Trans.Header.hope0 fun _ => Hope.pure) _
  · refine HopeX.mono (Net.bothHeaders_hope cfg hv) fun s hs => ⟨hv, hs.1, ?_⟩
    rw [Form.value_eq]
    exact hs.2

/-! ## What makes it complete -/

theorem bytes_more (data : List U8) {t : List Bool} (h : 8 ∣ t.length) :
    Form.ofBytes (data ++ packBits t) = Form.ofBytes data ++ t ∧
      (data ++ packBits t).length = data.length + t.length / 8 := by
  have h1 : Form.ofBytes (data ++ packBits t) = Form.ofBytes data ++ t := by
    rw [Form.ofBytes_eq, Form.ofBytes_eq, bytesBits_append, bytesBits_packBits t h]
  have h2 := congrArg List.length h1
  rw [Form.ofBytes_eq, Form.ofBytes_eq, List.length_append, bytesBits_length, bytesBits_length] at h2
  exact ⟨h1, by omega⟩

theorem Closes.pick {cfg : Cfg} {size hl : Nat} {s : List Bool} (h : Closes cfg 0 size false s)
    (hb : 8 * size = hl + s.length) : ∃ t bs left n, 8 ∣ t.length ∧
      reading cfg 0 (size + t.length / 8) false bs (s ++ t) left n ∧ (hl + n) / 8 = size + t.length / 8 := by
  obtain ⟨t, bs, A, d, ht, h⟩ := h
  have h0 := h [] (by simp)
  have hc := reading_counts h0
  rw [if_pos rfl] at h0
  simp only [List.append_nil, List.length_append, if_true] at hc h0
  by_cases he : (hl + (A + 0)) / 8 = size + t.length / 8
  · exact ⟨t, bs, [], _, ht, by simpa using h0, he⟩
  · refine ⟨t ++ List.replicate (8 * ((hl + (A + d)) / 8 - (size + t.length / 8))) false, bs,
      List.replicate (8 * ((hl + (A + d)) / 8 - (size + t.length / 8))) false, A + d, ?_, ?_, ?_⟩
    · rw [List.length_append, List.length_replicate]; omega
    · have := h (List.replicate (8 * ((hl + (A + d)) / 8 - (size + t.length / 8))) false) (by rw [List.length_replicate]; omega)
      rw [if_neg] at this
      · exact this
      · intro h0
        have := congrArg List.length h0
        rw [List.length_replicate, List.length_nil] at this
        omega
    · rw [List.length_append, List.length_replicate]; omega

theorem Closes.room {cfg : Cfg} {limit size : Nat} {s : List Bool} (h : Closes cfg limit size false s) (k : Nat)
    {c : List Bool} (hc : 8 ∣ c.length) : ∃ t u bs n, 8 ∣ t.length ∧ 8 ∣ u.length ∧
      reading cfg limit (size + (t ++ (c ++ u)).length / 8) false bs (s ++ (t ++ (c ++ u))) (c ++ u) n ∧
      (k + n) / 8 ≤ size + (t ++ (c ++ u)).length / 8 := by
  obtain ⟨t, bs, A, d, ht, h⟩ := h
  refine ⟨t, List.replicate (8 * (k + A + d)) false, bs, _, ht, by rw [List.length_replicate]; omega,
    h _ (by rw [List.length_append, List.length_replicate]; omega), ?_⟩
  simp only [List.length_append, List.length_replicate]
  split <;> omega

/-- What no action could be read from, none can be read from with more input. -/
theorem lost_refuses {cfg : Cfg} (hc : cfg.seekClears = true) {limit size : Nat} {s t : List Bool} (ht : 8 ∣ t.length)
    (h : LostActions cfg limit size s) :
    ∃ as left e, continuing cfg limit (size + t.length / 8) as (s ++ t) left ∧ refuses cfg left e := by
  obtain ⟨as, left, h, h8, hx⟩ := h
  refine ⟨as, left ++ t, ?_⟩
  have hop : opAt 2 (left ++ t) = opAt 2 left := by unfold opAt; rw [code_front h8]
  cases hd : (Action.dispatch cfg (opAt 2 left)).eval (wholeBytes left ++ t) with
  | ok x =>
    exfalso
    rw [shut_iff, Form.value_eq] at hx
    have := Action.opAt_bits (c := left) (s' := []) h8
    rw [List.append_nil] at this
    rw [← this] at hx
    exact Action.dispatch_lost (by rw [wholeBytes_length]; omega) (by rw [wholeBytes_length]; omega) hx _ _ _ hd
  | error e =>
    refine ⟨e, continuing_longer hc ht h, ?_⟩
    obtain ⟨d, off, hle, hs⟩ := some_input (left ++ t)
    refine ⟨d, off, hle, hs, (Action.fromReader_error hle e).2 ?_⟩
    obtain ⟨r0, hp, -, hrem, -, -⟩ := (startAt_part d off).1 hle
    refine ⟨r0, hp, by rw [Form.ofBytes_eq, hrem], ?_⟩
    rw [Action.read_error hp.ready, hrem, ← Form.ofBytes_eq, hs, stepped_clear hc, wholeBytes_append ht, hop]
    exact .inr ⟨by rw [List.length_append]; omega, hd⟩

theorem derivedFromBytes_incomplete {α : Type} {m : R α} {data : List U8}
    (h : derivedFromBytes m (data, 0) = .error .incomplete) : m (Rd.new data) = .error .incomplete := by
  unfold derivedFromBytes at h
  rw [show startAt 0 m (Rd.new data) = m (Rd.new data) by simp [startAt]] at h
  split at h
  · rename_i e he
    cases h
    exact he
  · unfold sliceFrom at h
    split at h
    · cases h
    · rename_i e hs
      split at hs <;> cases hs
      cases h

theorem Rd.new_part (data : List U8) : (Rd.new data).Part := ⟨(Rd.new_con data).toOK, by simp [Rd.new]⟩

/-! ## Transport frames -/

theorem Trans.closes {cfg : Cfg} (hc : cfg.seekClears = true) {data : List U8}
    (h : Trans.Frame.read cfg 0 (Rd.new data) = .error .incomplete)
    (hno : ¬ LostTransport cfg 0 data.length (Form.ofBytes data)) :
    ∃ t0 x head body, 8 ∣ t0.length ∧ Form.ofBytes data ++ t0 = head ++ body ∧ Form.transHeader x head ∧
      Closes cfg 0 (data.length + t0.length / 8) false body := by
  rcases Trans.Frame.read_only (Rd.new_part data) h with h | ⟨x, as, left, ⟨head, body, hs, hF, hcon⟩, hr⟩
  · rw [Rd.new_rem] at h
    obtain ⟨t, x, -, hx⟩ := Trans.Header.hope0.more _ (by rw [bytesBits_length]; omega) h
    have hF := (Trans.Header.fits.whole _ _).1 hx
    have h7 := Form.transHeader_mod8 hF
    rw [List.length_append, bytesBits_length] at h7
    refine ⟨t ++ [false], x, bytesBits data ++ t, [false], ?_, by rw [Form.ofBytes_eq]; simp, hF, Closes.short hc (by simp)⟩
    rw [List.length_append, List.length_singleton]; omega
  · rw [Rd.new_rem, ← Form.ofBytes_eq] at hs
    refine ⟨[], x, head, body, by simp, by simpa using hs, hF, ?_⟩
    have h7 := Form.transHeader_mod8 hF
    have hl := congrArg List.length hs
    rw [Form.ofBytes_eq, bytesBits_length, List.length_append] at hl
    exact Closes.cut_command hc (by omega) hcon hr fun hL => hno ⟨x, head, body, hs, hF, hL⟩

theorem Trans.lost {cfg : Cfg} (hc : cfg.seekClears = true) {data : List U8}
    (h : LostTransport cfg 0 data.length (Form.ofBytes data)) (more : List U8) :
    ∃ e, Trans.Frame.tryFrom cfg (data ++ more) = .error e ∧ Trans.Frame.fromBytes cfg (data ++ more, 0) = .error e := by
  obtain ⟨x, head, body, hs, hF, hL⟩ := h
  have ht : 8 ∣ (Form.ofBytes more).length := by rw [Form.ofBytes_eq, bytesBits_length]; omega
  obtain ⟨as, left, e, hcon, hr⟩ := lost_refuses hc ht hL
  obtain ⟨_, fh, -⟩ := ForegroundHeader.hope.can
  obtain ⟨_, ⟨nh, _⟩, -⟩ := (Net.bothHeaders_hope_all cfg).can
  refine ⟨e, (C50_frames cfg (data ++ more) fh nh x as left e hr).1 ⟨head, body ++ Form.ofBytes more, ?_, hF, ?_⟩⟩
  · rw [Form.ofBytes_append, hs, List.append_assoc]
  · rw [show (data ++ more).length = data.length + (Form.ofBytes more).length / 8 by
      rw [Form.ofBytes_eq, bytesBits_length, List.length_append]; omega]
    exact hcon

/-- **C84** (partial: seeking has to drop the bits kept back) In every build, a transport frame for which `try_from` asks
for more input can be completed, unless it is one of `Spec.LostTransport`. -/
theorem C84_transport_partial (cfg : Cfg) (hc : cfg.seekClears = true) (data : List U8)
    (h : Trans.Frame.tryFrom cfg data = .error .incomplete) :
    (∃ more f, Trans.Frame.tryFrom cfg (data ++ more) = .ok f) ↔
      ¬ LostTransport cfg 0 data.length (Form.ofBytes data) := by
  constructor
  · rintro ⟨more, f, hf⟩ hL
    obtain ⟨e, he, -⟩ := Trans.lost hc hL more
    rw [he] at hf
    cases hf
  · intro hno
    obtain ⟨t0, x, head, body, ht0, hs, hF, hcl⟩ := Trans.closes hc (derivedTryFrom_incomplete h) hno
    have hl := congrArg List.length hs
    rw [List.length_append, List.length_append, Form.ofBytes_eq, bytesBits_length] at hl
    obtain ⟨t, bs, left, n, ht, hr, hn⟩ := hcl.pick (hl := head.length) (by omega)
    have hx : 8 ∣ (t0 ++ t).length := by rw [List.length_append]; omega
    obtain ⟨h1, h2⟩ := bytes_more data hx
    have hsz : (data ++ packBits (t0 ++ t)).length = data.length + t0.length / 8 + t.length / 8 := by
      rw [h2, List.length_append]; omega
    refine ⟨packBits (t0 ++ t), ⟨x, ⟨bs⟩⟩, (C58_transport cfg _ _).2 ⟨left, head.length + n,
      ⟨head, body ++ t, n, ?_, hF, by rw [hsz]; exact hr, rfl⟩, by rw [hsz]; exact hn⟩⟩
    rw [h1, ← List.append_assoc, hs, List.append_assoc]

/-- **C84** (partial: the same) and likewise for `from_bytes`. -/
theorem C84_transport_from_bytes_partial (cfg : Cfg) (hc : cfg.seekClears = true) (data : List U8)
    (h : Trans.Frame.fromBytes cfg (data, 0) = .error .incomplete) :
    (∃ more rest f, Trans.Frame.fromBytes cfg (data ++ more, 0) = .ok (rest, f)) ↔
      ¬ LostTransport cfg 0 data.length (Form.ofBytes data) := by
  constructor
  · rintro ⟨more, rest, f, hf⟩ hL
    obtain ⟨e, -, he⟩ := Trans.lost hc hL more
    rw [he] at hf
    cases hf
  · intro hno
    obtain ⟨t0, x, head, body, ht0, hs, hF, hcl⟩ := Trans.closes hc (derivedFromBytes_incomplete h) hno
    obtain ⟨t, u, bs, n, ht, hu, hr, hn⟩ := hcl.room (head.length) (c := []) (by simp)
    have hy : 8 ∣ (t ++ ([] ++ u)).length := by simp only [List.length_append, List.length_nil]; omega
    have hx : 8 ∣ (t0 ++ (t ++ ([] ++ u))).length := by rw [List.length_append]; omega
    obtain ⟨h1, h2⟩ := bytes_more data hx
    have hsz : (data ++ packBits (t0 ++ (t ++ ([] ++ u)))).length =
        data.length + t0.length / 8 + (t ++ ([] ++ u)).length / 8 := by
      rw [h2, List.length_append]; omega
    refine ⟨packBits (t0 ++ (t ++ ([] ++ u))), _, ⟨x, ⟨bs⟩⟩, (C58_transport_from_bytes cfg _ 0 _ _).2 ⟨by omega, [] ++ u,
      head.length + n, ⟨head, body ++ (t ++ ([] ++ u)), n, ?_, hF, by rw [hsz]; exact hr, rfl⟩, ?_, rfl⟩⟩
    · rw [List.drop_zero, h1, ← List.append_assoc, hs, List.append_assoc]
    · rw [hsz, Nat.zero_add]; exact hn

/-! ## Network frames -/

/-- The headers of a network frame, completed if they must be, and what follows them. -/
theorem Net.closes {cfg : Cfg} (hc : cfg.seekClears = true) {L : U32} {r : Rd} {q : List U8} (hp : r.Part)
    (hq : r.rem = bytesBits q) (h : Net.Frame.read cfg L r = .error .incomplete)
    (hno : ¬ LostNetworkBits cfg L.toNat r.data.length (Form.ofBytes q)) :
    ∃ t0 n x head tail body, 8 ∣ t0.length ∧ Form.ofBytes q ++ t0 = head ++ (tail ++ body) ∧
      Form.netHeader cfg.variant n head ∧ Form.transHeader x tail ∧
      Closes cfg L.toNat (r.data.length + t0.length / 8) false body := by
  rcases Net.Frame.read_only hp h with h | ⟨n, x, as, head, rest, left, hs, hN, ⟨tail, body, rfl, hF, hcon⟩, hr⟩
  · rw [hq] at h
    rcases (Net.bothHeaders_hope_all cfg).more _ (by rw [bytesBits_length]; omega) h with hL | ⟨t, ⟨n, x⟩, hx⟩
    · refine absurd (.inl ?_) hno
      rw [Form.ofBytes_eq]
      exact hL
    · obtain ⟨head, _, hs, hN, tail, _, rfl, hF, rfl⟩ := ((Net.bothHeaders_fits cfg).whole _ _).1 hx
      have h1 := Form.netHeader_mod8 hN
      have h2 := Form.transHeader_mod8 hF
      have hl := congrArg List.length hs
      simp only [List.length_append, bytesBits_length, List.length_nil] at hl
      by_cases hv : cfg.variant = .wizzilab
      · rw [if_pos hv] at h1
        refine ⟨t ++ [false], n, x, head, tail, [false], ?_, ?_, hN, hF, Closes.short hc (by simp)⟩
        · rw [List.length_append, List.length_singleton]; omega
        · rw [Form.ofBytes_eq, ← List.append_assoc, hs]; simp
      · rw [if_neg hv] at h1
        refine ⟨t, n, x, head, tail, [], by omega, ?_, hN, hF, Closes.short hc (by simp)⟩
        rw [Form.ofBytes_eq, hs]
  · rw [hq, ← Form.ofBytes_eq] at hs
    have h1 := Form.netHeader_mod8 hN
    have h2 := Form.transHeader_mod8 hF
    have hl := congrArg List.length hs
    simp only [Form.ofBytes_eq, List.length_append, bytesBits_length] at hl
    refine ⟨[], n, x, head, tail, body, by simp, by simpa using hs, hN, hF, ?_⟩
    refine Closes.cut_command hc (by split at h1 <;> omega) hcon hr fun hL => hno ?_
    exact .inr ⟨n, head, _, hs, hN, x, tail, body, rfl, hF, hL⟩

/-- Nothing makes headers of a single byte that begins no security method. -/
theorem Net.header_lost {cfg : Cfg} (hv : cfg.variant ≠ .wizzilab) {s t head body : List Bool} {n : Net.Header}
    (h8 : s.length = 8) (h4 : 4 ≤ Form.value (s.drop 5)) (hs : s ++ t = head ++ body)
    (hN : Form.netHeader cfg.variant n head) : False := by
  obtain ⟨c, rest, rfl, hc1, -⟩ := hN
  have hev := (Net.Control.fits cfg _ c (rest ++ body)).2 hc1
  rw [← List.append_assoc, ← hs] at hev
  rw [Form.value_eq] at h4
  exact Net.Control.lost cfg hv h8 h4 hev

theorem Net.lost {cfg : Cfg} (hc : cfg.seekClears = true) {data : List U8}
    (h : LostNetworkBits cfg 0 data.length (Form.ofBytes data)) (more : List U8) :
    (∀ f, Net.Frame.tryFrom cfg (data ++ more) ≠ .ok f) ∧
      ∀ rest f, Net.Frame.fromBytes cfg (data ++ more, 0) ≠ .ok (rest, f) := by
  have ht : 8 ∣ (Form.ofBytes more).length := by rw [Form.ofBytes_eq, bytesBits_length]; omega
  rcases h with ⟨hv, h8, h4⟩ | ⟨n, head, _, hs, hN, x, tail, body, rfl, hF, hL⟩
  · constructor
    · intro f hf
      obtain ⟨left, m, ⟨head, body, k, hs, hN, -⟩, -⟩ := (C58_network cfg _ f).1 hf
      rw [Form.ofBytes_append] at hs
      exact Net.header_lost hv h8 h4 hs hN
    · intro rest f hf
      obtain ⟨-, left, m, ⟨head, body, k, hs, hN, -⟩, -⟩ := (C58_network_from_bytes cfg _ 0 f rest).1 hf
      rw [List.drop_zero, Form.ofBytes_append] at hs
      exact Net.header_lost hv h8 h4 hs hN
  · obtain ⟨as, left, e, hcon, hr⟩ := lost_refuses hc ht hL
    obtain ⟨_, fh, -⟩ := ForegroundHeader.hope.can
    have := (C50_frames cfg (data ++ more) fh n x as left e hr).2.1 head (tail ++ (body ++ Form.ofBytes more))
      (by rw [Form.ofBytes_append, hs]; simp) hN ⟨tail, _, rfl, hF, by
        rw [show (data ++ more).length = data.length + (Form.ofBytes more).length / 8 by
          rw [Form.ofBytes_eq, bytesBits_length, List.length_append]; omega]
        exact hcon⟩
    constructor
    · intro f hf; rw [this.1] at hf; cases hf
    · intro rest f hf; rw [this.2] at hf; cases hf

/-- **C84** (partial: the same) In every build, a network frame for which `try_from` asks for more input can be
completed, unless it is one of `Spec.LostNetworkBits`. -/
theorem C84_network_every_partial (cfg : Cfg) (hc : cfg.seekClears = true) (data : List U8)
    (h : Net.Frame.tryFrom cfg data = .error .incomplete) :
    (∃ more f, Net.Frame.tryFrom cfg (data ++ more) = .ok f) ↔
      ¬ LostNetworkBits cfg 0 data.length (Form.ofBytes data) := by
  constructor
  · rintro ⟨more, f, hf⟩ hL
    exact (Net.lost hc hL more).1 f hf
  · intro hno
    obtain ⟨t0, nh, x, head, tail, body, ht0, hs, hN, hF, hcl⟩ := Net.closes hc (Rd.new_part data) (Rd.new_rem data)
      (derivedTryFrom_incomplete h) hno
    have hl := congrArg List.length hs
    simp only [List.length_append, Form.ofBytes_eq, bytesBits_length] at hl
    obtain ⟨t, bs, left, n, ht, hr, hn⟩ := Closes.pick hcl (hl := head.length + tail.length)
      (by rw [show (Rd.new data).data = data from rfl]; omega)
    rw [show (Rd.new data).data = data from rfl] at hr hn
    have hx : 8 ∣ (t0 ++ t).length := by rw [List.length_append]; omega
    obtain ⟨h1, h2⟩ := bytes_more data hx
    have hsz : (data ++ packBits (t0 ++ t)).length = data.length + t0.length / 8 + t.length / 8 := by
      rw [h2, List.length_append]; omega
    refine ⟨packBits (t0 ++ t), ⟨nh, ⟨x, ⟨bs⟩⟩⟩, (C58_network cfg _ _).2 ⟨left, head.length + (tail.length + n),
      ⟨head, tail ++ (body ++ t), _, ?_, hN, ⟨tail, body ++ t, n, rfl, hF, by rw [hsz]; exact hr, rfl⟩, rfl⟩, ?_⟩⟩
    · rw [h1, ← List.append_assoc, hs]; simp
    · rw [hsz, ← Nat.add_assoc]; exact hn

/-- **C84** (partial: the same) and likewise for `from_bytes`. -/
theorem C84_network_from_bytes_partial (cfg : Cfg) (hc : cfg.seekClears = true) (data : List U8)
    (h : Net.Frame.fromBytes cfg (data, 0) = .error .incomplete) :
    (∃ more rest f, Net.Frame.fromBytes cfg (data ++ more, 0) = .ok (rest, f)) ↔
      ¬ LostNetworkBits cfg 0 data.length (Form.ofBytes data) := by
  constructor
  · rintro ⟨more, rest, f, hf⟩ hL
    exact (Net.lost hc hL more).2 rest f hf
  · intro hno
    obtain ⟨t0, nh, x, head, tail, body, ht0, hs, hN, hF, hcl⟩ := Net.closes hc (Rd.new_part data) (Rd.new_rem data)
      (derivedFromBytes_incomplete h) hno
    obtain ⟨t, u, bs, n, ht, hu, hr, hn⟩ := hcl.room (head.length + tail.length) (c := []) (by simp)
    rw [show (Rd.new data).data = data from rfl] at hr hn
    have hy : 8 ∣ (t ++ ([] ++ u)).length := by simp only [List.length_append, List.length_nil]; omega
    have hx : 8 ∣ (t0 ++ (t ++ ([] ++ u))).length := by rw [List.length_append]; omega
    obtain ⟨h1, h2⟩ := bytes_more data hx
    have hsz : (data ++ packBits (t0 ++ (t ++ ([] ++ u)))).length =
        data.length + t0.length / 8 + (t ++ ([] ++ u)).length / 8 := by
      rw [h2, List.length_append]; omega
    refine ⟨packBits (t0 ++ (t ++ ([] ++ u))), _, ⟨nh, ⟨x, ⟨bs⟩⟩⟩, (C58_network_from_bytes cfg _ 0 _ _).2 ⟨by omega, [] ++ u,
      head.length + (tail.length + n), ⟨head, tail ++ (body ++ (t ++ ([] ++ u))), _, ?_, hN,
      ⟨tail, body ++ (t ++ ([] ++ u)), n, rfl, hF, by rw [hsz]; exact hr, rfl⟩, rfl⟩, ?_, rfl⟩⟩
    · rw [List.drop_zero, h1, ← List.append_assoc, hs]; simp
    · rw [hsz, Nat.zero_add, ← Nat.add_assoc]; exact hn

/-! ## Foreground frames -/

/-- The headers of a foreground frame and the command behind them, completed, in front of what is there of a CRC. -/
theorem Foreground.complete {cfg : Cfg} {data : List U8} {t0 link head tail body : List Bool} {fh : ForegroundHeader}
    {nh : Net.Header} {x : Trans.Header} (ht0 : 8 ∣ t0.length)
    (hs : Form.ofBytes data ++ t0 = link ++ (head ++ (tail ++ body))) (hK : Form.foregroundHeader fh link)
    (hN : Form.netHeader cfg.variant nh head) (hF : Form.transHeader x tail)
    (hcl : Closes cfg fh.length.val.toNat (data.length + t0.length / 8) false body) :
    ∃ more rest f, ForegroundFrame.fromBytes cfg (data ++ more, 0) = .ok (rest, f) := by
  have h16 : (Form.ofBytes [0, 0]).length = 16 := rfl
  obtain ⟨t, u, bs, n, ht, hu, hr, hn⟩ := hcl.room (link.length + head.length + tail.length + 16)
    (c := Form.ofBytes [0, 0]) (by decide)
  generalize hC : Form.ofBytes [0, 0] = C at *
  have hy : 8 ∣ (t ++ (C ++ u)).length := by simp only [List.length_append, h16]; omega
  have hx : 8 ∣ (t0 ++ (t ++ (C ++ u))).length := by rw [List.length_append]; omega
  obtain ⟨h1, h2⟩ := bytes_more data hx
  have hsz : (data ++ packBits (t0 ++ (t ++ (C ++ u)))).length =
      data.length + t0.length / 8 + (t ++ (C ++ u)).length / 8 := by
    rw [h2, List.length_append]; omega
  refine ⟨packBits (t0 ++ (t ++ (C ++ u))), _, ⟨fh, ⟨nh, ⟨x, ⟨bs⟩⟩⟩, hostPair cfg.bigEndianHost 0 0⟩,
    (C58_foreground_from_bytes cfg _ 0 _ _).2 ⟨by omega, u, link.length + (head.length + (tail.length + n)) + C.length,
      ⟨link, head ++ (tail ++ (body ++ (t ++ (C ++ u)))), C, _, ?_, hK,
        ⟨head, tail ++ (body ++ (t ++ (C ++ u))), _, rfl, hN,
          ⟨tail, body ++ (t ++ (C ++ u)), n, rfl, hF, by rw [hsz]; exact hr, rfl⟩, rfl⟩, ?_, rfl⟩, ?_, rfl⟩⟩
  · rw [List.drop_zero, h1, ← List.append_assoc, hs]; simp
  · rw [← hC]; exact (hostPair_form _ _ _ _).2 rfl
  · rw [hsz, h16, Nat.zero_add]
    refine Nat.le_trans (Nat.le_of_eq ?_) hn
    congr 1; omega

theorem Foreground.lost {cfg : Cfg} (hc : cfg.seekClears = true) {data : List U8}
    (h : LostForegroundBits cfg data.length (Form.ofBytes data)) (more : List U8) (rest : Rest) (f : ForegroundFrame) :
    ForegroundFrame.fromBytes cfg (data ++ more, 0) ≠ .ok (rest, f) := by
  have ht : 8 ∣ (Form.ofBytes more).length := by rw [Form.ofBytes_eq, bytesBits_length]; omega
  obtain ⟨fh, link, q, hs, hK, h⟩ := h
  intro hf
  rcases h with ⟨hv, h8, h4⟩ | ⟨n, head, _, rfl, hN, x, tail, body, rfl, hF, hL⟩
  · obtain ⟨-, left, m, ⟨link', body', crc, k, hs', hK', ⟨head, body, k', rfl, hN, -⟩, -⟩, -⟩ :=
      (C58_foreground_from_bytes cfg _ 0 f rest).1 hf
    rw [List.drop_zero, Form.ofBytes_append, hs, List.append_assoc] at hs'
    obtain ⟨-, -, hq⟩ := ForegroundHeader.fits.only hK hK' hs'
    exact Net.header_lost hv h8 h4 hq hN
  · obtain ⟨as, left, e, hcon, hr⟩ := lost_refuses hc ht hL
    have := (C50_frames cfg (data ++ more) fh n x as left e hr).2.2 link head (tail ++ (body ++ Form.ofBytes more))
      (by rw [Form.ofBytes_append, hs]; simp) hK hN ⟨tail, _, rfl, hF, by
        rw [show (data ++ more).length = data.length + (Form.ofBytes more).length / 8 by
          rw [Form.ofBytes_eq, bytesBits_length, List.length_append]; omega]
        exact hcon⟩
    rw [this.2] at hf
    cases hf

/-- **C84** (partial: the same) In every build, a foreground frame for which `from_bytes` asks for more input can be
completed, unless it is one of `Spec.LostForegroundBits`. -/
theorem C84_foreground_from_bytes_partial (cfg : Cfg) (hc : cfg.seekClears = true) (data : List U8)
    (h : ForegroundFrame.fromBytes cfg (data, 0) = .error .incomplete) :
    (∃ more rest f, ForegroundFrame.fromBytes cfg (data ++ more, 0) = .ok (rest, f)) ↔
      ¬ LostForegroundBits cfg data.length (Form.ofBytes data) := by
  constructor
  · rintro ⟨more, rest, f, hf⟩ hL
    exact Foreground.lost hc hL more rest f hf
  · intro hno
    have hr := derivedFromBytes_incomplete h
    unfold ForegroundFrame.read at hr
    simp only [R.bind_eq] at hr
    unfold R.bind at hr
    split at hr
    · rename_i fh r1 h1
      obtain ⟨link, hK, hrem, -, hd, -, hpart⟩ := ForegroundHeader.fits.ok (Rd.new_part data).toOK h1
      have hp1 := hpart (Rd.new_part data)
      rw [Rd.new_rem] at hrem
      have hd1 : r1.data.length = data.length := by rw [hd]; rfl
      obtain ⟨_, q, rfl, rfl, hq, -⟩ := bytesBits_suffix hrem (Form.foregroundHeader_dvd hK).1
      rename_i lb
      dsimp only at hr
      split at hr
      · rename_i nf r2 h2
        obtain ⟨n, ⟨head, _, _, hs1, hN, ⟨tail, body, m, rfl, hF, hread, -⟩, -⟩, hok2, -, -⟩ :=
          (Net.Frame.takes cfg fh.length.val).conv hp1 h2
        have hev := reading_even hc hread (by simp)
        have hs2 : Form.ofBytes (lb ++ q) = bytesBits lb ++ (head ++ (tail ++ body)) := by
          rw [Form.ofBytes_eq, bytesBits_append, ← hq, hs1]
        rw [hd1] at hread
        split at hr
        · cases hr
        · rename_i e h3
          have h3 := P.run_err' _ hok2 h3
          by_cases h0 : r2.rem = []
          · rw [h0] at hread
            refine Foreground.complete (t0 := []) (by simp) (by simpa using hs2) hK hN hF ?_
            simpa using Closes.whole hc hread
          · obtain ⟨c, hcb⟩ : ∃ c, r2.rem = bytesBits c := ⟨packBits r2.rem, (bytesBits_packBits _ hev).symm⟩
            rw [hcb] at h3
            have hle := host_short h3
            obtain ⟨c1, d1, z, hz⟩ : ∃ c1 d1 z, c ++ z = [c1, d1] := by
              match c, hle with
              | [], _ => exact absurd hcb h0
              | [c], _ => exact ⟨c, 0, [0], rfl⟩
              | [c, d], _ => exact ⟨c, d, [], rfl⟩
            have hu : ∀ k, 8 ∣ (bytesBits (z ++ List.replicate k 0)).length := by
              intro k; rw [bytesBits_length]; omega
            let k := lb.length + q.length + head.length + tail.length + m + 100
            have hr' := reading_longer hc h0 (hu k) hread
            refine ⟨z ++ List.replicate k 0, _, ⟨fh, nf, hostPair cfg.bigEndianHost c1 d1⟩,
              (C58_foreground_from_bytes cfg _ 0 _ _).2 ⟨by omega, bytesBits (List.replicate k 0),
                (bytesBits lb).length + (head.length + (tail.length + m)) + (Form.ofBytes [c1, d1]).length,
                ⟨bytesBits lb, head ++ (tail ++ (body ++ bytesBits (z ++ List.replicate k 0))), Form.ofBytes [c1, d1], _, ?_, hK,
                  ⟨head, tail ++ (body ++ bytesBits (z ++ List.replicate k 0)), _, rfl, hN,
                    ⟨tail, body ++ bytesBits (z ++ List.replicate k 0), m, rfl, hF, ?_, rfl⟩, rfl⟩,
                  (hostPair_form _ _ _ _).2 rfl, rfl⟩, ?_, rfl⟩⟩
            · rw [List.drop_zero, Form.ofBytes_append, hs2, Form.ofBytes_eq]; simp
            · have e1 : Form.ofBytes [c1, d1] ++ bytesBits (List.replicate k 0) =
                  r2.rem ++ bytesBits (z ++ List.replicate k 0) := by
                rw [← hz, Form.ofBytes_eq, hcb, bytesBits_append, bytesBits_append, List.append_assoc]
              have e2 : (lb ++ q ++ (z ++ List.replicate k 0)).length =
                  (lb ++ q).length + (bytesBits (z ++ List.replicate k 0)).length / 8 := by
                rw [bytesBits_length, List.length_append]; omega
              rw [e1, e2]
              exact hr'
            · rw [Form.ofBytes_eq, bytesBits_length, bytesBits_length]
              simp only [List.length_append, List.length_replicate, List.length_cons, List.length_nil]
              omega
      · rename_i e h2
        cases hr
        have hno' : ¬ LostNetworkBits cfg fh.length.val.toNat r1.data.length (Form.ofBytes q) := by
          intro hL
          rw [hd1] at hL
          exact hno ⟨fh, bytesBits lb, Form.ofBytes q, by simp only [Form.ofBytes_eq, bytesBits_append], hK, hL⟩
        obtain ⟨t0, nh, x, head, tail, body, ht0, hs, hN, hF, hcl⟩ := Net.closes hc hp1 hq h2 hno'
        rw [hd1] at hcl
        refine Foreground.complete ht0 ?_ hK hN hF hcl
        rw [Form.ofBytes_append, List.append_assoc, hs, Form.ofBytes_eq]
    · rename_i e h1
      cases hr
      have h1 := P.run_err' _ (Rd.new_con data).toOK h1
      rw [Rd.new_rem] at h1
      obtain ⟨t, fh, -, ht⟩ := ForegroundHeader.hope.more _ (by rw [bytesBits_length]; omega) h1
      have hK := (ForegroundHeader.fits.whole _ _).1 ht
      have hd := (Form.foregroundHeader_dvd hK).1
      rw [List.length_append, bytesBits_length] at hd
      obtain ⟨s, ⟨nh, x⟩, hx⟩ := (Net.bothHeaders_hope_all cfg).can
      obtain ⟨head, _, rfl, hN, tail, _, rfl, hF, rfl⟩ := ((Net.bothHeaders_fits cfg).whole _ _).1 hx
      have m1 := Form.netHeader_mod8 hN
      have m2 := Form.transHeader_mod8 hF
      by_cases hv : cfg.variant = .wizzilab
      · rw [if_pos hv] at m1
        refine Foreground.complete (body := [false]) (t0 := t ++ (head ++ (tail ++ [false]))) ?_ ?_ hK hN hF (Closes.short hc (by simp))
        · simp only [List.length_append, List.length_singleton]; omega
        · rw [Form.ofBytes_eq]; simp
      · rw [if_neg hv] at m1
        refine Foreground.complete (body := []) (t0 := t ++ (head ++ (tail ++ []))) ?_ ?_ hK hN hF (Closes.short hc (by simp))
        · simp only [List.length_append, List.length_nil]; omega
        · rw [Form.ofBytes_eq]; simp

/-! ## Frames beyond help -/

/-- **C84** In every build (seeking dropping the bits kept back) there are transport frames for which more input is asked
although no input helps: `0x44`, read from the last bit of the header on, begins an interface status, and `0x02` names an
interface no status of which can be read. -/
theorem C84_transport_violates (cfg : Cfg) (hc : cfg.seekClears = true) :
    Trans.Frame.tryFrom cfg [0, 0, 0, 0x44, 0x02] = .error .incomplete ∧
    ∀ more f, Trans.Frame.tryFrom cfg ([0, 0, 0, 0x44, 0x02] ++ more) ≠ .ok f := by
  have h1 : Trans.Frame.tryFrom cfg [0, 0, 0, 0x44, 0x02] = .error .incomplete := by
    rcases cfg with ⟨v, a, b, c, d⟩
    cases hc
    cases v <;> revert a b d <;> decide +kernel
  refine ⟨h1, fun more f hf => (C84_transport_partial cfg hc _ h1).1 ⟨more, f, hf⟩ ?_⟩
  refine ⟨⟨⟨false, false, false, false, false, false, false⟩, 0, 0, none, none, none, none, none⟩, _, _,
    (List.take_append_drop 23 _).symm, (Trans.Header.fits _ _ []).1 (by decide +kernel), [], _,
    ⟨rfl, not_limit_zero _, ?_⟩, ?_, ?_⟩
  · rw [asked_unlimited]; decide +kernel
  · rw [asked_unlimited]; decide +kernel
  · rw [asked_unlimited]
    exact .inr (.inl (by decide +kernel))

/-- **C84** In wizzilab builds `try_from` asks for more input for foreground frames that no input completes for it: those
the length of which is so small that no action is read. The reader stands within a byte when the command ends, the bits
it drops are not counted, and so some byte always seems to be too much. -/
theorem C84_short_violates (cfg : Cfg) (hv : cfg.variant = .wizzilab) (hc : cfg.seekClears = true) (fh : ForegroundHeader)
    (link : List U8) (hK : Form.foregroundHeader fh (Form.ofBytes link)) (h0 : fh.length.val.toNat ≠ 0)
    (hle : fh.length.val.toNat ≤ link.length) :
    ForegroundFrame.tryFrom cfg link = .error .incomplete ∧
      ∀ more f, ForegroundFrame.tryFrom cfg (link ++ more) ≠ .ok f := by
  constructor
  · have hK' := hK
    rw [Form.ofBytes_eq] at hK'
    obtain ⟨r1, hr1, -, -, hm, -, hpart⟩ := ForegroundHeader.fits.form (Rd.new_part link).toOK hK' (s := []) (by simp)
    have hp1 := hpart (Rd.new_part link)
    have hN : Net.Frame.read cfg fh.length.val r1 = .error .incomplete := by
      cases hn : Net.Frame.read cfg fh.length.val r1 with
      | ok y =>
        exfalso
        obtain ⟨nf, r2⟩ := y
        obtain ⟨n, ⟨head, body, m, hs, hN, -⟩, -⟩ := (Net.Frame.takes cfg fh.length.val).conv hp1 hn
        rw [hm] at hs
        have hh := (List.append_eq_nil_iff.1 hs.symm).1
        subst hh
        obtain ⟨c, rest, he, hcc, -⟩ := hN
        have := (List.append_eq_nil_iff.1 he.symm).1
        subst this
        have := (Net.Control.fits cfg _ [] []).2 hcc
        rcases cfg with ⟨v, a, b, c, d⟩
        cases hv
        cases this
      | error e =>
        rcases Net.Frame.read_only hp1 hn with h | ⟨n, x, as, head, body, left, hs, hN, -⟩
        · rw [hm] at h
          rcases cfg with ⟨v, a, b, c, d⟩
          cases hv
          cases h
          rfl
        · exfalso
          rw [hm] at hs
          have hh := (List.append_eq_nil_iff.1 hs.symm).1
          subst hh
          obtain ⟨c, rest, he, hcc, -⟩ := hN
          have := (List.append_eq_nil_iff.1 he.symm).1
          subst this
          have := (Net.Control.fits cfg _ [] []).2 hcc
          rcases cfg with ⟨v, a, b, c, d⟩
          cases hv
          cases this
    unfold ForegroundFrame.tryFrom derivedTryFrom
    have : ForegroundFrame.read cfg (Rd.new link) = .error .incomplete := by
      unfold ForegroundFrame.read
      simp only [R.bind_eq, R.bind, hr1, hN]
    rw [this]
  · intro more f hf
    obtain ⟨left, n, ⟨lk, _, crc, m, hs, hK', ⟨head, _, m2, rfl, hN, ⟨tail, body, m3, rfl, hF, hr, rfl⟩, rfl⟩, hcrc, rfl⟩, hn⟩ :=
      (C58_foreground cfg _ f).1 hf
    rw [Form.ofBytes_append] at hs
    obtain ⟨rfl, rfl, hs'⟩ := ForegroundHeader.fits.only hK hK' hs
    have m1 := Form.netHeader_mod8 hN
    rw [if_pos hv] at m1
    have m2 := Form.transHeader_mod8 hF
    have h16 : crc.length = 16 := by
      obtain ⟨cs, rfl, hl, -⟩ := hcrc
      rw [Form.ofBytes_eq, bytesBits_length] at hl ⊢
      have : (if cfg.bigEndianHost then cs else cs.reverse).length = cs.length := by
        cases cfg.bigEndianHost <;> simp
      omega
    have hl := congrArg List.length hs'
    simp only [Form.ofBytes_eq, bytesBits_length, List.length_append] at hl
    have hask : (asked cfg f.header.length.val.toNat body).length = body.length - body.length % 8 := by
      rw [asked, if_pos ⟨h0, hc⟩, wholeBytes_length]
    have hreach : limitReached f.header.length.val.toNat
        (bytePosition (link ++ more).length (asked cfg f.header.length.val.toNat body)) := by
      refine ⟨h0, ?_⟩
      unfold bytePosition
      rw [hask, List.length_append]
      omega
    cases has : f.frame.frame.command.actions with
    | nil =>
      rw [has] at hr
      obtain ⟨he, hm⟩ := hr
      have hl2 := congrArg List.length he
      rw [hask, List.length_append, h16] at hl2
      rw [← he] at hreach
      rcases hm with ⟨-, rfl⟩ | ⟨h, -⟩
      · rw [h16, Form.ofBytes_eq, bytesBits_length, List.length_append] at hn
        omega
      · exact h hreach
    | cons a as =>
      rw [has] at hr
      exact hr.1 hreach

/-! ## Cases -/

/-- Frames refused for want of a header, for an action, and for want of a CRC. -/
example : Trans.Frame.fromBytes spec ([0], 3) = .error .incomplete ∧
    Trans.Frame.fromBytes spec ([0, 0, 0, 0x14, 0, 0, 0], 0) = .error (.fault .parse) ∧
    Net.Frame.fromBytes spec ([0, 0x60, 0], 0) = .error .incomplete ∧
    ForegroundFrame.fromBytes spec (foregroundWire.take 26, 0) = .error .incomplete := by decide +kernel

theorem completes {α : Type} {g : List U8 → Except Err α} {l : List U8} (h : (g l).isOk = true) (n : Nat) :
    ∃ more f, g (l.take n ++ more) = .ok f := by
  refine ⟨l.drop n, ?_⟩
  rw [List.take_append_drop]
  cases hg : g l with
  | ok f => exact ⟨f, rfl⟩
  | error e => rw [hg] at h; cases h

/-- A transport frame holding a request for a file, cut anywhere, in the header or in the request, can be completed. -/
example (n : Nat) (hn : n < 7) : ∃ data : List U8, data = [0, 0, 0, 0x02, 0x07, 1, 1].take n ∧
    Trans.Frame.tryFrom spec data = .error .incomplete ∧ ¬ LostTransport spec 0 data.length (Form.ofBytes data) := by
  have h1 : ∀ n, n < 7 → Trans.Frame.tryFrom spec ([0, 0, 0, 0x02, 0x07, 1, 1].take n) = .error .incomplete := by
    decide +kernel
  exact ⟨_, rfl, h1 n hn, (C84_transport_partial spec rfl _ (h1 n hn)).1
    (completes (g := Trans.Frame.tryFrom spec) (l := [0, 0, 0, 0x02, 0x07, 1, 1]) (by decide +kernel) n)⟩

/-- The same in a network frame of a wizzilab build, -/
example (n : Nat) (hn : n < 10) : ∃ data : List U8, data = [0, 0, 0, 0, 0, 0, 0x02, 0x07, 1, 1].take n ∧
    Net.Frame.tryFrom wizzilab data = .error .incomplete ∧
    ¬ LostNetworkBits wizzilab 0 data.length (Form.ofBytes data) := by
  have h1 : ∀ n, n < 10 →
      Net.Frame.tryFrom wizzilab ([0, 0, 0, 0, 0, 0, 0x02, 0x07, 1, 1].take n) = .error .incomplete := by
    decide +kernel
  exact ⟨_, rfl, h1 n hn, (C84_network_every_partial wizzilab rfl _ (h1 n hn)).1
    (completes (g := Net.Frame.tryFrom wizzilab) (l := [0, 0, 0, 0, 0, 0, 0x02, 0x07, 1, 1]) (by decide +kernel) n)⟩

/-- and in a foreground frame, cut in front of or within the CRC, too. -/
example (n : Nat) (hn : n < 15) : ∃ data : List U8,
    data = [13, 0, 0x40, 0, 0, 0, 0, 0, 0, 0x01, 0x07, 1, 1, 0xEF, 0xBE].take n ∧
    ForegroundFrame.fromBytes wizzilab (data, 0) = .error .incomplete ∧
    ¬ LostForegroundBits wizzilab data.length (Form.ofBytes data) := by
  have h1 : ∀ n, n < 15 → ForegroundFrame.fromBytes wizzilab
      ([13, 0, 0x40, 0, 0, 0, 0, 0, 0, 0x01, 0x07, 1, 1, 0xEF, 0xBE].take n, 0) = .error .incomplete := by
    decide +kernel
  refine ⟨_, rfl, h1 n hn, (C84_foreground_from_bytes_partial wizzilab rfl _ (h1 n hn)).1 ?_⟩
  obtain ⟨more, ⟨rest, f⟩, hf⟩ := completes (g := fun d => ForegroundFrame.fromBytes wizzilab (d, 0))
    (l := [13, 0, 0x40, 0, 0, 0, 0, 0, 0, 0x01, 0x07, 1, 1, 0xEF, 0xBE]) (by decide +kernel) n
  exact ⟨more, rest, f, hf⟩

/-- `from_bytes` is content with the frames of `C84_short_violates`, -/
example : ForegroundFrame.tryFrom wizzilab [1, 0, 0x40] = .error .incomplete ∧
    (∀ more f, ForegroundFrame.tryFrom wizzilab ([1, 0, 0x40] ++ more) ≠ .ok f) ∧
    (ForegroundFrame.fromBytes wizzilab ([1, 0, 0x40] ++ [0, 0, 0, 0, 0, 0, 0xEF, 0xBE], 0)).isOk = true := by
  have h3 : ForegroundHeader.read.eval (bytesBits [1, 0, 0x40]) = .ok (⟨⟨1⟩, 0, ⟨.noId, 0⟩, .noId⟩, []) := by rfl
  have h4 := (ForegroundHeader.fits.whole _ _).1 h3
  rw [← Form.ofBytes_eq] at h4
  obtain ⟨h1, h2⟩ := C84_short_violates wizzilab rfl rfl _ _ h4 (by decide) (by decide)
  exact ⟨h1, h2, by decide +kernel⟩

#print axioms C50_transport_only
#print axioms C50_network_only
#print axioms C50_foreground_only
#print axioms C84_transport_partial
#print axioms C84_transport_from_bytes_partial
#print axioms C84_network_every_partial
#print axioms C84_network_from_bytes_partial
#print axioms C84_foreground_from_bytes_partial
#print axioms C84_transport_violates
#print axioms C84_short_violates

end Dash7
