import Verif.Props.HopeAll

/-!
# C84: `try_from` of foreground frames in wizzilab builds
-/

namespace Dash7
open Spec Sample

/-- What was read is counted, and more, if there is an action. -/
theorem reading_counts_more {cfg : Cfg} (hc : cfg.seekClears = true) {limit size : Nat} {stop : Bool} {as : List Action}
    {s left : List Bool} {n : Nat} (h : reading cfg limit size stop as s left n) (hs : s.length % 8 ≤ 2) :
    s.length ≤ n + left.length + if as = [] then 2 else 0 := by
  have ask : ∀ s : List Bool, s.length % 8 ≤ 2 → s.length ≤ (asked cfg limit s).length + 2 ∧
      (asked cfg limit s).length ≤ s.length ∧ (asked cfg limit s).length % 8 ≤ 2 ∧
      s.length - s.length % 8 = (asked cfg limit s).length - (asked cfg limit s).length % 8 := by
    intro s hs
    unfold asked
    split
    · rw [wholeBytes_length]; omega
    · omega
  induction as generalizing stop s n with
  | nil =>
    obtain ⟨rfl, -⟩ := h
    have := ask s hs
    rw [if_pos rfl]
    omega
  | cons a as ih =>
    obtain ⟨-, -, -, -, wire, more, m, hw, hF, h, rfl⟩ := h
    rw [stepped_clear hc] at hw
    have hl := congrArg List.length hw
    rw [wholeBytes_length, List.length_append] at hl
    have ha := ask s hs
    have hm : more.length % 8 ≤ 2 := by
      obtain ⟨-, h1, h2, -⟩ := operand_ends hF
      cases ht : a.isTx with
      | false => have := h1 ht; omega
      | true => have := h2 ht; omega
    have := ih h hm
    rw [if_neg (by simp)]
    split at this <;> omega

/-- A frame without actions is never accepted. -/
theorem Foreground.empty_refused {cfg : Cfg} (hv : cfg.variant = .wizzilab) {data : List U8} {f : ForegroundFrame}
    (hno : NoRoom cfg data) (hc : cfg.seekClears = true) (more : List U8) :
    ForegroundFrame.tryFrom cfg (data ++ more) ≠ .ok f := by
  intro hf
  obtain ⟨left, n, ⟨link, _, crc, m, hs, hK, ⟨head, _, m2, rfl, hN, ⟨tail, body, m3, rfl, hF, hr, rfl⟩, rfl⟩, hcrc, rfl⟩, hn⟩ :=
    (C58_foreground cfg _ f).1 hf
  have hreach := hno more _ _ _ _ _ _ _ hs hK hN hF
  have m0 := (Form.foregroundHeader_dvd hK).1
  have m1 := Form.netHeader_mod8 hN
  rw [if_pos hv] at m1
  have m2 := Form.transHeader_mod8 hF
  have h16 : crc.length = 16 := by
    obtain ⟨cs, rfl, hl, -⟩ := hcrc
    rw [Form.ofBytes_eq, bytesBits_length] at hl ⊢
    have : (if cfg.bigEndianHost then cs else cs.reverse).length = cs.length := by
      cases cfg.bigEndianHost <;> simp
    omega
  have hl := congrArg List.length hs
  simp only [Form.ofBytes_eq, bytesBits_length, List.length_append] at hl
  have hask : asked cfg f.header.length.val.toNat body = wholeBytes body := by rw [asked, if_pos ⟨hreach.1, hc⟩]
  cases has : f.frame.frame.command.actions with
  | nil =>
    rw [has] at hr
    obtain ⟨he, hm⟩ := hr
    rw [hask] at he
    have hl2 := congrArg List.length he
    rw [wholeBytes_length, List.length_append, h16] at hl2
    rw [he] at hm
    rcases hm with ⟨-, rfl⟩ | ⟨h, -⟩
    · rw [h16, List.length_append] at hn
      omega
    · exact h hreach
  | cons a as =>
    rw [has] at hr
    have h1 := hr.1
    rw [hask] at h1
    exact h1 hreach

/-- Headers in front of an action, and a command that can be ended, make a frame. -/
theorem Foreground.complete_try {cfg : Cfg} (hc : cfg.seekClears = true) {data : List U8}
    {t0 link head tail body : List Bool} {fh : ForegroundHeader}
    {nh : Net.Header} {x : Trans.Header} (ht0 : 8 ∣ t0.length)
    (hs : Form.ofBytes data ++ t0 = link ++ (head ++ (tail ++ body))) (hK : Form.foregroundHeader fh link)
    (hN : Form.netHeader cfg.variant nh head) (hF : Form.transHeader x tail)
    (h2 : body.length % 8 ≤ 2)
    (hroom : ¬ limitReached fh.length.val.toNat (bytePosition (data.length + t0.length / 8) (wholeBytes body)))
    (hcl : Closes cfg fh.length.val.toNat (data.length + t0.length / 8) false body) :
    ∃ more f, ForegroundFrame.tryFrom cfg (data ++ more) = .ok f := by
  obtain ⟨t, bs, A, d, ht, hcl⟩ := hcl
  have hl := congrArg List.length hs
  simp only [Form.ofBytes_eq, bytesBits_length, List.length_append] at hl
  have h16 : (Form.ofBytes [0, 0]).length = 16 := rfl
  generalize hC : Form.ofBytes [0, 0] = C at *
  have hCne : C ≠ [] := by rw [← hC]; decide
  have hbp : ∀ k s, bytePosition k (wholeBytes s) = bytePosition k s := by
    intro k s
    unfold bytePosition
    rw [wholeBytes_length]
    congr 1
    omega
  -- there is an action
  have hbs : bs ≠ [] := by
    rintro rfl
    have h0 := hcl C (by rw [h16]; decide)
    obtain ⟨he, hm⟩ := h0
    rcases hm with ⟨hm, -⟩ | ⟨-, hm, -⟩
    · refine hroom ?_
      have h8 : 8 ∣ (t ++ C).length := by rw [List.length_append, h16]; omega
      have e1 : bytePosition (data.length + t0.length / 8 + (t ++ C).length / 8)
          (asked cfg fh.length.val.toNat (body ++ (t ++ C))) =
          bytePosition (data.length + t0.length / 8) (wholeBytes body) := by
        rw [hbp, asked_append _ _ h8, bytePosition_append h8]
        unfold asked
        split
        · exact hbp _ _
        · rfl
      rw [← e1, ← he]
      exact hm
    · rcases hm with hm | hm
      · exact hCne hm
      · cases hm
  have hcount := reading_counts_more hc (hcl C (by rw [h16]; decide)) (by
    simp only [List.length_append, h16]; omega)
  rw [if_neg hCne, if_neg hbs] at hcount
  simp only [List.length_append, h16] at hcount
  -- the bytes that must follow
  generalize hN' : (link.length + head.length + tail.length + (A + d) + 16) / 8 - (data.length + t0.length / 8 + t.length / 8 + 2) = k
  have hne : C ++ List.replicate (8 * k) false ≠ [] := by simp [hCne]
  have hr := hcl (C ++ List.replicate (8 * k) false) (by rw [List.length_append, h16, List.length_replicate]; omega)
  rw [if_neg hne] at hr
  generalize hU : List.replicate (8 * k) false = u at *
  have hu : u.length = 8 * k := by rw [← hU, List.length_replicate]
  have hx : 8 ∣ (t0 ++ (t ++ (C ++ u))).length := by simp only [List.length_append, h16]; omega
  obtain ⟨h1, h2⟩ := bytes_more data hx
  have hsz : (data ++ packBits (t0 ++ (t ++ (C ++ u)))).length =
      data.length + t0.length / 8 + (t ++ (C ++ u)).length / 8 := by
    rw [h2, List.length_append]; omega
  refine ⟨packBits (t0 ++ (t ++ (C ++ u))), ⟨fh, ⟨nh, ⟨x, ⟨bs⟩⟩⟩, hostPair cfg.bigEndianHost 0 0⟩,
    (C58_foreground cfg _ _).2 ⟨u, link.length + (head.length + (tail.length + (A + d))) + C.length,
      ⟨link, head ++ (tail ++ (body ++ (t ++ (C ++ u)))), C, _, ?_, hK,
        ⟨head, tail ++ (body ++ (t ++ (C ++ u))), _, rfl, hN,
          ⟨tail, body ++ (t ++ (C ++ u)), A + d, rfl, hF, by rw [hsz]; exact hr, rfl⟩, rfl⟩, ?_, rfl⟩, ?_⟩⟩
  · rw [h1, ← List.append_assoc, hs]; simp
  · rw [← hC]; exact (hostPair_form _ _ _ _).2 rfl
  · rw [hsz]
    simp only [List.length_append, h16, hu]
    omega

theorem Foreground.lost_try {cfg : Cfg} (hc : cfg.seekClears = true) {data : List U8}
    (h : LostForegroundBits cfg data.length (Form.ofBytes data)) (more : List U8) (f : ForegroundFrame) :
    ForegroundFrame.tryFrom cfg (data ++ more) ≠ .ok f := by
  have ht : 8 ∣ (Form.ofBytes more).length := by rw [Form.ofBytes_eq, bytesBits_length]; omega
  obtain ⟨fh, link, q, hs, hK, h⟩ := h
  intro hf
  rcases h with ⟨hv, h8, h4⟩ | ⟨n, head, _, rfl, hN, x, tail, body, rfl, hF, hL⟩
  · obtain ⟨left, m, ⟨link', body', crc, k, hs', hK', ⟨head, body, k', rfl, hN, -⟩, -⟩, -⟩ :=
      (C58_foreground cfg _ f).1 hf
    rw [Form.ofBytes_append, hs, List.append_assoc] at hs'
    obtain ⟨-, -, hq⟩ := ForegroundHeader.fits.only hK hK' hs'
    exact Net.header_lost hv h8 h4 hq hN
  · obtain ⟨as, left, e, hcon, hr⟩ := lost_refuses hc ht hL
    have := (C50_frames cfg (data ++ more) fh n x as left e hr).2.2 link head (tail ++ (body ++ Form.ofBytes more))
      (by rw [Form.ofBytes_append, hs]; simp) hK hN ⟨tail, _, rfl, hF, by
        rw [show (data ++ more).length = data.length + (Form.ofBytes more).length / 8 by
          rw [Form.ofBytes_eq, bytesBits_length, List.length_append]; omega]
        exact hcon⟩
    rw [this.1] at hf
    cases hf

/-- Headers are there in one way only. -/
theorem headers_only {cfg : Cfg} {f f' : ForegroundHeader} {n n' : Net.Header} {x x' : Trans.Header}
    {link head tail body link' head' tail' body' : List Bool} (hK : Form.foregroundHeader f link)
    (hN : Form.netHeader cfg.variant n head) (hF : Form.transHeader x tail) (hK' : Form.foregroundHeader f' link')
    (hN' : Form.netHeader cfg.variant n' head') (hF' : Form.transHeader x' tail')
    (h : link ++ (head ++ (tail ++ body)) = link' ++ (head' ++ (tail' ++ body'))) :
    f = f' ∧ n = n' ∧ x = x' ∧ link = link' ∧ head = head' ∧ tail = tail' ∧ body = body' := by
  obtain ⟨h1, h2, h⟩ := ForegroundHeader.fits.only hK hK' h
  obtain ⟨h3, h4, h⟩ := (Net.Header.fits cfg).only hN hN' h
  obtain ⟨h5, h6, h⟩ := Trans.Header.fits.only hF hF' h
  exact ⟨h1, h3, h5, h2, h4, h6, h⟩

/-- **C84** (partial: seeking has to drop the bits kept back) In wizzilab builds, a foreground frame for which `try_from`
asks for more input can be completed, unless it is one of `Spec.LostForegroundBits`, or leaves no room for an action. -/
theorem C84_foreground_wizzilab_partial (cfg : Cfg) (hv : cfg.variant = .wizzilab) (hc : cfg.seekClears = true)
    (data : List U8) (h : ForegroundFrame.tryFrom cfg data = .error .incomplete) :
    (∃ more f, ForegroundFrame.tryFrom cfg (data ++ more) = .ok f) ↔
      ¬ LostForegroundBits cfg data.length (Form.ofBytes data) ∧ ¬ NoRoom cfg data := by
  constructor
  · rintro ⟨more, f, hf⟩
    exact ⟨fun hL => Foreground.lost_try hc hL more f hf, fun hN => Foreground.empty_refused hv hN hc more hf⟩
  · rintro ⟨hno, hroom⟩
    have hf : ForegroundFrame.fromBytes cfg (data, 0) = .error .incomplete := by
      have := derivedTryFrom_incomplete h
      unfold ForegroundFrame.fromBytes derivedFromBytes
      rw [show startAt 0 (ForegroundFrame.read cfg) (Rd.new data) = ForegroundFrame.read cfg (Rd.new data) by
        simp [startAt], this]
    unfold NoRoom at hroom
    simp only [Classical.not_forall] at hroom
    obtain ⟨more, f, n, x, link, head, tail, body, hs, hK, hN, hF, hroom⟩ := hroom
    have m0 := (Form.foregroundHeader_dvd hK).1
    have m1 := Form.netHeader_mod8 hN
    rw [if_pos hv] at m1
    have m2 := Form.transHeader_mod8 hF
    have hl := congrArg List.length hs
    simp only [Form.ofBytes_eq, bytesBits_length, List.length_append] at hl
    by_cases hH : ∃ body', Form.ofBytes data = link ++ (head ++ (tail ++ body'))
    · obtain ⟨body', hs'⟩ := hH
      have hbody : body = body' ++ Form.ofBytes more := by
        rw [Form.ofBytes_append, hs'] at hs
        simp only [List.append_assoc, List.append_cancel_left_eq] at hs
        exact hs.symm
      have hl' := congrArg List.length hs'
      simp only [Form.ofBytes_eq, bytesBits_length, List.length_append] at hl'
      have hm8 : 8 ∣ (Form.ofBytes more).length := by rw [Form.ofBytes_eq, bytesBits_length]; omega
      have hroom' : ¬ limitReached f.length.val.toNat (bytePosition data.length (wholeBytes body')) := by
        rw [hbody, wholeBytes_append hm8, show (data ++ more).length = data.length + (Form.ofBytes more).length / 8 by
          rw [Form.ofBytes_eq, bytesBits_length, List.length_append]; omega, bytePosition_append hm8] at hroom
        exact hroom
      have hdone : Closes cfg f.length.val.toNat data.length false body' →
          ∃ more f, ForegroundFrame.tryFrom cfg (data ++ more) = .ok f := fun hcl =>
        Foreground.complete_try hc (t0 := []) (by simp) (by simpa using hs') hK hN hF (by omega) (by simpa using hroom')
          (by simpa using hcl)
      rcases C50_foreground_only cfg data 0 _ hf with ⟨h, -⟩ | h | h | ⟨f', n', x', as, link', head', _, left, hs2, hK', hN', ⟨tail', b', rfl, hF', hcon⟩, hr⟩ | ⟨-, f', nf, link', _, left, k, hs2, hK', ⟨head', _, k2, rfl, hN', ⟨tail', b', m, rfl, hF', hread, -⟩, -⟩, hlt⟩
      · omega
      · cases h
      · exact absurd ⟨hK, hN, hF⟩ (h f n x link head tail body' hs')
      · rw [List.drop_zero, hs'] at hs2
        obtain ⟨rfl, rfl, rfl, rfl, rfl, rfl, rfl⟩ := headers_only hK hN hF hK' hN' hF' hs2
        refine hdone (Closes.cut_command hc (by omega) hcon hr fun hL => hno ?_)
        exact ⟨f, link, _, hs', hK, .inr ⟨n, head, _, rfl, hN, x, tail, body', rfl, hF, hL⟩⟩
      · rw [List.drop_zero, hs'] at hs2
        obtain ⟨rfl, rfl, rfl, rfl, rfl, rfl, rfl⟩ := headers_only hK hN hF hK' hN' hF' hs2
        by_cases h0 : left = []
        · rw [h0] at hread
          exact hdone (Closes.whole hc hread)
        · have hev := reading_even hc hread (by simp)
          have hl8 : left.length = 8 := by
            have := List.length_pos_iff.2 h0
            omega
          have has : nf.frame.command.actions ≠ [] := by
            intro h1
            rw [h1] at hread
            obtain ⟨he, hm⟩ := hread
            rcases hm with ⟨hm, -⟩ | ⟨-, hm, -⟩
            · refine hroom' ?_
              rw [he, asked, if_pos ⟨hm.1, hc⟩] at hm
              exact hm
            · rcases hm with hm | hm
              · exact h0 hm
              · cases hm
          have hcount := reading_counts_more hc hread (by omega)
          rw [if_neg has] at hcount
          obtain ⟨c, hcb⟩ : ∃ c, left = bytesBits [c] := by
            have := bytesBits_packBits left hev
            have hlen := congrArg List.length this
            rw [bytesBits_length] at hlen
            match hp : packBits left, hlen with
            | [c], _ => exact ⟨c, by rw [← hp, this]⟩
            | [], h => simp at h; omega
            | _ :: _ :: _, h => simp at h; omega
          generalize hk : (link.length + head.length + tail.length + m + 16) / 8 - (data.length + 1) = k'
          have hu : 8 ∣ (bytesBits (0 :: List.replicate k' 0)).length := by rw [bytesBits_length]; omega
          have hr' := reading_longer hc h0 hu hread
          refine ⟨0 :: List.replicate k' 0, ⟨f, nf, hostPair cfg.bigEndianHost c 0⟩,
            (C58_foreground cfg _ _).2 ⟨bytesBits (List.replicate k' 0),
              link.length + (head.length + (tail.length + m)) + (Form.ofBytes [c, 0]).length,
              ⟨link, head ++ (tail ++ (body' ++ bytesBits (0 :: List.replicate k' 0))), Form.ofBytes [c, 0], _, ?_, hK,
                ⟨head, tail ++ (body' ++ bytesBits (0 :: List.replicate k' 0)), _, rfl, hN,
                  ⟨tail, body' ++ bytesBits (0 :: List.replicate k' 0), m, rfl, hF, ?_, rfl⟩, rfl⟩,
                (hostPair_form _ _ _ _).2 rfl, rfl⟩, ?_⟩⟩
          · rw [Form.ofBytes_append, hs', Form.ofBytes_eq]; simp
          · have e1 : Form.ofBytes [c, 0] ++ bytesBits (List.replicate k' 0) =
                left ++ bytesBits (0 :: List.replicate k' 0) := by
              rw [Form.ofBytes_eq, hcb, ← bytesBits_append, ← bytesBits_append]; rfl
            have e2 : (data ++ (0 :: List.replicate k' 0)).length =
                data.length + (bytesBits (0 :: List.replicate k' 0)).length / 8 := by
              rw [bytesBits_length, List.length_append]; omega
            rw [e1, e2]
            exact hr'
          · rw [Form.ofBytes_eq, bytesBits_length]
            simp only [List.length_append, List.length_replicate, List.length_cons, List.length_nil]
            omega
    · -- the headers are not there yet
      generalize hk : (link.length + head.length + tail.length + 1) / 8 = k
      have hbl : 1 ≤ body.length := by omega
      obtain ⟨b, rest, rfl⟩ : ∃ b rest, body = b :: rest := by
        match body, hbl with
        | b :: rest, _ => exact ⟨b, rest, rfl⟩
      have hlt : data.length < k := by
        refine Nat.lt_of_not_le fun hge => hH ?_
        rw [Form.ofBytes_append] at hs
        have h1 : link ++ (head ++ tail) = (Form.ofBytes data).take (link ++ (head ++ tail)).length := by
          have := congrArg (List.take (link ++ (head ++ tail)).length) hs
          rw [List.take_append_of_le_length (by
            simp only [Form.ofBytes_eq, bytesBits_length, List.length_append]; omega)] at this
          rw [this, show link ++ (head ++ (tail ++ b :: rest)) = (link ++ (head ++ tail)) ++ b :: rest by simp,
            List.take_left' rfl]
        refine ⟨(Form.ofBytes data).drop (link ++ (head ++ tail)).length, ?_⟩
        conv => lhs; rw [← List.take_append_drop (link ++ (head ++ tail)).length (Form.ofBytes data), ← h1]
        simp only [List.append_assoc]
      have hs2 : Form.ofBytes data ++ Form.ofBytes (more.take (k - data.length)) = link ++ (head ++ (tail ++ [b])) := by
        have h1 : link ++ (head ++ (tail ++ [b])) = (Form.ofBytes (data ++ more)).take (8 * k) := by
          rw [hs, show link ++ (head ++ (tail ++ b :: rest)) = (link ++ (head ++ (tail ++ [b]))) ++ rest by simp,
            List.take_left' (by simp only [List.length_append, List.length_singleton]; omega)]
        rw [h1, ← Form.ofBytes_append, Form.ofBytes_eq, Form.ofBytes_eq, ← bytesBits_take, List.take_append]
        rw [List.take_of_length_le (Nat.le_of_lt hlt)]
      have hl2 := congrArg List.length hs2
      simp only [Form.ofBytes_eq, bytesBits_length, List.length_append, List.length_singleton] at hl2
      have e1 : data.length + (Form.ofBytes (more.take (k - data.length))).length / 8 = k := by
        rw [Form.ofBytes_eq, bytesBits_length]; omega
      obtain ⟨more', f', hm⟩ := Foreground.complete_try (data := data) hc (t0 := Form.ofBytes (more.take (k - data.length)))
        (by rw [Form.ofBytes_eq, bytesBits_length]; omega) hs2 hK hN hF (by simp) (by
          rw [e1]
          intro hx
          refine hroom ?_
          have : bytePosition (data ++ more).length (wholeBytes (b :: rest)) = bytePosition k (wholeBytes [b]) := by
            unfold bytePosition
            rw [wholeBytes_length, wholeBytes_length]
            simp only [List.length_cons, List.length_nil, List.length_append] at hl ⊢
            omega
          rw [this]
          exact hx) (by rw [e1]; exact Closes.short hc (by simp))
      exact ⟨more', f', hm⟩

/-- What `C84_short_violates` says in these words. -/
example : NoRoom wizzilab [1, 0, 0x40] := by
  have h3 : ForegroundHeader.read.eval (bytesBits [1, 0, 0x40]) = .ok (⟨⟨1⟩, 0, ⟨.noId, 0⟩, .noId⟩, []) := by rfl
  have h4 := (ForegroundHeader.fits.whole _ _).1 h3
  intro more f n x link head tail body hs hK hN hF
  rw [Form.ofBytes_append, Form.ofBytes_eq] at hs
  obtain ⟨rfl, rfl, hq⟩ := ForegroundHeader.fits.only h4 hK hs
  have hl := congrArg List.length hq
  have m1 := Form.netHeader_mod8 hN
  have m2 := Form.transHeader_mod8 hF
  simp only [Form.ofBytes_eq, bytesBits_length, List.length_append] at hl
  refine ⟨by decide, ?_⟩
  show 1 ≤ _
  unfold bytePosition
  rw [wholeBytes_length]
  simp only [List.length_append, List.length_cons, List.length_nil]
  omega

/-- Every beginning of a frame with an action asks for more input, leaves room, and is not lost. -/
example (n : Nat) (hn : n < 12) : ∃ data, data = [0x0A, 0x05, 0x40, 0, 0, 0, 0, 0, 0, 0, 0x12, 0x34].take n ∧
    ForegroundFrame.tryFrom wizzilab data = .error .incomplete ∧
    ¬ LostForegroundBits wizzilab data.length (Form.ofBytes data) ∧ ¬ NoRoom wizzilab data := by
  have h1 : ∀ n, n < 12 → ForegroundFrame.tryFrom wizzilab
      ([0x0A, 0x05, 0x40, 0, 0, 0, 0, 0, 0, 0, 0x12, 0x34].take n) = .error .incomplete := by decide +kernel
  exact ⟨_, rfl, h1 n hn, (C84_foreground_wizzilab_partial wizzilab rfl rfl _ (h1 n hn)).1
    (completes (g := ForegroundFrame.tryFrom wizzilab) (l := [0x0A, 0x05, 0x40, 0, 0, 0, 0, 0, 0, 0, 0x12, 0x34])
      (by decide +kernel) n)⟩

#print axioms C84_foreground_wizzilab_partial

end Dash7
