import Verif.Lemmas.HopeFrame

/-!
# C84: frames that ask for more input
-/

namespace Dash7
open Spec Sample

theorem derivedTryFrom_incomplete {α : Type} {m : R α} {data : List U8}
    (h : derivedTryFrom m data = .error .incomplete) : m (Rd.new data) = .error .incomplete := by
  unfold derivedTryFrom at h
  split at h
  · rename_i e he
    cases h
    exact he
  · split at h <;> cases h

theorem actions_noTx {cfg : Cfg} (hv : cfg.variant ≠ .wizzilab) {as : List Action} {w : List Bool}
    (h : Form.actions cfg as w) : ∀ a ∈ as, a.isTx = false := by
  induction as generalizing w with
  | nil => simp
  | cons b bs ih =>
    obtain ⟨x, y, -, hb, hbs⟩ := h
    intro a ha
    rcases List.mem_cons.1 ha with rfl | ha
    · have := (Action.decode_iff cfg a x []).2 hb
      obtain ⟨_, -, hn, -⟩ := Action.decode_ok this
      cases hx : a.isTx with
      | false => rfl
      | true => exact absurd (hn.variant hx) hv
    · exact ih hbs a ha

theorem host_short {cfg : Cfg} {rest : List U8} {e : Err} (h : (P.uintHost cfg 2).eval (bytesBits rest) = .error e) :
    rest.length ≤ 2 := by
  match rest, h with
  | [], _ => simp
  | [_], _ => simp
  | c :: d :: x, h =>
    have hx := (Fits.host cfg 2 (hostPair cfg.bigEndianHost c d) (bytesBits [c, d]) (bytesBits x)).2
      (by rw [← Form.ofBytes_eq]; exact (hostPair_form _ _ _ _).2 rfl)
    rw [← bytesBits_append] at hx
    rw [show [c, d] ++ x = c :: d :: x from rfl, h] at hx
    exact absurd hx (by simp)

theorem frame_complete {cfg : Cfg} (hv : cfg.variant ≠ .wizzilab) {h : ForegroundHeader} {link bytes rest : List U8}
    (hl : Form.foregroundHeader h (Form.ofBytes link)) (he : Ends cfg h.length.val.toNat link.length bytes)
    (hr : rest.length ≤ 2) : ∃ more f, ForegroundFrame.tryFrom cfg (link ++ (bytes ++ rest) ++ more) = .ok f := by
  obtain ⟨n, t, bs, head, wire, rfl, hH, hA, hf, hstop⟩ := he
  obtain ⟨c, d, m, hm⟩ : ∃ c d m, rest ++ m = [c, d] := by
    match rest, hr with
    | [], _ => exact ⟨0, 0, [0, 0], rfl⟩
    | [c], _ => exact ⟨c, 0, [0], rfl⟩
    | [c, d], _ => exact ⟨c, d, [], rfl⟩
  let f : ForegroundFrame := ⟨h, ⟨n, ⟨t, ⟨bs⟩⟩⟩, hostPair cfg.bigEndianHost c d⟩
  refine ⟨m ++ List.replicate (frameLost cfg h.length.val.toNat (link ++ head ++ wire).length bs.length) 0, f, ?_⟩
  rw [C57_foreground_accepts cfg hv]
  refine ⟨link ++ head, wire, [c, d],
    List.replicate (frameLost cfg h.length.val.toNat (link ++ head ++ wire).length bs.length) 0, ?_, ⟨?_, ?_, hf, ?_, (hostPair_form _ _ _ _).2 rfl⟩, List.length_replicate⟩
  · rw [← hm]; simp
  · rw [Form.ofBytes_eq, bytesBits_append]
    rw [Form.ofBytes_eq] at hl hH
    exact ⟨_, _, rfl, hl, hH⟩
  · rw [List.length_append]; exact hA
  · rw [← List.length_append, ← List.append_assoc] at hstop
    exact hstop

/-- **C84** (partial: builds other than wizzilab) A foreground frame for which more input is asked can be completed,
unless it is one of `Spec.LostForeground`. -/
theorem C84_foreground_partial (cfg : Cfg) (hv : cfg.variant ≠ .wizzilab) (data : List U8)
    (h : ForegroundFrame.tryFrom cfg data = .error .incomplete) :
    (∃ more f, ForegroundFrame.tryFrom cfg (data ++ more) = .ok f) ↔ ¬ LostForeground cfg data := by
  constructor
  · rintro ⟨more, f, hf⟩ ⟨hd, link, rest, rfl, hl, hL⟩
    obtain ⟨_, wire, crc, junk, he, ⟨⟨c0, hb, hh, h0, hH⟩, hA, -, hstop, -⟩, -⟩ := (C57_foreground_accepts cfg hv _ _).1 hf
    rename_i head
    rw [Form.ofBytes_eq] at hh
    obtain ⟨link', head', rfl, rfl, rfl, -⟩ := bytesBits_suffix hh (Form.foregroundHeader_dvd h0).1
    rw [← Form.ofBytes_eq] at h0 hH
    obtain ⟨rfl, rfl, he'⟩ := ForegroundHeader.fits.onlyBytes hl h0 (s := rest ++ more) (t := head' ++ (wire ++ (crc ++ junk)))
      (by simpa using he)
    rw [List.length_append] at hA
    refine lost_network hv hL he' hH hA ?_
    rcases hstop with h1 | h1
    · rw [List.append_assoc, List.length_append] at h1; exact .inl h1
    · exact .inr (.inl h1)
  · intro hno
    have hr := derivedTryFrom_incomplete h
    unfold ForegroundFrame.read at hr
    simp only [R.bind_eq] at hr
    unfold R.bind at hr
    split at hr
    · rename_i hd r1 h1
      dsimp only at hr
      obtain ⟨c, hF, hrem, hcon, hdt, hcur, -, -⟩ := ForegroundHeader.fits.run (Rd.new_con data) h1
      rw [Rd.new_rem] at hrem
      rw [show (Rd.new data).cur = 0 by simp] at hcur
      obtain ⟨link, q, rfl, rfl, hq, -⟩ := bytesBits_suffix hrem (Form.foregroundHeader_dvd hF).1
      rw [← Form.ofBytes_eq] at hF
      have hdl : r1.data.length = (link ++ q).length := by rw [hdt]; rfl
      have hpos : r1.data.length - q.length = link.length := by rw [hdl]; simp
      rw [bytesBits_length] at hcur
      split at hr
      · rename_i nf r2 h2
        obtain ⟨bytes, rest, rfl, hrem2, hcon2, hends⟩ := Net.read_whole hv hcon (by omega) hq (by rw [hdl]; simp) h2
        rw [hpos] at hends
        have hrest : rest.length ≤ 2 := by
          split at hr
          · cases hr
          · rename_i e h3
            exact host_short (hrem2 ▸ P.run_err' _ hcon2.toOK h3)
        rcases hends with hends | ⟨rfl, more, hends⟩
        · exact frame_complete hv hF hends hrest
        · obtain ⟨m, f, hf⟩ := frame_complete hv (rest := []) hF hends (by simp)
          exact ⟨more ++ m, f, by simpa using hf⟩
      · rename_i e h2
        cases hr
        rcases Net.read_cut hv hcon (by omega) hq (by rw [hdl]; simp) h2 with hL | ⟨more, hends⟩
        · rw [hpos] at hL
          exact absurd ⟨hd, link, q, rfl, hF, hL⟩ hno
        · rw [hpos] at hends
          obtain ⟨m, f, hf⟩ := frame_complete hv (rest := []) hF hends (by simp)
          exact ⟨more ++ m, f, by simpa using hf⟩
    · rename_i e h1
      cases hr
      have h1 := P.run_err' _ (Rd.new_con data).toOK h1
      rw [Rd.new_rem] at h1
      obtain ⟨t, hd, -, ht⟩ := ForegroundHeader.hope.more _ (by rw [bytesBits_length]; omega) h1
      have hF := (ForegroundHeader.fits.whole _ _).1 ht
      obtain ⟨p, rfl⟩ := bytes_of_bits (Form.foregroundHeader_dvd hF).1
      rw [← bytesBits_append, ← Form.ofBytes_eq] at hF
      obtain ⟨more, hends⟩ := ends_some hv hd.length.val.toNat (data ++ p).length
      obtain ⟨m, f, hf⟩ := frame_complete hv (rest := []) hF hends (by simp)
      exact ⟨p ++ (more ++ m), f, by simpa using hf⟩

/-- **C84** (partial: builds other than wizzilab) The same for network frames. -/
theorem C84_network_partial (cfg : Cfg) (hv : cfg.variant ≠ .wizzilab) (data : List U8)
    (h : Net.Frame.tryFrom cfg data = .error .incomplete) :
    (∃ more f, Net.Frame.tryFrom cfg (data ++ more) = .ok f) ↔ ¬ LostNetwork cfg 0 0 data := by
  have hz : ∀ n, ¬ limitReached 0 n := fun n hn => hn.1 rfl
  constructor
  · rintro ⟨more, f, hf⟩ hL
    obtain ⟨head, wire, junk, he, hH, hA, -, hstop⟩ := (C57_network_accepts cfg hv _ _).1 hf
    have hB := (actionsBelow_zero (actions_noTx hv hA) (0 + head.length) wire).2 hA
    refine lost_network hv hL he hH hB ?_
    rcases hstop with ⟨-, h1⟩ | ⟨h1, -⟩
    · exact .inr (.inr h1)
    · exact .inr (.inl h1)
  · intro hno
    rcases Net.read_cut hv (Rd.new_con data) (by simp) (Rd.new_rem data) (Nat.le_refl _) (derivedTryFrom_incomplete h) with
      hL | ⟨more, n, t, bs, head, wire, he, hH, hA, hf, hstop⟩
    · have e : (Rd.new data).data.length - data.length = 0 := by show data.length - data.length = 0; omega
      rw [e] at hL
      exact absurd hL hno
    · have hew := hstop.resolve_left (hz _)
      refine ⟨more ++ List.replicate (dropped cfg bs.length) 0, ⟨n, ⟨t, ⟨bs⟩⟩⟩, ?_⟩
      rw [C57_network_accepts cfg hv]
      exact ⟨head, wire, _, by rw [← List.append_assoc, he, List.append_assoc], hH,
        (actionsBelow_zero (actionsBelow_noTx hv hA) _ _).1 hA, hf, .inr ⟨hew, List.length_replicate⟩⟩

/-- **C84** In builds other than wizzilab there are frames for which more input is asked although no input helps:
the byte `0x04` behind the header of the link layer begins a network frame with an unknown security method. -/
theorem C84_violates (cfg : Cfg) (hv : cfg.variant ≠ .wizzilab) :
    ForegroundFrame.tryFrom cfg [0x00, 0x05, 0x40, 0x04] = .error .incomplete ∧
    (∀ more f, ForegroundFrame.tryFrom cfg ([0x00, 0x05, 0x40, 0x04] ++ more) ≠ .ok f) ∧
    Net.Frame.tryFrom cfg [0x04] = .error .incomplete ∧
    ∀ more f, Net.Frame.tryFrom cfg ([0x04] ++ more) ≠ .ok f := by
  have h1 : ForegroundFrame.tryFrom cfg [0x00, 0x05, 0x40, 0x04] = .error .incomplete := by
    rcases cfg with ⟨v, a, b, c, d⟩
    cases v <;> first | exact absurd rfl hv | (clear hv; revert a b c d; decide +kernel)
  have h2 : Net.Frame.tryFrom cfg [0x04] = .error .incomplete := by
    rcases cfg with ⟨v, a, b, c, d⟩
    cases v <;> first | exact absurd rfl hv | (clear hv; revert a b c d; decide +kernel)
  have h3 : ForegroundHeader.read.eval (bytesBits [0x00, 0x05, 0x40]) = .ok (⟨⟨0⟩, 5, ⟨.noId, 0⟩, .noId⟩, []) := by rfl
  have h4 := (ForegroundHeader.fits.whole _ _).1 h3
  rw [← Form.ofBytes_eq] at h4
  refine ⟨h1, fun more f hf => (C84_foreground_partial cfg hv _ h1).1 ⟨more, f, hf⟩
    ⟨_, [0x00, 0x05, 0x40], [0x04], rfl, h4, .inl ⟨_, rfl, by decide⟩⟩, h2, fun more f hf =>
    (C84_network_partial cfg hv _ h2).1 ⟨more, f, hf⟩ (.inl ⟨_, rfl, by decide⟩)⟩

/-- A frame cut anywhere, be it in a header, in an action or in the CRC, can be completed. -/
example (n : Nat) (hn : n < 27) : ForegroundFrame.tryFrom spec (foregroundWire.take n) = .error .incomplete ∧
    ¬ LostForeground spec (foregroundWire.take n) := by
  have h1 : ∀ n, n < 27 → ForegroundFrame.tryFrom spec (foregroundWire.take n) = .error .incomplete := by decide +kernel
  have h2 : (ForegroundFrame.tryFrom spec (foregroundWire ++ [99])).isOk = true := by decide +kernel
  refine ⟨h1 n hn, (C84_foreground_partial spec (by decide) _ (h1 n hn)).1 ⟨foregroundWire.drop n ++ [99], ?_⟩⟩
  rw [← List.append_assoc, List.take_append_drop]
  cases h : ForegroundFrame.tryFrom spec (foregroundWire ++ [99]) with
  | ok f => exact ⟨f, rfl⟩
  | error e => rw [h] at h2; cases h2

/-- The same frame with the beginning of an interface status that nothing completes. -/
example : ForegroundFrame.tryFrom spec (foregroundWire.take 23 ++ [0x62, 0x02]) = .error .incomplete ∧
    LostForeground spec (foregroundWire.take 23 ++ [0x62, 0x02]) := by
  refine ⟨by decide +kernel, ?_⟩
  have h3 : ForegroundHeader.read.eval (bytesBits [0x19, 0x55, 0x61]) = .ok (⟨⟨25⟩, 0x55, ⟨.noId, 0x21⟩, .noId⟩, []) := by rfl
  have h4 := (ForegroundHeader.fits.whole _ _).1 h3
  obtain ⟨x, hx⟩ : ∃ x, (Net.bothHeaders spec).eval (bytesBits ((foregroundWire.take 23).drop 3)) = .ok (x, []) := by
    have h : ((Net.bothHeaders spec).eval (bytesBits ((foregroundWire.take 23).drop 3))).toOption.map (·.2) = some [] := by
      decide +kernel
    cases he : (Net.bothHeaders spec).eval (bytesBits ((foregroundWire.take 23).drop 3)) with
    | error e => rw [he] at h; cases h
    | ok x => obtain ⟨x, y⟩ := x; rw [he] at h; cases h; exact ⟨x, rfl⟩
  have h5 := ((Net.bothHeaders_fits spec).whole _ _).1 hx
  rw [← Form.ofBytes_eq] at h4 h5
  exact ⟨_, [0x19, 0x55, 0x61], (foregroundWire.take 23).drop 3 ++ [0x62, 0x02], rfl, h4, .inr ⟨_, _, [], _, [], [0x62, 0x02],
    rfl, h5, rfl, by simp, by decide, ⟨0x62, rfl, .inr (.inl ⟨rfl, .inl rfl⟩)⟩⟩⟩

/-- The commands of network frames have no limit: they go on until an indirect forward. -/
example : Net.Frame.tryFrom spec ((foregroundWire.take 24).drop 3) = .error .incomplete ∧
    ¬ LostNetwork spec 0 0 ((foregroundWire.take 24).drop 3) := by
  have h1 : Net.Frame.tryFrom spec ((foregroundWire.take 24).drop 3) = .error .incomplete := by decide +kernel
  have h2 : (Net.Frame.tryFrom spec ((foregroundWire.take 24).drop 3 ++ [0x07, 0x33, 0, 0])).isOk = true := by decide +kernel
  refine ⟨h1, (C84_network_partial spec (by decide) _ h1).1 ⟨[0x07, 0x33, 0, 0], ?_⟩⟩
  cases h : Net.Frame.tryFrom spec ((foregroundWire.take 24).drop 3 ++ [0x07, 0x33, 0, 0]) with
  | ok f => exact ⟨f, rfl⟩
  | error e => rw [h] at h2; cases h2

end Dash7

#print axioms Dash7.C84_foreground_partial
#print axioms Dash7.C84_network_partial
#print axioms Dash7.C84_violates
