import Verif.Props.ShortestFrame
import Verif.Props.Late
import Verif.Props.Layout
import Verif.Props.Redirect

/-!
# C97: another command, or another action, in the same frame
-/

namespace Dash7

open Sample

/-- The same frame around another command. -/
def Spec.carrying (f : ForegroundFrame) (c : Command) : ForegroundFrame :=
  { f with frame := { f.frame with frame := { f.frame.frame with command := c } } }

/-- How many bytes behind a frame of this many actions are lost when its length field tells where the command ends. -/
def Spec.lostBehind (cfg : Cfg) (c : Command) : Nat := c.actions.length * (if cfg.endCounts then 2 else 1)

/-- Actions that end at the limit begin below it. -/
theorem Spec.actionsBelow_of_forms {cfg : Cfg} {as : List Action} (ht : ∀ a ∈ as, a.isTx = false) {limit : Nat} :
    ∀ {pos : Nat} {wire : List U8}, pos + wire.length ≤ limit → Form.actions cfg as (Form.ofBytes wire) →
      Spec.actionsBelow cfg limit pos as wire := by
  induction as with
  | nil =>
    intro pos wire _ h
    have : Form.ofBytes wire = [] := h
    rw [Form.ofBytes_eq] at this
    exact bytesBits_eq_nil.1 this
  | cons a as ih =>
    intro pos wire hl h
    obtain ⟨x, y, hxy, ha, hm⟩ := h
    rw [Form.ofBytes_eq] at hxy
    have hp := Action.form_dvd ha (ht a (by simp))
    obtain ⟨w, more, rfl, rfl, rfl, -⟩ := bytesBits_suffix hxy hp.1
    have hw := hp.2
    rw [bytesBits_length] at hw
    rw [List.length_append] at hl
    exact ⟨.inr (by omega), w, more, rfl, by rw [Form.ofBytes_eq]; exact ha,
      ih (fun b hb => ht b (by simp [hb])) (by omega) (by rw [Form.ofBytes_eq]; exact hm)⟩

/-- Outside wizzilab builds no action with a form is a TX state. -/
theorem Form.actions_noTx {cfg : Cfg} (hv : cfg.variant ≠ .wizzilab) {as : List Action} :
    ∀ {c : List Bool}, Form.actions cfg as c → ∀ a ∈ as, a.isTx = false := by
  induction as with
  | nil => intro _ _ a ha; cases ha
  | cons b bs ih =>
    rintro c ⟨x, y, -, hb, hm⟩ a ha
    rcases List.mem_cons.1 ha with rfl | ha
    · obtain ⟨_, -, hn, -⟩ := Action.decode_ok ((Action.decode_iff cfg a _ []).2 hb)
      cases hx : a.isTx with
      | false => rfl
      | true => exact absurd (hn.variant hx) hv
    · exact ih hm a ha

/-- The bytes of a command that does not end with a forward are its form. -/
theorem Command.tryFrom_form {cfg : Cfg} (hv : cfg.variant ≠ .wizzilab) {body : List U8} {c : Command}
    (h : Command.tryFrom cfg body = .ok c) (hn : ¬ Spec.endsWithForward c.actions) :
    Form.actions cfg c.actions (Form.ofBytes body) ∧ Spec.forwardLast c.actions := by
  obtain ⟨wire, junk, rfl, hF, hl, hj⟩ := (C55_try_from_no_tx cfg hv body c).1 h
  rcases hj with rfl | ⟨hj, -⟩
  · rw [List.append_nil]; exact ⟨hF, hl⟩
  · exact absurd hj hn

/-- **C97** A received frame whose length field says where its command ends consists of headers, of bytes which by
themselves decode to the command, and of the rest. Put bytes of the same length there which decode to another command, and
the frame decodes with that command; headers and CRC stay. Behind the CRC, bytes are lost with each action: they have to be
there. -/
theorem C97_foreground_partial (cfg : Cfg) (hv : cfg.variant ≠ .wizzilab) (data : List U8) (rest : Rest)
    (f : ForegroundFrame) (h : ForegroundFrame.fromBytes cfg (data, 0) = .ok (rest, f)) :
    ∃ head body tail, data = head ++ (body ++ tail) ∧ Command.tryFrom cfg body = .ok f.frame.frame.command ∧
      (f.header.length.val.toNat = (head ++ body).length →
        rest = (tail.drop (2 + Spec.lostBehind cfg f.frame.frame.command), 0) ∧
        ∀ (body' : List U8) (c' : Command), body'.length = body.length → Command.tryFrom cfg body' = .ok c' →
          ¬ Spec.endsWithForward c'.actions → 2 + Spec.lostBehind cfg c' ≤ tail.length →
          ForegroundFrame.fromBytes cfg (head ++ (body' ++ tail), 0) =
            .ok ((tail.drop (2 + Spec.lostBehind cfg c'), 0), Spec.carrying f c')) := by
  obtain ⟨head, wire, crc, lost, more, rfl, ⟨hH, hA, hfl, hend, hcrc⟩, rfl, hlost⟩ :=
    (C57_foreground_from_bytes cfg hv data rest f).1 h
  have hc2 : crc.length = 2 := by
    have := hostForm_length hcrc
    rw [Form.ofBytes_length] at this
    omega
  have hpos : 0 < head.length := by
    obtain ⟨x, y, hxy, ⟨_, _, rfl, hl, _, _, rfl, ⟨h8, -⟩, -⟩, -⟩ := hH
    have := congrArg List.length hxy
    rw [Form.ofBytes_length] at this
    simp only [List.length_append] at this
    omega
  refine ⟨head, wire, crc ++ (lost ++ more), rfl, ?_, fun hlen => ⟨?_, fun body' c' hb hc' hn ht => ?_⟩⟩
  · exact (C55_try_from_no_tx cfg hv wire _).2 ⟨wire, [], (List.append_nil _).symm, hA.forms, hfl, .inl rfl⟩
  · have hr : Spec.limitReached f.header.length.val.toNat (head ++ wire).length :=
      ⟨by rw [hlen, List.length_append]; omega, by rw [hlen]; exact Nat.le_refl _⟩
    unfold Spec.frameLost at hlost
    rw [if_pos hr] at hlost
    unfold Spec.lostBehind
    rw [← List.append_assoc, List.drop_left' (by rw [List.length_append, hc2, hlost])]
  · obtain ⟨hF', hl'⟩ := Command.tryFrom_form hv hc' hn
    have hlen' : f.header.length.val.toNat = (head ++ body').length := by
      rw [hlen, List.length_append, List.length_append, hb]
    have hr' : Spec.limitReached f.header.length.val.toNat (head ++ body').length :=
      ⟨by rw [hlen', List.length_append]; omega, by rw [hlen']; exact Nat.le_refl _⟩
    have hB : Spec.actionsBelow cfg f.header.length.val.toNat head.length c'.actions body' := by
      refine Spec.actionsBelow_of_forms ?_ (by rw [hlen', List.length_append]; exact Nat.le_refl _) hF'
      exact Form.actions_noTx hv hF'
    refine (C57_foreground_from_bytes cfg hv _ _ _).2
      ⟨head, body', crc, (lost ++ more).take (Spec.lostBehind cfg c'), (lost ++ more).drop (Spec.lostBehind cfg c'),
        by rw [List.take_append_drop], ⟨hH, hB, hl', .inl hr', hcrc⟩, ?_, ?_⟩
    · rw [← List.drop_drop, List.drop_left' hc2]
    · have : (Spec.frameLost cfg f.header.length.val.toNat (head ++ body').length c'.actions.length) =
          Spec.lostBehind cfg c' := by
        unfold Spec.frameLost Spec.lostBehind
        rw [if_pos hr']
      show _ = Spec.frameLost cfg f.header.length.val.toNat (head ++ body').length c'.actions.length
      rw [this, List.length_take]
      rw [List.length_append, hc2] at ht
      omega

/-- A tag request replaced by two no-operations: in a frame with as many bytes behind it as are lost with two actions, and
nothing else. -/
example :
    ∃ x, (Sample.foreground 25 ⟨[tag]⟩).toBytes spec = .ok x ∧
      x = x.take 23 ++ ((x.drop 23).take 2 ++ x.drop 25) ∧
      ForegroundFrame.fromBytes spec (x ++ [9, 9], 0) = .ok (([9], 0), Sample.foreground 25 ⟨[tag]⟩) ∧
      Command.tryFrom spec ((x.drop 23).take 2) = .ok ⟨[tag]⟩ ∧
      (Sample.foreground 25 ⟨[tag]⟩).header.length.val.toNat = (x.take 23 ++ (x.drop 23).take 2).length ∧
      ForegroundFrame.fromBytes spec (x.take 23 ++ ([0, 0] ++ (x.drop 25 ++ [9, 9])), 0) =
        .ok (([], 0), Sample.foreground 25 ⟨[.nop ⟨⟨false, false⟩, ⟨0⟩⟩, .nop ⟨⟨false, false⟩, ⟨0⟩⟩]⟩) :=
  ⟨_, rfl, by decide +kernel, by decide +kernel, by decide +kernel, by decide +kernel, by decide +kernel⟩

/-- **C97** fails without the bytes that are lost: a frame that is accepted with one action is refused with two of the same
length together. -/
theorem C97_foreground_violates :
    ∃ head body body' tail f c', ForegroundFrame.tryFrom spec (head ++ (body ++ tail)) = .ok f ∧
      Command.tryFrom spec body = .ok f.frame.frame.command ∧ f.header.length.val.toNat = (head ++ body).length ∧
      body'.length = body.length ∧ Command.tryFrom spec body' = .ok c' ∧
      ForegroundFrame.tryFrom spec (head ++ (body' ++ tail)) ≠ .ok (Spec.carrying f c') ∧
      (ForegroundFrame.tryFrom spec (head ++ (body' ++ tail))).isOk = false := by
  obtain ⟨x, hx, h1, h2, h3, h4, h5⟩ : ∃ x, (Sample.foreground 25 ⟨[tag]⟩).toBytes spec = .ok x ∧
      ForegroundFrame.tryFrom spec (x.take 23 ++ ((x.drop 23).take 2 ++ (x.drop 25 ++ [9]))) =
        .ok (Sample.foreground 25 ⟨[tag]⟩) ∧
      Command.tryFrom spec ((x.drop 23).take 2) = .ok ⟨[tag]⟩ ∧
      25 = (x.take 23 ++ (x.drop 23).take 2).length ∧
      [0, 0].length = ((x.drop 23).take 2).length ∧
      (ForegroundFrame.tryFrom spec (x.take 23 ++ ([0, 0] ++ (x.drop 25 ++ [9])))).isOk = false :=
    ⟨_, rfl, by decide +kernel, by decide +kernel, by decide +kernel, by decide +kernel, by decide +kernel⟩
  refine ⟨x.take 23, (x.drop 23).take 2, [0, 0], x.drop 25 ++ [9], Sample.foreground 25 ⟨[tag]⟩,
    ⟨[.nop ⟨⟨false, false⟩, ⟨0⟩⟩, .nop ⟨⟨false, false⟩, ⟨0⟩⟩]⟩, h1, h2, h3, h4, by decide +kernel, ?_, h5⟩
  intro h
  rw [h] at h5
  cases h5

/-- The bits of a command without TX states are those of its bytes. -/
theorem Command.write_bits {cfg : Cfg} {c : Command} (ht : ∀ a ∈ c.actions, a.isTx = false) {y : List U8}
    (hy : c.toBytes cfg = .ok y) : c.write cfg = .ok (bytesBits y) := by
  have hl : Lay (c.write cfg) _ := Command.lay cfg c fun o ho => isTx_false (ht _ ho) o rfl
  have h2 := C51_command_layout cfg c ht
  rw [hy] at h2
  cases hw : Wire.command cfg.variant cfg.bigEndianHost c with
  | none => rw [hw] at h2; cases h2
  | some w => rw [hw] at h2 hl; cases h2; exact hl

/-- **C97** In what is written for a frame, the bytes of the command stand in front of the two of the CRC. With another
command, of whatever length, everything else is written the same: the length field and the CRC are not adapted. -/
theorem C97_written (cfg : Cfg) (hv : cfg.variant ≠ .wizzilab) (f : ForegroundFrame) (c' : Command) (x y y' : List U8)
    (ht : ∀ a ∈ f.frame.frame.command.actions, a.isTx = false) (ht' : ∀ a ∈ c'.actions, a.isTx = false)
    (hx : f.toBytes cfg = .ok x) (hy : f.frame.frame.command.toBytes cfg = .ok y) (hy' : c'.toBytes cfg = .ok y') :
    ∃ head crc, x = head ++ (y ++ crc) ∧ crc.length = 2 ∧
      (Spec.carrying f c').toBytes cfg = .ok (head ++ (y' ++ crc)) := by
  obtain ⟨h, ⟨nh, ⟨th, c⟩⟩, crc⟩ := f
  dsimp only at ht hy
  have hwc := Command.write_bits ht hy
  have hwc' := Command.write_bits ht' hy'
  obtain ⟨cb, hcw, -, hc16⟩ := uintHost_width cfg 2 crc
  cases hw : (ForegroundFrame.mk h ⟨nh, ⟨th, c⟩⟩ crc).write cfg with
  | error e => rw [ForegroundFrame.toBytes, hw] at hx; cases hx
  | ok bits =>
    obtain ⟨hb, _, hhb, hw1, rfl⟩ := W.seq_cons_ok.1 hw
    obtain ⟨_, _, hw2, -, rfl⟩ := W.seq_cons_ok.1 hw1
    obtain ⟨nb, _, hnb, hw3, rfl⟩ := W.seq_cons_ok.1 hw2
    obtain ⟨_, _, hw4, -, rfl⟩ := W.seq_cons_ok.1 hw3
    obtain ⟨tb, _, htb, -, rfl⟩ := W.seq_cons_ok.1 hw4
    have h8 := ForegroundHeader.mod8 h hb hhb
    have h0 := Net.Header.mod8 nh nb hnb
    rw [if_neg hv] at h0
    have h7 := Trans.Header.mod8 th tb htb
    have hd : 8 ∣ (hb ++ (nb ++ tb)).length := by simp; omega
    have key : ∀ (k : Command) (z : List U8), k.write cfg = .ok (bytesBits z) →
        (ForegroundFrame.mk h ⟨nh, ⟨th, k⟩⟩ crc).toBytes cfg = .ok (packBits (hb ++ (nb ++ tb)) ++ (z ++ packBits cb)) := by
      intro k z hk
      have : (ForegroundFrame.mk h ⟨nh, ⟨th, k⟩⟩ crc).write cfg =
          .ok ((hb ++ (nb ++ tb)) ++ (bytesBits z ++ cb)) := by
        simp only [ForegroundFrame.write, Net.Frame.write, Trans.Frame.write, W.seq, hhb, hnb, htb, hk, hcw,
          List.append_nil, List.append_assoc]
      rw [ForegroundFrame.toBytes, this]
      show Except.ok (packBits _) = _
      rw [packBits_append _ _ hd, packBits_append (bytesBits z) _ (by rw [bytesBits_length]; exact ⟨_, rfl⟩), packBits_bytesBits]
    have hx2 := key c y hwc
    rw [hx] at hx2
    refine ⟨packBits (hb ++ (nb ++ tb)), packBits cb, Except.ok.inj hx2, ?_, key c' y' hwc'⟩
    rw [packBits_length, hc16]

/-- A frame around a tag request, and the same around something longer. -/
example : ∃ head, (Sample.foreground 25 ⟨[tag]⟩).toBytes spec = .ok (head ++ ([180, 7] ++ [239, 190])) ∧
    Command.toBytes spec ⟨[tag]⟩ = .ok [180, 7] ∧
    Command.toBytes spec ⟨[tag, .nop ⟨⟨false, false⟩, ⟨0⟩⟩]⟩ = .ok [180, 7, 0] ∧
    (Sample.foreground 25 ⟨[tag, .nop ⟨⟨false, false⟩, ⟨0⟩⟩]⟩).toBytes spec = .ok (head ++ ([180, 7, 0] ++ [239, 190])) :=
  ⟨[25, 85, 97, 227, 160, 16, 128, 8, 145, 25, 162, 42, 179, 59, 253, 7, 9, 48, 18, 95, 4, 1, 2], by decide +kernel,
    by decide +kernel, by decide +kernel, by decide +kernel⟩

/-! ## One action -/

/-- One of the actions below a limit can be exchanged for another of the same length. -/
theorem Spec.actionsBelow_exchange {cfg : Cfg} {limit : Nat} {a : Action} {cs : List Action} {as : List Action} :
    ∀ {pos : Nat} {bytes : List U8}, Spec.actionsBelow cfg limit pos (as ++ a :: cs) bytes →
      ∃ u wire v, bytes = u ++ (wire ++ v) ∧ Form.action cfg a (Form.ofBytes wire) ∧
        ∀ (wire' : List U8) (a' : Action), wire'.length = wire.length → Form.action cfg a' (Form.ofBytes wire') →
          Spec.actionsBelow cfg limit pos (as ++ a' :: cs) (u ++ (wire' ++ v)) := by
  induction as with
  | nil =>
    rintro pos bytes ⟨hl, wire, more, rfl, hw, hm⟩
    exact ⟨[], wire, more, rfl, hw, fun wire' a' he hF => ⟨hl, wire', more, rfl, hF, by rw [he]; exact hm⟩⟩
  | cons b bs ih =>
    rintro pos bytes ⟨hl, w, more, rfl, hw, hm⟩
    obtain ⟨u, wire, v, rfl, hF, hex⟩ := ih hm
    exact ⟨w ++ u, wire, v, by simp, hF, fun wire' a' he hF' =>
      ⟨hl, w, u ++ (wire' ++ v), by simp, hw, hex wire' a' he hF'⟩⟩

/-- One of the actions in a frame can be exchanged for another of the same length. -/
theorem ForegroundFrame.exchange {cfg : Cfg} (hv : cfg.variant ≠ .wizzilab) {data : List U8} {rest : Rest}
    {f : ForegroundFrame} (h : ForegroundFrame.fromBytes cfg (data, 0) = .ok (rest, f)) {as cs : List Action} {a : Action}
    (hc : f.frame.frame.command.actions = as ++ a :: cs) :
    ∃ front wire tail, data = front ++ (wire ++ tail) ∧ Form.action cfg a (Form.ofBytes wire) ∧
      ∀ (wire' : List U8) (a' : Action), wire'.length = wire.length → Form.action cfg a' (Form.ofBytes wire') →
        a'.isIndirectForward = a.isIndirectForward →
        ForegroundFrame.fromBytes cfg (front ++ (wire' ++ tail), 0) =
          .ok (rest, Spec.carrying f ⟨as ++ a' :: cs⟩) := by
  obtain ⟨head, body, crc, lost, more, rfl, ⟨hH, hA, hfl, hend, hcrc⟩, rfl, hlost⟩ :=
    (C57_foreground_from_bytes cfg hv data rest f).1 h
  rw [hc] at hA hfl hend hlost
  obtain ⟨u, wire, v, rfl, hF, hex⟩ := Spec.actionsBelow_exchange hA
  refine ⟨head ++ u, wire, v ++ (crc ++ (lost ++ more)), by simp, hF, fun wire' a' he hF' hi => ?_⟩
  have hlen : (head ++ (u ++ (wire' ++ v))).length = (head ++ (u ++ (wire ++ v))).length := by simp [he]
  refine (C57_foreground_from_bytes cfg hv _ _ _).2 ⟨head, u ++ (wire' ++ v), crc, lost, more, by simp,
    ⟨hH, hex wire' a' he hF', forwardLast_swap hi hfl, ?_, hcrc⟩, rfl, ?_⟩
  · rw [hlen]; exact hend.imp_right (endsWithForward_swap hi)
  · rw [hlen, hlost]
    show Spec.frameLost _ _ _ _ = Spec.frameLost _ _ _ (as ++ a' :: cs).length
    simp [Spec.carrying]

/-- **C97** for one of the actions in a frame, wherever its command ends: bytes of the same length which decode to another
action take its place, and nothing else changes, not even what is handed back. -/
theorem C97_action (cfg : Cfg) (hv : cfg.variant ≠ .wizzilab) (data : List U8) (rest : Rest) (f : ForegroundFrame)
    (as cs : List Action) (a : Action) (h : ForegroundFrame.fromBytes cfg (data, 0) = .ok (rest, f))
    (hc : f.frame.frame.command.actions = as ++ a :: cs) (hi : a.isIndirectForward = false) :
    ∃ front wire tail, data = front ++ (wire ++ tail) ∧ Command.tryFrom cfg wire = .ok ⟨[a]⟩ ∧
      ∀ (wire' : List U8) (a' : Action), wire'.length = wire.length → Command.tryFrom cfg wire' = .ok ⟨[a']⟩ →
        a'.isIndirectForward = false →
        ForegroundFrame.fromBytes cfg (front ++ (wire' ++ tail), 0) =
          .ok (rest, Spec.carrying f ⟨as ++ a' :: cs⟩) := by
  obtain ⟨front, wire, tail, rfl, hF, hex⟩ := ForegroundFrame.exchange hv h hc
  refine ⟨front, wire, tail, rfl, ?_, fun wire' a' he hw hi' => ?_⟩
  · exact (C55_try_from_no_tx cfg hv wire _).2 ⟨wire, [], (List.append_nil _).symm,
      ⟨_, [], (List.append_nil _).symm, hF, rfl⟩, fun c hc => by simp at hc, .inl rfl⟩
  · have hn : ¬ Spec.endsWithForward [a'] := by
      rintro ⟨c, hc, hf⟩
      have e : a' = c := by simpa using hc
      rw [← e, hi'] at hf
      cases hf
    obtain ⟨x, _, hx, hF', rfl⟩ := (Command.tryFrom_form hv hw hn).1
    rw [List.append_nil] at hx
    exact hex wire' a' he (by rw [hx]; exact hF') (hi'.trans hi.symm)

/-- **C97** for the file or tag that an action in a frame names. -/
theorem C97_redirect (cfg : Cfg) (hv : cfg.variant ≠ .wizzilab) (data : List U8) (rest : Rest) (f : ForegroundFrame)
    (as cs : List Action) (a : Action) (h : ForegroundFrame.fromBytes cfg (data, 0) = .ok (rest, f))
    (hc : f.frame.frame.command.actions = as ++ a :: cs) (hn : ∃ b a', Spec.redirect b a = some a') :
    ∃ front x b0 tail, data = front ++ x :: b0 :: tail ∧ ∀ (b : U8) (a' : Action), Spec.redirect b a = some a' →
      ForegroundFrame.fromBytes cfg (front ++ x :: b :: tail, 0) = .ok (rest, Spec.carrying f ⟨as ++ a' :: cs⟩) := by
  obtain ⟨front, wire, tail, rfl, hF, hex⟩ := ForegroundFrame.exchange hv h hc
  obtain ⟨b1, a1, hr1⟩ := hn
  obtain ⟨p, q, s, hs, hp, hq, -⟩ := Form.redirect hr1 _ hF
  have hl := congrArg List.length hs
  rw [Form.ofBytes_length, List.length_append, List.length_append] at hl
  match wire, (by omega : 2 ≤ wire.length) with
  | x :: b0 :: w, _ =>
    refine ⟨front, x, b0, w ++ tail, rfl, fun b a' hr => ?_⟩
    obtain ⟨p, q, s, hs, hp, hq, hG⟩ := Form.redirect hr _ hF
    obtain ⟨-, -, t3, t4⟩ := redirect_isTx hr
    exact hex (x :: b :: w) a' rfl (by rw [ofBytes_second hs hp hq]; exact hG) (t4.trans t3.symm)

/-- **C97** for the two bits in front of the opcode of an action in a frame. -/
theorem C97_retag (cfg : Cfg) (hv : cfg.variant ≠ .wizzilab) (data : List U8) (rest : Rest) (f : ForegroundFrame)
    (as cs : List Action) (a : Action) (h : ForegroundFrame.fromBytes cfg (data, 0) = .ok (rest, f))
    (hc : f.frame.frame.command.actions = as ++ a :: cs) (hn : ∃ x y a', Spec.retag x y a = some a') :
    ∃ front b tail, data = front ++ b :: tail ∧ ∀ (x y : Bool) (a' : Action), Spec.retag x y a = some a' →
      ForegroundFrame.fromBytes cfg (front ++ Spec.withTop x y b :: tail, 0) =
        .ok (rest, Spec.carrying f ⟨as ++ a' :: cs⟩) := by
  obtain ⟨front, wire, tail, rfl, hF, hex⟩ := ForegroundFrame.exchange hv h hc
  obtain ⟨_, _, _, hr1⟩ := hn
  have hl := (Action.form_dvd hF (retag_isTx hr1).1).2
  match wire, hl with
  | b :: w, _ =>
    refine ⟨front, b, w ++ tail, rfl, fun x y a' hr => ?_⟩
    obtain ⟨p, q, s, h1, h2⟩ := ofBytes_withTop x y b w
    rw [h1] at hF
    refine hex (Spec.withTop x y b :: w) a' rfl (by rw [h2]; exact Form.retag hF hr) ?_
    cases a <;> first
      | (cases hr; done)
      | (cases hr; rfl)
      | (simp only [Spec.retag] at hr; split at hr <;> cases hr; rfl)

/-- **C97** for the CRC: the two bytes of another one, in the byte order of the host, give the same frame with that CRC. -/
theorem C97_crc (cfg : Cfg) (hv : cfg.variant ≠ .wizzilab) (data : List U8) (rest : Rest) (f : ForegroundFrame)
    (h : ForegroundFrame.fromBytes cfg (data, 0) = .ok (rest, f)) :
    ∃ front c0 c1 tail, data = front ++ c0 :: c1 :: tail ∧ ∀ (k : U16) (d0 d1 : U8),
      Wire.hostNumber cfg.bigEndianHost 2 k.toNat = some [d0, d1] →
      ForegroundFrame.fromBytes cfg (front ++ d0 :: d1 :: tail, 0) = .ok (rest, { f with crc16 := k }) := by
  obtain ⟨head, body, crc, lost, more, rfl, ⟨hH, hA, hfl, hend, hcrc⟩, rfl, hlost⟩ :=
    (C57_foreground_from_bytes cfg hv data rest f).1 h
  have hc2 : crc.length = 2 := by
    have := hostForm_length hcrc
    rw [Form.ofBytes_length] at this
    omega
  match crc, hc2 with
  | [c0, c1], _ =>
    refine ⟨head ++ body, c0, c1, lost ++ more, by simp, fun k d0 d1 hk => ?_⟩
    have hlay := Lay.uintHost (cfg := cfg) (k := 2) (v := k)
    rw [hk] at hlay
    obtain ⟨cb, hcw, hcd, -⟩ := uintHost_width cfg 2 k
    have hkb : cb = Form.ofBytes [d0, d1] := by
      have : W.uintHost cfg 2 k = .ok (bytesBits [d0, d1]) := hlay
      rw [hcw] at this
      rw [Form.ofBytes_eq]
      exact Except.ok.inj this
    have hkf : Form.hostNumber cfg.bigEndianHost 2 k.toNat cb := (Fits.host cfg 2 k cb []).1 (hcd [])
    rw [hkb] at hkf
    exact (C57_foreground_from_bytes cfg hv _ _ _).2 ⟨head, body, [d0, d1], lost, more, by simp,
      ⟨hH, hA, hfl, hend, hkf⟩, rfl, hlost⟩

/-- The CRC of a frame replaced by 0x1234, on a host with the lower byte first. -/
example : Wire.hostNumber false 2 0x1234 = some [0x34, 0x12] ∧
    ∃ x, (Sample.foreground 25 ⟨[tag]⟩).toBytes spec = .ok x ∧
      ForegroundFrame.fromBytes spec (x ++ [9], 0) = .ok (([], 0), Sample.foreground 25 ⟨[tag]⟩) ∧
      ForegroundFrame.fromBytes spec (x.take 25 ++ 0x34 :: 0x12 :: [9], 0) =
        .ok (([], 0), { Sample.foreground 25 ⟨[tag]⟩ with crc16 := 0x1234 }) :=
  ⟨by decide +kernel, _, rfl, by decide +kernel, by decide +kernel⟩

/-- **C97** for the subnet, the byte behind the length field. -/
theorem C97_subnet (cfg : Cfg) (hv : cfg.variant ≠ .wizzilab) (data : List U8) (rest : Rest) (f : ForegroundFrame)
    (h : ForegroundFrame.fromBytes cfg (data, 0) = .ok (rest, f)) :
    ∃ length tail, data = length ++ f.header.subnet :: tail ∧
      Form.length f.header.length.val.toNat (Form.ofBytes length) ∧ ∀ b : U8,
        ForegroundFrame.fromBytes cfg (length ++ b :: tail, 0) =
          .ok (rest, { f with header := { f.header with subnet := b } }) := by
  obtain ⟨head, body, crc, lost, more, rfl, ⟨hH, hA, hfl, hend, hcrc⟩, rfl, hlost⟩ :=
    (C57_foreground_from_bytes cfg hv data rest f).1 h
  obtain ⟨x, y, hxy, ⟨lb, _, rfl, hl, sb, r, rfl, hs, hr⟩, hy⟩ := hH
  have h8 : 8 ∣ lb.length := by
    obtain ⟨k, -, a, _, rfl, ⟨ha, -⟩, b, _, rfl, ⟨hb, -⟩, rfl⟩ := hl
    rw [List.length_append, List.length_append, ha, hb, List.length_nil]
    omega
  rw [Form.ofBytes_eq, List.append_assoc] at hxy
  obtain ⟨l, q, rfl, rfl, hq, -⟩ := bytesBits_suffix hxy h8
  rw [List.append_assoc] at hq
  obtain ⟨b0, t, rfl, rfl, ht, hb0⟩ := bytesBits_suffix hq.symm (by rw [hs.1]; exact ⟨1, rfl⟩)
  rw [hs.1] at hb0
  match b0, hb0 with
  | [b0], _ =>
    have hsub : b0 = f.header.subnet := by
      have h1 := hs.2
      have h2 := (Form.field_own b0).2
      rw [Form.ofBytes_eq] at h2
      exact BitVec.eq_of_toNat_eq (h2.symm.trans h1)
    subst hsub
    refine ⟨l, t ++ (body ++ (crc ++ (lost ++ more))), by simp, by rw [Form.ofBytes_eq]; exact hl, fun b => ?_⟩
    have hlen : (l ++ ([b] ++ t)).length = (l ++ ([f.header.subnet] ++ t)).length := by simp
    refine (C57_foreground_from_bytes cfg hv _ _ _).2 ⟨l ++ ([b] ++ t), body, crc, lost, more, by simp,
      ⟨⟨bytesBits l ++ (Form.ofBytes [b] ++ r), y, ?_, ⟨_, _, rfl, hl, _, r, rfl, Form.field_own b, hr⟩, hy⟩,
        by rw [hlen]; exact hA, hfl, ?_, hcrc⟩, rfl, ?_⟩
    · rw [Form.ofBytes_append, Form.ofBytes_append, Form.ofBytes_eq l, Form.ofBytes_eq t, ← ht]; simp
    · rw [List.length_append, hlen, ← List.length_append]; exact hend
    · rw [List.length_append, hlen, ← List.length_append]; exact hlost

/-- The subnet of a frame replaced. -/
example : ∃ x, (Sample.foreground 25 ⟨[tag]⟩).toBytes spec = .ok x ∧
      ForegroundFrame.fromBytes spec (x ++ [9], 0) = .ok (([], 0), Sample.foreground 25 ⟨[tag]⟩) ∧
      ForegroundFrame.fromBytes spec ([25] ++ 0xFF :: (x.drop 2 ++ [9]), 0) =
        .ok (([], 0), { Sample.foreground 25 ⟨[tag]⟩ with
          header := { (Sample.foreground 25 ⟨[tag]⟩).header with subnet := 0xFF } }) :=
  ⟨_, rfl, by decide +kernel, by decide +kernel⟩

/-- **C97** for the data of a write or return in a frame. -/
theorem C97_data (cfg : Cfg) (hv : cfg.variant ≠ .wizzilab) (data : List U8) (rest : Rest) (f : ForegroundFrame)
    (as cs : List Action) (a : Action) (o : Op.FileData) (d : List U8)
    (h : ForegroundFrame.fromBytes cfg (data, 0) = .ok (rest, f)) (hc : f.frame.frame.command.actions = as ++ a :: cs)
    (ho : Spec.withFileData a o) (hd : o.data = .other d) :
    ∃ front tail, data = front ++ (d ++ tail) ∧ ∀ (d' : List U8) (a' : Action), d'.length = d.length →
      Spec.refill d' a = some a' →
      ForegroundFrame.fromBytes cfg (front ++ (d' ++ tail), 0) = .ok (rest, Spec.carrying f ⟨as ++ a' :: cs⟩) := by
  obtain ⟨front, wire, tail, rfl, hF, hex⟩ := ForegroundFrame.exchange hv h hc
  obtain ⟨code, hA⟩ : ∃ code, Form.action cfg a = Form.fileData cfg.bigEndianHost code o ∧ ∀ (d' : List U8) (a' : Action),
      Spec.refill d' a = some a' → Form.action cfg a' = Form.fileData cfg.bigEndianHost code { o with data := .other d' } ∧
        a'.isIndirectForward = a.isIndirectForward := by
    obtain ⟨oh, oc, oo, od⟩ := o
    cases hd
    rcases ho with rfl | rfl | rfl <;> exact ⟨_, rfl, fun d' a' hr => by cases hr; exact ⟨rfl, rfl⟩⟩
  rw [hA.1] at hF
  obtain ⟨w, rfl, hff⟩ := Form.refill_bytes hd hF
  refine ⟨front ++ w, tail, by simp, fun d' a' he hr => ?_⟩
  obtain ⟨hA', hi⟩ := hA.2 d' a' hr
  have := hex (w ++ d') a' (by simp [he]) (by rw [hA']; exact hff d' he) hi
  rw [List.append_assoc] at this ⊢
  exact this

/-! ## Network frames -/

/-- The same network frame around another command. -/
def Spec.around (f : Net.Frame) (c : Command) : Net.Frame := { f with frame := { f.frame with command := c } }

/-- Without a limit, one of the actions can be exchanged for another of any length. -/
theorem Form.actions_exchange {cfg : Cfg} {a : Action} {cs : List Action} {as : List Action}
    (ht : ∀ c ∈ as ++ a :: cs, c.isTx = false) :
    ∀ {bytes : List U8}, Form.actions cfg (as ++ a :: cs) (Form.ofBytes bytes) →
      ∃ u wire v, bytes = u ++ (wire ++ v) ∧ Form.action cfg a (Form.ofBytes wire) ∧
        ∀ (wire' : List U8) (a' : Action), Form.action cfg a' (Form.ofBytes wire') →
          Form.actions cfg (as ++ a' :: cs) (Form.ofBytes (u ++ (wire' ++ v))) := by
  induction as with
  | nil =>
    intro bytes h
    obtain ⟨-, wire, more, rfl, hw, hm⟩ := (actionsBelow_zero ht 0 bytes).2 h
    have hm := (actionsBelow_zero (fun c hc => ht c (List.mem_cons_of_mem _ hc)) _ more).1 hm
    exact ⟨[], wire, more, rfl, hw, fun wire' a' hF =>
      ⟨_, _, Form.ofBytes_append wire' more, hF, hm⟩⟩
  | cons b bs ih =>
    intro bytes h
    obtain ⟨-, w, more, rfl, hw, hm⟩ := (actionsBelow_zero ht 0 bytes).2 h
    have ht' : ∀ c ∈ bs ++ a :: cs, c.isTx = false := fun c hc => ht c (List.mem_cons_of_mem _ hc)
    have hm := (actionsBelow_zero ht' _ more).1 hm
    obtain ⟨u, wire, v, rfl, hF, hex⟩ := ih ht' hm
    refine ⟨w ++ u, wire, v, by simp, hF, fun wire' a' hF' => ?_⟩
    rw [List.append_assoc]
    exact ⟨_, _, Form.ofBytes_append _ _, hw, hex wire' a' hF'⟩

/-- **C97** for network frames, which have no length field: one of the actions in front of the forward takes another in
its place, of whatever length. -/
theorem C97_network_action (cfg : Cfg) (hv : cfg.variant ≠ .wizzilab) (data : List U8) (f : Net.Frame)
    (as cs : List Action) (a : Action) (h : Net.Frame.tryFrom cfg data = .ok f)
    (hc : f.frame.command.actions = as ++ a :: cs) (hi : a.isIndirectForward = false) :
    ∃ front wire tail, data = front ++ (wire ++ tail) ∧ Command.tryFrom cfg wire = .ok ⟨[a]⟩ ∧
      ∀ (wire' : List U8) (a' : Action), Command.tryFrom cfg wire' = .ok ⟨[a']⟩ → a'.isIndirectForward = false →
        Net.Frame.tryFrom cfg (front ++ (wire' ++ tail)) = .ok (Spec.around f ⟨as ++ a' :: cs⟩) := by
  obtain ⟨head, body, junk, rfl, hH, hA, hfl, hj⟩ := (C57_network_accepts cfg hv data f).1 h
  rw [hc] at hA hfl hj
  obtain ⟨u, wire, v, rfl, hF, hex⟩ := Form.actions_exchange (Form.actions_noTx hv hA) hA
  refine ⟨head ++ u, wire, v ++ junk, by simp, ?_, fun wire' a' hw hi' => ?_⟩
  · exact (C55_try_from_no_tx cfg hv wire _).2 ⟨wire, [], (List.append_nil _).symm,
      ⟨_, [], (List.append_nil _).symm, hF, rfl⟩, fun c hc => by simp at hc, .inl rfl⟩
  · have hn : ¬ Spec.endsWithForward [a'] := by
      rintro ⟨c, hc, hf⟩
      have e : a' = c := by simpa using hc
      rw [← e, hi'] at hf
      cases hf
    obtain ⟨x, _, hx, hF', rfl⟩ := (Command.tryFrom_form hv hw hn).1
    rw [List.append_nil] at hx
    rw [← hx] at hF'
    have hs : a'.isIndirectForward = a.isIndirectForward := hi'.trans hi.symm
    refine (C57_network_accepts cfg hv _ _).2 ⟨head, u ++ (wire' ++ v), junk, by simp, hH, hex wire' a' hF',
      forwardLast_swap hs hfl, ?_⟩
    rcases hj with ⟨e, -⟩ | ⟨e, hl⟩
    · simp at e
    · refine .inr ⟨endsWithForward_swap hs e, ?_⟩
      rw [hl]
      simp [Spec.around]

/-- A network frame around a request and an indirect forward, with another request, of one byte, in its place. -/
example : ∃ x, (Net.Frame.mk Sample.netHeader ⟨Sample.transHeader, ⟨[tag, indirect]⟩⟩).toBytes spec = .ok x ∧
    Net.Frame.tryFrom spec (x ++ [0, 0]) = .ok ⟨Sample.netHeader, ⟨Sample.transHeader, ⟨[tag, indirect]⟩⟩⟩ ∧
    ∃ i, x = x.take i ++ ([180, 7] ++ x.drop (i + 2)) ∧
      Net.Frame.tryFrom spec (x.take i ++ ([0] ++ (x.drop (i + 2) ++ [0, 0]))) =
        .ok ⟨Sample.netHeader, ⟨Sample.transHeader, ⟨[.nop ⟨⟨false, false⟩, ⟨0⟩⟩, indirect]⟩⟩⟩ :=
  ⟨_, rfl, by decide +kernel, 20, by decide +kernel, by decide +kernel⟩

/-- In a received frame, a tag request gets another id and asks no longer for the end of the packet, and the data of a
write are replaced. -/
example :
    ∃ x y, (Sample.foreground 30 ⟨[tag, .writeFileData ⟨⟨false, false⟩, ⟨4⟩, ⟨0x40, ⟨0⟩⟩, .other [7]⟩]⟩).toBytes spec = .ok x ∧
      ForegroundFrame.fromBytes spec (x ++ [9, 9], 0) =
        .ok (([], 0), Sample.foreground 30 ⟨[tag, .writeFileData ⟨⟨false, false⟩, ⟨4⟩, ⟨0x40, ⟨0⟩⟩, .other [7]⟩]⟩) ∧
      (Spec.redirect 3 tag).bind (Spec.retag false false) = some y ∧
      ForegroundFrame.fromBytes spec (((x.set 23 (Spec.withTop false false 0xB4)).set 24 3).set 29 8 ++ [9, 9], 0) =
        .ok (([], 0), Sample.foreground 30 ⟨[y, .writeFileData ⟨⟨false, false⟩, ⟨4⟩, ⟨0x40, ⟨0⟩⟩, .other [8]⟩]⟩) :=
  ⟨_, _, rfl, by decide +kernel, rfl, by decide +kernel⟩

#print axioms C97_action
#print axioms C97_crc
#print axioms C97_subnet
#print axioms C97_redirect
#print axioms C97_retag
#print axioms C97_network_action
#print axioms C97_data
#print axioms C97_written
#print axioms C97_foreground_partial
#print axioms C97_foreground_violates

end Dash7
