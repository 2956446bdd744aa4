import Verif.Spec.Stream
import Verif.Lemmas.Source
import Verif.Props.Items
import Verif.Props.Offset
import Verif.Props.Foreground
import Verif.Props.FrameAccept

/-!
# C74: reading from a source that is used again
-/

namespace Dash7
open Spec Sample

/-! ## Where the source stands does not matter -/

/-- **C74** `T::from_reader` reads what is ahead, wherever the source stands. -/
theorem C74_item (cfg : Cfg) (i : Item) (s : Source) (off : Nat) :
    i.fromSource cfg s off = s.result (i.fromSource cfg s.ahead off) :=
  readSource_behind (P.run_behind _ _ _) off

/-- **C74** `Action::from_reader` reads what is ahead, wherever the source stands. -/
theorem C74_action (cfg : Cfg) (s : Source) (off : Nat) :
    Action.fromSource cfg s off = s.result (Action.fromSource cfg s.ahead off) :=
  readSource_behind (Action.read_behind cfg _ _) off

/-- **C74** `Command::from_reader` reads what is ahead, wherever the source stands. -/
theorem C74_command (cfg : Cfg) (s : Source) (off : Nat) :
    Command.fromSource cfg s off = s.result (Command.fromSource cfg s.ahead off) :=
  readSource_behind (Command.read_behind (.zero _ _)) off

/-- **C74** Transport and network frames read by themselves are read from what is ahead, wherever the source
stands. -/
theorem C74_frame (cfg : Cfg) (s : Source) (off : Nat) :
    Trans.Frame.fromSource cfg s off = s.result (Trans.Frame.fromSource cfg s.ahead off) ∧
      Net.Frame.fromSource cfg s off = s.result (Net.Frame.fromSource cfg s.ahead off) :=
  ⟨readSource_behind (Trans.Frame.read_behind (.zero _ _)) off,
    readSource_behind (Net.Frame.read_behind (.zero _ _)) off⟩

/-- **C74** From the start of a source, `from_reader` gives what C58 and C59 say. -/
theorem C74_start (cfg : Cfg) (data : List U8) (off : Nat) :
    Action.fromReader cfg data off = (Action.fromSource cfg ⟨data, 0⟩ off).map (fun x => (x.1, x.2.1)) ∧
      Command.fromReader cfg data off = (Command.fromSource cfg ⟨data, 0⟩ off).map (fun x => (x.1, x.2.1)) :=
  ⟨readSource_start _ data off, readSource_start _ data off⟩

/-! ## Where the source stands afterwards -/

/-- **C74** `T::from_reader` in full: it gives `v` exactly if the bits ahead, `off` of them skipped, begin with a form
of `v`; it tells how many bits that were, and leaves the source behind the last byte holding one of them. -/
theorem C74_item_exact (cfg : Cfg) (i : Item) (s t : Source) (off count : Nat) (v : i.Val) :
    i.fromSource cfg s off = .ok (count, v, t) ↔ off ≤ 8 * (s.data.length - s.pos) ∧
      ∃ form more, (Form.ofBytes (s.data.drop s.pos)).drop off = form ++ more ∧ Form.item cfg i v form ∧
        count = off + form.length ∧ t = ⟨s.data, s.pos + (count + 7) / 8⟩ := by
  rw [C74_item]
  have key := readSource_run (i.read cfg) (s.data.drop s.pos) off
  rw [List.length_drop] at key
  rw [Form.ofBytes_eq]
  constructor
  · intro h
    cases hr : i.fromSource cfg s.ahead off with
    | error e => rw [hr] at h; cases h
    | ok x =>
      obtain ⟨n, w, t'⟩ := x
      rw [hr] at h
      simp only [Source.result, Except.ok.injEq, Prod.mk.injEq] at h
      obtain ⟨rfl, rfl, rfl⟩ := h
      obtain ⟨h1, s', he, hn, rfl⟩ := (key n w t').1 hr
      obtain ⟨c, hc, -⟩ := P.eval_ok _ he
      have hl := congrArg List.length hc
      rw [List.length_drop, bytesBits_length, List.length_drop, List.length_append] at hl
      rw [hc] at he
      exact ⟨h1, c, s', hc, (Item.fits cfg i w c s').1 he, by omega, rfl⟩
  · rintro ⟨h1, c, s', hc, hF, rfl, rfl⟩
    have hl := congrArg List.length hc
    rw [List.length_drop, bytesBits_length, List.length_drop, List.length_append] at hl
    have := (key (off + c.length) v ⟨s.data.drop s.pos, (off + c.length + 7) / 8⟩).2
      ⟨h1, s', by rw [hc]; exact (Item.fits cfg i v c s').2 hF, by omega, rfl⟩
    have e : i.fromSource cfg s.ahead off = _ := this
    rw [e]
    rfl

/-- **C74** Values of any types, written one after the other and read one after the other, are the same, and the
source is left behind the last of them. Every value has its whole bytes, so none disturbs the next. Excluded are
values which have no form, and the status of an unknown interface (C60). -/
theorem C74_items_in_order (cfg : Cfg) (vs : List (Σ i : Item, i.Val))
    (h : ∀ v ∈ vs, (∃ form, Form.item cfg v.1 v.2 form) ∧ ¬ unknownInterface v.1 v.2) :
    ∃ bytes, writeItems cfg vs = .ok bytes ∧ ∀ before after,
      readItems cfg (vs.map (·.1)) ⟨before ++ bytes ++ after, before.length⟩ =
        .ok (vs, ⟨before ++ bytes ++ after, before.length + bytes.length⟩) := by
  induction vs with
  | nil => exact ⟨[], rfl, fun _ _ => rfl⟩
  | cons v vs ih =>
    obtain ⟨bs, hw, hr⟩ := ih fun x hx => h x (List.mem_cons_of_mem _ hx)
    obtain ⟨⟨form, hF⟩, hu⟩ := h v List.mem_cons_self
    obtain ⟨b, written, zeros, hb, hbits, hFw, -, -⟩ := C60_from_bytes_partial cfg v.1 v.2 form hF hu
    have hz : written.length + zeros.length = 8 * b.length := by
      have := congrArg List.length hbits
      rw [Form.ofBytes_length, List.length_append] at this
      exact this.symm
    have hpos : (written.length + 7) / 8 = b.length := by
      obtain ⟨c, hc, hFc⟩ := Item.written (Item.rt hF hu)
      have : b = packBits c := by
        unfold Item.toBytes W.toBytes at hb
        rw [hc] at hb
        cases hb; rfl
      have e1 := packBits_length c
      have e2 := Item.width hFc
      have e3 := Item.width hFw
      rw [← this] at e1
      have := (Item.fits cfg v.1 v.2 written zeros).2 hFw
      have e4 := (Item.fits cfg v.1 v.2 c (List.replicate ((8 - c.length % 8) % 8) false)).2 hFc
      have e5 : written ++ zeros = c ++ List.replicate ((8 - c.length % 8) % 8) false := by
        rw [← hbits, Form.ofBytes_eq, ‹b = packBits c›, packBits_zeros, bytesBits_packBits]
        rw [List.length_append, List.length_replicate]
        omega
      rw [e5, e4] at this
      simp only [Except.ok.injEq, Prod.mk.injEq, true_and] at this
      rw [← this] at e5
      rw [List.append_cancel_right e5]
      omega
    refine ⟨b ++ bs, ?_, fun before after => ?_⟩
    · unfold writeItems
      rw [hb, hw]
    · have hone : v.1.fromSource cfg ⟨before ++ (b ++ bs) ++ after, before.length⟩ 0 =
          .ok (written.length, v.2, ⟨before ++ (b ++ bs) ++ after, before.length + b.length⟩) := by
        rw [C74_item_exact]
        refine ⟨Nat.zero_le _, written, zeros ++ Form.ofBytes (bs ++ after), ?_, hFw, by omega, ?_⟩
        · rw [List.drop_zero]
          show Form.ofBytes (List.drop before.length (before ++ (b ++ bs) ++ after)) = _
          rw [List.append_assoc, List.drop_left, List.append_assoc, Form.ofBytes_eq, bytesBits_append,
            ← List.append_assoc, ← hbits, Form.ofBytes_eq, Form.ofBytes_eq]
        · rw [hpos]
      show readItems cfg (v.1 :: vs.map (·.1)) _ = _
      unfold readItems
      rw [hone]
      dsimp only
      have := hr (before ++ b) after
      rw [List.length_append, List.append_assoc before b bs] at this
      rw [this]
      simp only [List.length_append, Nat.add_assoc]

/-- **C74** `Action::from_reader` in full, wherever the source stands: it gives `a` exactly if `a` is what is read
from the bits ahead, and leaves the source behind the last byte of it. -/
theorem C74_action_exact (cfg : Cfg) (s t : Source) (hs : s.pos ≤ s.data.length) (off count : Nat) (a : Action) :
    Action.fromSource cfg s off = .ok (count, a, t) ↔ off ≤ 8 * (s.data.length - s.pos) ∧
      ∃ left n, actionReading cfg a ((Form.ofBytes (s.data.drop s.pos)).drop off) left n ∧ count = off + n ∧
        t = ⟨s.data, bytePosition s.data.length left⟩ := by
  refine (Action.takes cfg).fromSource bytePosition ?_ s hs off count a t
  intro r r' a hp hr
  obtain ⟨h, hd, -⟩ := Action.read_any_ok ⟨hp.toOK, .inl hp.lt⟩ hr
  rw [← h.pos_eq, hd]

/-- **C74** Any well-formed actions, written one after the other and read one after the other, are the same, and the
source is left behind the last of them; this goes on after an indirect forward too. -/
theorem C74_actions_in_order (cfg : Cfg) (as : List Action) (h : ∀ a ∈ as, a.WF cfg) :
    ∃ bytes, writeActions cfg as = .ok bytes ∧ ∀ before after,
      readActions cfg as.length ⟨before ++ bytes ++ after, before.length⟩ =
        .ok (as, ⟨before ++ bytes ++ after, before.length + bytes.length⟩) := by
  induction as with
  | nil => exact ⟨[], rfl, fun _ _ => rfl⟩
  | cons a as ih =>
    obtain ⟨bs, hw, hr⟩ := ih fun x hx => h x (List.mem_cons_of_mem _ hx)
    obtain ⟨b, hb, -, hd⟩ := Action.toBytes_decode (h a List.mem_cons_self)
    refine ⟨b ++ bs, ?_, fun before after => ?_⟩
    · unfold writeActions
      rw [hb, hw]
    · have hone : ∃ n, Action.fromSource cfg ⟨before ++ (b ++ bs) ++ after, before.length⟩ 0 =
          .ok (n, a, ⟨before ++ (b ++ bs) ++ after, before.length + b.length⟩) := by
        rw [C74_action]
        have hal : Source.ahead ⟨before ++ (b ++ bs) ++ after, before.length⟩ = ⟨b ++ (bs ++ after), 0⟩ := by
          unfold Source.ahead
          simp only [List.append_assoc, List.drop_left]
        rw [hal]
        have hd' := hd (bytesBits (bs ++ after))
        rw [← bytesBits_append, ← Rd.new_rem] at hd'
        obtain ⟨r', hr', hc, hm, hdat, hl, hcur, -⟩ := Action.read_aligned_ok (Rd.new_aligned _) hd'
        refine ⟨r'.bitsRead, ?_⟩
        have e : Action.fromSource cfg ⟨b ++ (bs ++ after), 0⟩ 0 =
            .ok (r'.bitsRead, a, ⟨r'.data, r'.pos⟩) := by
          unfold Action.fromSource readSource
          rw [startAt_zero]
          have : Action.read cfg ⟨b ++ (bs ++ after), 0, [], 0⟩ = .ok (a, r') := hr'
          rw [this]
        rw [e]
        have hpos : r'.pos = b.length := by
          have hP : r'.Part := ⟨hc.toOK, hl⟩
          rw [← hP.pos_eq, hm, hdat]
          unfold bytePosition
          rw [bytesBits_length]
          show (b ++ (bs ++ after)).length - _ = _
          rw [List.length_append]
          omega
        rw [hpos]
        rfl
      obtain ⟨n, hone⟩ := hone
      show readActions cfg (as.length + 1) _ = _
      unfold readActions
      rw [hone]
      dsimp only
      have := hr (before ++ b) after
      rw [List.length_append, List.append_assoc before b bs] at this
      rw [this]
      simp only [List.length_append, Nat.add_assoc]

/-! ## Commands -/

/-- **C74** `Command::from_reader` in full, wherever the source stands. If anything is left, behind an indirect
forward, the source is left behind the byte of the first bit that is. -/
theorem C74_command_exact (cfg : Cfg) (s t : Source) (hs : s.pos ≤ s.data.length) (off count : Nat) (c : Command) :
    Command.fromSource cfg s off = .ok (count, c, t) ↔ off ≤ 8 * (s.data.length - s.pos) ∧
      ∃ left n, reading cfg 0 s.data.length false c.actions ((Form.ofBytes (s.data.drop s.pos)).drop off) left n ∧
        count = off + n ∧ t = ⟨s.data, s.data.length - (left.length - 1) / 8⟩ :=
  (Command.takes cfg 0).fromSource (fun size left => size - (left.length - 1) / 8)
    (fun _ _ _ hp hr => Command.read_pos hp hr) s hs off count c t

/-- **C74** Transport frames, likewise. -/
theorem C74_transport_exact (cfg : Cfg) (s t : Source) (hs : s.pos ≤ s.data.length) (off count : Nat)
    (f : Trans.Frame) :
    Trans.Frame.fromSource cfg s off = .ok (count, f, t) ↔ off ≤ 8 * (s.data.length - s.pos) ∧
      ∃ left n, transReading cfg 0 s.data.length f ((Form.ofBytes (s.data.drop s.pos)).drop off) left n ∧
        count = off + n ∧ t = ⟨s.data, s.data.length - (left.length - 1) / 8⟩ := by
  refine (Trans.Frame.takes cfg 0).fromSource (fun size left => size - (left.length - 1) / 8) ?_ s hs off count f t
  intro r r' a hp hr
  obtain ⟨r1, h1, h2⟩ := Trans.read_iff.1 hr
  obtain ⟨c, hF, hrem, -, hd, hb, hp'⟩ := Trans.Header.fits.ok hp.toOK h1
  rw [Command.read_pos (hp' hp) h2, hd]

/-- **C74** Network frames, likewise. -/
theorem C74_network_exact (cfg : Cfg) (s t : Source) (hs : s.pos ≤ s.data.length) (off count : Nat)
    (f : Net.Frame) :
    Net.Frame.fromSource cfg s off = .ok (count, f, t) ↔ off ≤ 8 * (s.data.length - s.pos) ∧
      ∃ left n, netReading cfg 0 s.data.length f ((Form.ofBytes (s.data.drop s.pos)).drop off) left n ∧
        count = off + n ∧ t = ⟨s.data, s.data.length - (left.length - 1) / 8⟩ := by
  refine (Net.Frame.takes cfg 0).fromSource (fun size left => size - (left.length - 1) / 8) ?_ s hs off count f t
  intro r r' a hp hr
  obtain ⟨r1, h1, h2⟩ := Net.read_iff.1 hr
  obtain ⟨c, hF, hrem, -, hd, hb, hp'⟩ := (Net.Header.fits cfg).ok hp.toOK h1
  obtain ⟨r2, h3, h4⟩ := Trans.read_iff.1 h2
  obtain ⟨c', hF', hrem', -, hd', hb', hp''⟩ := Trans.Header.fits.ok (hp' hp).toOK h3
  rw [Command.read_pos (hp'' (hp' hp)) h4, hd', hd]

/-! ## Foreground frames -/

/-- **C74** `ForegroundFrame::from_reader` in full. Where the source stands matters: the length in the header is
compared with the place in the whole source. -/
theorem C74_foreground_exact (cfg : Cfg) (s t : Source) (hs : s.pos ≤ s.data.length) (off count : Nat)
    (f : ForegroundFrame) :
    ForegroundFrame.fromSource cfg s off = .ok (count, f, t) ↔ off ≤ 8 * (s.data.length - s.pos) ∧
      ∃ left n, foregroundReading cfg s.data.length f ((Form.ofBytes (s.data.drop s.pos)).drop off) left n ∧
        count = off + n ∧ t = ⟨s.data, bytePosition s.data.length left⟩ := by
  refine (ForegroundFrame.takes cfg).fromSource bytePosition ?_ s hs off count f t
  intro r r' a hp hr
  obtain ⟨r1, r2, h1, h2, h3⟩ := ForegroundFrame.read_iff.1 hr
  obtain ⟨c, hF, hrem, -, hd, hb, hp'⟩ := ForegroundHeader.fits.ok hp.toOK h1
  obtain ⟨m, hR, hok, hd', hb'⟩ := (Net.Frame.takes cfg a.header.length.val).conv (hp' hp) h2
  obtain ⟨crc, hC, hrem3, hok3, hd3, hb3, -⟩ := (Fits.host cfg 2).ok hok h3
  obtain ⟨he, n, st, hn⟩ := P.run_ok' _ hok h3
  have hl := congrArg List.length hrem3
  rw [List.length_append] at hl
  have hc : 0 < crc.length := by
    rw [hrem3] at he
    rw [(Post.uintHost _ _ _ he).1]; decide
  have hP : r'.Part := ⟨hok3, st.left_lt hok (by omega)⟩
  rw [← hP.pos_eq, hd3, hd', hd]

/-- **C74** Outside wizzilab builds a foreground frame is read, and the source left right behind it, if its length
counts the bytes in front of the frame too. -/
theorem C74_foreground_partial (cfg : Cfg) (hv : cfg.variant ≠ .wizzilab) (f : ForegroundFrame) (hw : f.WF cfg) :
    ∃ bytes, f.toBytes cfg = .ok bytes ∧ ∀ before after,
      f.header.length.val.toNat + 2 = before.length + bytes.length →
        ∃ count, ForegroundFrame.fromSource cfg ⟨before ++ bytes ++ after, before.length⟩ 0 =
          .ok (count, f, ⟨before ++ bytes ++ after, before.length + bytes.length⟩) := by
  obtain ⟨h, n, crc⟩ := f
  obtain ⟨hh, hn⟩ := hw
  dsimp only at hh hn ⊢
  obtain ⟨hb, hhb, hhd⟩ := ForegroundHeader.rt hh
  have h8 := ForegroundHeader.mod8 h hb hhb
  obtain ⟨nb, hnb, hn8, hnp, hrun⟩ := Net.read_limit hv hn
  obtain ⟨cb, hcb, hcd, hc16⟩ := uintHost_width cfg 2 crc
  have hwr : (ForegroundFrame.mk h n crc).write cfg = .ok (hb ++ (nb ++ cb)) := by
    simp only [ForegroundFrame.write, W.seq, hhb, hnb, hcb, List.append_nil]
  obtain ⟨bytes, hby, hbits⟩ := W.toBytes_ok hwr (by simp; omega)
  refine ⟨bytes, hby, fun before after hL => ?_⟩
  have hlen := congrArg List.length hbits
  rw [bytesBits_length] at hlen
  simp only [List.length_append] at hlen
  have hpos : 0 < hb.length := by
    obtain ⟨b1, c1, -, hrest, rfl⟩ := W.seq_cons_ok.1
      (show W.seq [h.length.write, W.u8 h.subnet, h.control.write, h.targetAddress.write] = .ok hb from hhb)
    obtain ⟨b2, c2, e2, -, rfl⟩ := W.seq_cons_ok.1 hrest
    cases e2; simp; omega
  have hrem0 : (Rd.mk (before ++ bytes ++ after) before.length [] 0).rem = hb ++ (nb ++ (cb ++ bytesBits after)) := by
    show bytesBits (List.drop before.length (before ++ bytes ++ after)) = _
    rw [List.append_assoc, List.drop_left, bytesBits_append, hbits]; simp
  have hcur0 : (Rd.mk (before ++ bytes ++ after) before.length [] 0).cur = 8 * before.length := rfl
  have hcon : (Rd.mk (before ++ bytes ++ after) before.length [] 0).Con := by
    refine ⟨⟨by simp, by simp, by simp⟩, ?_⟩
    rw [hcur0, ← bytesBits_drop]
    rfl
  obtain ⟨r1, e1, c1, m1, d1, -, u1, b1⟩ := P.run_con hcon hrem0 (hhd _) hpos
  obtain ⟨r2, e2, f2, m2, d2, b2⟩ := hrun r1 (cb ++ bytesBits after) h.length.val c1
    (by rw [u1, hcur0]; omega) m1 (by
      rw [d1]
      simp only [List.length_append, bytesBits_length]
      omega)
  obtain ⟨r3, e3, c3, m3, d3, l3, u3, b3⟩ := P.run_con f2.toCon m2 (hcd _) (by omega)
  have hread : ForegroundFrame.read cfg (Rd.mk (before ++ bytes ++ after) before.length [] 0) =
      .ok (⟨h, n, crc⟩, r3) := by
    unfold ForegroundFrame.read
    simp only [R.bind_eq, R.bind, e1, e2, e3]
    rfl
  refine ⟨r3.bitsRead, ?_⟩
  unfold ForegroundFrame.fromSource readSource
  rw [startAt_zero]
  dsimp only
  rw [hread]
  have hP : r3.Part := ⟨c3.toOK, l3⟩
  have hd : r3.data = before ++ bytes ++ after := d3.trans (d2.trans d1)
  have hp3 : r3.pos = before.length + bytes.length := by
    rw [← hP.pos_eq, hd, m3]
    unfold bytePosition
    rw [bytesBits_length]
    simp only [List.length_append]
    omega
  dsimp only
  rw [hd, hp3]

/-- **C74** fails for foreground frames: one read from behind as many bytes as its length says, or more, has no
command, whatever follows its headers. -/
theorem C74_foreground_violates (cfg : Cfg) (s t : Source) (hs : s.pos ≤ s.data.length) (off count : Nat)
    (f : ForegroundFrame) (h : ForegroundFrame.fromSource cfg s off = .ok (count, f, t))
    (h0 : f.header.length.val.toNat ≠ 0) (hle : f.header.length.val.toNat ≤ s.pos) :
    f.frame.frame.command.actions = [] := by
  obtain ⟨-, left, n, ⟨head, body, crc, m, e1, -, ⟨head2, body2, m2, e2, -, ⟨head3, body3, m3, e3, -, hr, -⟩, -⟩, -⟩, -⟩ :=
    (C74_foreground_exact cfg s t hs off count f).1 h
  have hlen : body3.length ≤ 8 * (s.data.length - s.pos) := by
    have h1 := congrArg List.length e1
    have h2 := congrArg List.length e2
    have h3 := congrArg List.length e3
    rw [List.length_append] at h1 h2 h3
    rw [List.length_drop, Form.ofBytes_length, List.length_drop] at h1
    omega
  cases has : f.frame.frame.command.actions with
  | nil => rfl
  | cons a as =>
    rw [has] at hr
    refine absurd ?_ hr.1
    have : (asked cfg f.header.length.val.toNat body3).length ≤ body3.length := by
      unfold asked wholeBytes; split <;> simp
    refine ⟨h0, ?_⟩
    unfold bytePosition
    omega

/-! ## Cases -/

/-- Three values of different types, the first of them six bits, from the middle of a source. -/
theorem Sample.three : ∀ v ∈ ([⟨.opCode, ⟨0x24⟩⟩, ⟨.channel, ⟨⟨.band868, .loRate, .fecPn9⟩, 0x0102⟩⟩,
    ⟨.length, ⟨0x102⟩⟩] : List (Σ i : Item, i.Val)),
    (∃ form, Form.item spec v.1 v.2 form) ∧ ¬ unknownInterface v.1 v.2 := by
  intro v hv
  simp only [List.mem_cons, List.not_mem_nil, or_false] at hv
  rcases hv with rfl | rfl | rfl
  · have : Item.opCode.fromSource spec ⟨[0x90], 0⟩ 0 = .ok (6, ⟨0x24⟩, ⟨[0x90], 1⟩) := by decide +kernel
    obtain ⟨-, form, -, -, h, -⟩ := (C74_item_exact ..).1 this
    exact ⟨⟨form, h⟩, id⟩
  · have : Item.channel.fromSource spec ⟨[0x32, 1, 2], 0⟩ 0 =
        .ok (24, ⟨⟨.band868, .loRate, .fecPn9⟩, 0x0102⟩, ⟨[0x32, 1, 2], 3⟩) := by decide +kernel
    obtain ⟨-, form, -, -, h, -⟩ := (C74_item_exact ..).1 this
    exact ⟨⟨form, h⟩, id⟩
  · have : Item.length.fromSource spec ⟨[0x41, 2], 0⟩ 0 = .ok (16, ⟨0x102⟩, ⟨[0x41, 2], 2⟩) := by decide +kernel
    obtain ⟨-, form, -, -, h, -⟩ := (C74_item_exact ..).1 this
    exact ⟨⟨form, h⟩, id⟩

example : ∃ bytes, writeItems spec [⟨.opCode, ⟨0x24⟩⟩, ⟨.channel, ⟨⟨.band868, .loRate, .fecPn9⟩, 0x0102⟩⟩,
      ⟨.length, ⟨0x102⟩⟩] = .ok bytes ∧ ∀ before after,
    readItems spec [.opCode, .channel, .length] ⟨before ++ bytes ++ after, before.length⟩ =
      .ok ([⟨.opCode, ⟨0x24⟩⟩, ⟨.channel, ⟨⟨.band868, .loRate, .fecPn9⟩, 0x0102⟩⟩, ⟨.length, ⟨0x102⟩⟩],
        ⟨before ++ bytes ++ after, before.length + bytes.length⟩) :=
  C74_items_in_order spec _ Sample.three

/-- The same bits, at a bit offset in the middle of a source. -/
example : Item.length.fromSource spec ⟨[0xAA, 0xF4, 0x10, 0x2F, 0xBB], 1⟩ 4 =
    .ok (20, ⟨0x102⟩, ⟨[0xAA, 0xF4, 0x10, 0x2F, 0xBB], 4⟩) := by decide +kernel

/-- Two actions behind an indirect forward. -/
example : ∃ bytes, writeActions spec [indirect, tag, tag] = .ok bytes ∧ ∀ before after,
    readActions spec 3 ⟨before ++ bytes ++ after, before.length⟩ =
      .ok ([indirect, tag, tag], ⟨before ++ bytes ++ after, before.length + bytes.length⟩) :=
  C74_actions_in_order spec [indirect, tag, tag] (by decide +kernel)

/-- **C74** fails for commands in a source that goes on behind an indirect forward: looking for the end takes a byte
from the source, which the next call misses. Here it is the first of the two bytes of a request tag. -/
theorem C74_command_violates (cfg : Cfg) :
    Command.fromSource cfg ⟨[0x33, 0xB4, 0x07], 0⟩ 0 =
        .ok (if cfg.endCounts then 32 else 16, ⟨[.indirectForward ⟨⟨false, false⟩, ⟨51⟩, none⟩]⟩,
          ⟨[0x33, 0xB4, 0x07], 2⟩) ∧
      Action.fromSource cfg ⟨[0x33, 0xB4, 0x07], 1⟩ 0 = .ok (24, tag, ⟨[0x33, 0xB4, 0x07], 3⟩) ∧
      Action.fromSource cfg ⟨[0x33, 0xB4, 0x07], 2⟩ 0 = .error (.fault .invalidParam) := by
  rcases cfg with ⟨v, a, b, c, d⟩
  cases v <;> revert a b c d <;> decide +kernel

/-- **C74** fails for foreground frames, as witnessed by a frame written twice. The second of them is read without its
command, with the bytes of the command for its CRC. -/
theorem C74_foreground_twice_violates :
    (Sample.foreground 25 ⟨[tag]⟩).toBytes spec = .ok Sample.foregroundWire ∧
    ForegroundFrame.fromSource spec ⟨foregroundWire ++ foregroundWire, 0⟩ 0 =
      .ok (224, Sample.foreground 25 ⟨[tag]⟩, ⟨foregroundWire ++ foregroundWire, 27⟩) ∧
    ForegroundFrame.fromSource spec ⟨foregroundWire ++ foregroundWire, 27⟩ 0 =
      .ok (200, { Sample.foreground 25 ⟨[]⟩ with crc16 := 0x07B4 }, ⟨foregroundWire ++ foregroundWire, 52⟩) := by
  decide +kernel

/-- If its length counts the bytes in front, it is read. -/
example : (Sample.foreground 27 ⟨[tag]⟩).WF spec ∧
    (Sample.foreground 27 ⟨[tag]⟩).toBytes spec = .ok (27 :: foregroundWire.tail) ∧
    ForegroundFrame.fromSource spec ⟨[1, 2] ++ (27 :: foregroundWire.tail) ++ [3], 2⟩ 0 =
      .ok (224, Sample.foreground 27 ⟨[tag]⟩, ⟨[1, 2] ++ (27 :: foregroundWire.tail) ++ [3], 29⟩) := by
  decide +kernel

#print axioms C74_item
#print axioms C74_action
#print axioms C74_command
#print axioms C74_frame
#print axioms C74_start
#print axioms C74_item_exact
#print axioms C74_items_in_order
#print axioms C74_action_exact
#print axioms C74_actions_in_order
#print axioms C74_command_exact
#print axioms C74_transport_exact
#print axioms C74_network_exact
#print axioms C74_foreground_exact
#print axioms C74_foreground_partial
#print axioms C74_foreground_violates
#print axioms C74_command_violates
#print axioms C74_foreground_twice_violates

end Dash7
