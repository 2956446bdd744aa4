import Verif.Props.Offset
import Verif.Props.FrameAccept

/-!
# C78: the security method of a frame
-/

namespace Dash7
open Sample Spec

/-- The bits of the security method in the control field of the network layer. -/
def Spec.methodBits (v : Variant) : Nat := if v = .wizzilab then 3 else 4

/-- The network frame with these bits, with another security method announced: the bits behind the first five. -/
def Spec.announcing (v : Variant) (m : NlsMethod) (s s' : List Bool) : Prop :=
  ∃ method, Form.field (Spec.methodBits v) (Wire.nlsMethod m) method ∧
    s' = s.take 5 ++ method ++ s.drop (5 + Spec.methodBits v)

/-- The frame itself with another method, and nothing else changed. -/
def Spec.withMethod (m : NlsMethod) (f : Net.Frame) : Net.Frame :=
  { f with header := { f.header with control := { f.header.control with nlsMethod := m } } }

theorem announcing_length {v : Variant} {m : NlsMethod} {s s' : List Bool} (h : Spec.announcing v m s s')
    (hl : 5 + Spec.methodBits v ≤ s.length) : s'.length = s.length := by
  obtain ⟨w, ⟨hw, -⟩, rfl⟩ := h
  simp only [List.length_append, List.length_take, List.length_drop, hw]
  omega

theorem netHeader_announcing {v : Variant} {h : Net.Header} {head body s' : List Bool} {m : NlsMethod}
    (hh : Form.netHeader v h head) (ha : Spec.announcing v m (head ++ body) s') :
    ∃ head', s' = head' ++ body ∧ head'.length = head.length ∧
      Form.netHeader v { h with control := { h.control with nlsMethod := m } } head' := by
  obtain ⟨w, hw, rfl⟩ := ha
  obtain ⟨x, y, rfl, hx, hy⟩ := hh
  obtain ⟨a, -, rfl, ha, b, -, rfl, hb, c, -, rfl, hc, d, -, rfl, hd, e, -, rfl, he, rfl⟩ := hx
  have la : a.length = 1 := by rw [ha]; rfl
  have lb : b.length = 1 := by rw [hb]; rfl
  have lc : c.length = 2 := hc.1
  have ld : d.length = 1 := hd
  have le : e.length = Spec.methodBits v := he.1
  have hs : (a ++ (b ++ (c ++ (d ++ (e ++ [])))) ++ y ++ body) = (a ++ (b ++ (c ++ d))) ++ (e ++ (y ++ body)) := by simp
  have h5 : (a ++ (b ++ (c ++ d))).length = 5 := by simp only [List.length_append]; omega
  refine ⟨(a ++ (b ++ (c ++ (d ++ (w ++ []))))) ++ y, ?_, ?_, ?_⟩
  · have h9 : 5 + Spec.methodBits v = ((a ++ (b ++ (c ++ d))) ++ e).length := by
      rw [List.length_append, h5, le]
    rw [hs, h9, ← List.append_assoc (a ++ (b ++ (c ++ d))) e, List.drop_left, List.append_assoc _ e, ← h5, List.take_left]
    simp
  · simp only [List.length_append, hw.1, le]
  · exact ⟨_, y, rfl, ⟨a, _, rfl, ha, b, _, rfl, hb, c, _, rfl, hc, d, _, rfl, hd, w, _, rfl, hw, rfl⟩, hy⟩

theorem netHeader_long {v : Variant} {h : Net.Header} {head : List Bool} (hh : Form.netHeader v h head) :
    5 + Spec.methodBits v ≤ head.length := by
  obtain ⟨x, y, rfl, hx, hy⟩ := hh
  obtain ⟨a, -, rfl, ha, b, -, rfl, hb, c, -, rfl, hc, d, -, rfl, hd, e, -, rfl, he, rfl⟩ := hx
  have la : a.length = 1 := by rw [ha]; rfl
  have lb : b.length = 1 := by rw [hb]; rfl
  have lc : c.length = 2 := hc.1
  have ld : d.length = 1 := hd
  have le : e.length = Spec.methodBits v := he.1
  simp only [List.length_append]
  omega

theorem netReading_announcing {cfg : Cfg} {limit size : Nat} {f : Net.Frame} {s s' left : List Bool} {n : Nat}
    {m : NlsMethod} (h : netReading cfg limit size f s left n) (ha : Spec.announcing cfg.variant m s s') :
    s'.length = s.length ∧ netReading cfg limit size (Spec.withMethod m f) s' left n := by
  obtain ⟨head, body, k, rfl, hh, ht, rfl⟩ := h
  have hlong := netHeader_long hh
  refine ⟨announcing_length ha (by rw [List.length_append]; omega), ?_⟩
  obtain ⟨head', rfl, hl, hh'⟩ := netHeader_announcing hh ha
  exact ⟨head', body, k, rfl, hh', ht, by rw [hl]⟩

theorem ofBytes_length_inj {a b : List U8} (h : (Form.ofBytes a).length = (Form.ofBytes b).length) :
    a.length = b.length := by
  rw [Form.ofBytes_eq, Form.ofBytes_eq, bytesBits_length, bytesBits_length] at h
  omega

/-- **C78** (partial: it is passed on, not respected) What `try_from` makes of a network frame does not depend on the
security method announced: with any other method in its place the same is accepted, and the payload is decoded the
same way. -/
theorem C78_network_partial (cfg : Cfg) (data data' : List U8) (f : Net.Frame) (m : NlsMethod)
    (ha : Spec.announcing cfg.variant m (Form.ofBytes data) (Form.ofBytes data'))
    (h : Net.Frame.tryFrom cfg data = .ok f) : Net.Frame.tryFrom cfg data' = .ok (Spec.withMethod m f) := by
  obtain ⟨left, n, hr, hn⟩ := (C58_network cfg data f).1 h
  obtain ⟨hl, hr'⟩ := netReading_announcing hr ha
  have hl := ofBytes_length_inj hl
  rw [← hl] at hr' hn
  exact (C58_network cfg data' _).2 ⟨left, n, hr', hn⟩

theorem dropped_length_inj {a b : List U8} {off : Nat} (h : ((Form.ofBytes a).drop off).length = ((Form.ofBytes b).drop off).length)
    (hb : 0 < ((Form.ofBytes b).drop off).length) : a.length = b.length := by
  rw [Form.ofBytes_eq, Form.ofBytes_eq, List.length_drop, List.length_drop, bytesBits_length, bytesBits_length] at h
  rw [Form.ofBytes_eq, List.length_drop, bytesBits_length] at hb
  omega

/-- **C78** (partial: it is passed on, not respected) The same for `from_bytes` at any bit offset, with as much left
over. -/
theorem C78_network_from_bytes_partial (cfg : Cfg) (data data' : List U8) (off : Nat) (f : Net.Frame) (m : NlsMethod)
    (rest : Rest)
    (ha : Spec.announcing cfg.variant m ((Form.ofBytes data).drop off) ((Form.ofBytes data').drop off))
    (h : Net.Frame.fromBytes cfg (data, off) = .ok (rest, f)) :
    ∃ rest', Net.Frame.fromBytes cfg (data', off) = .ok (rest', Spec.withMethod m f) ∧
      rest'.1.length = rest.1.length ∧ rest'.2 = rest.2 := by
  obtain ⟨ho, left, n, hr, hn, rfl⟩ := (C58_network_from_bytes cfg data off f rest).1 h
  have hp : 0 < ((Form.ofBytes data).drop off).length := by
    obtain ⟨head, body, k, e, hh, -⟩ := hr
    have := netHeader_long hh
    rw [e, List.length_append]
    omega
  obtain ⟨hl, hr'⟩ := netReading_announcing hr ha
  have hl := dropped_length_inj hl hp
  rw [← hl] at hr' hn ho
  exact ⟨_, (C58_network_from_bytes cfg data' off _ _).2 ⟨ho, left, n, hr', hn, rfl⟩, by simp [hl], rfl⟩

/-- **C78** (partial: it is passed on, not respected) The same for the network frame in a foreground frame, behind
the header of the link layer. -/
theorem C78_foreground_partial (cfg : Cfg) (data : List U8) (f : ForegroundFrame)
    (h : ForegroundFrame.tryFrom cfg data = .ok f) :
    ∃ head body, Form.ofBytes data = head ++ body ∧ Form.foregroundHeader f.header head ∧
      ∀ data' body' m, Form.ofBytes data' = head ++ body' → Spec.announcing cfg.variant m body body' →
        ForegroundFrame.tryFrom cfg data' = .ok { f with frame := Spec.withMethod m f.frame } := by
  obtain ⟨left, n, ⟨head, body, crc, k, hd, hh, hr, hc, rfl⟩, hn⟩ := (C58_foreground cfg data f).1 h
  refine ⟨head, body, hd, hh, fun data' body' m hd' ha => ?_⟩
  obtain ⟨hl, hr'⟩ := netReading_announcing hr ha
  have hl := ofBytes_length_inj (a := data') (b := data) (by rw [hd, hd']; simp [hl])
  rw [← hl] at hr' hn
  exact (C58_foreground cfg data' _).2 ⟨left, _, ⟨head, body', crc, k, hd', hh, hr', hc, rfl⟩, hn⟩

/-- **C78** (partial: it is passed on, not respected) Foreground frames by `from_bytes` at any bit offset. -/
theorem C78_foreground_from_bytes_partial (cfg : Cfg) (data : List U8) (off : Nat) (f : ForegroundFrame) (rest : Rest)
    (h : ForegroundFrame.fromBytes cfg (data, off) = .ok (rest, f)) :
    ∃ head body, (Form.ofBytes data).drop off = head ++ body ∧ Form.foregroundHeader f.header head ∧
      ∀ data' body' m, (Form.ofBytes data').drop off = head ++ body' → Spec.announcing cfg.variant m body body' →
        ∃ rest', ForegroundFrame.fromBytes cfg (data', off) = .ok (rest', { f with frame := Spec.withMethod m f.frame }) ∧
          rest'.1.length = rest.1.length ∧ rest'.2 = rest.2 := by
  obtain ⟨ho, left, n, ⟨head, body, crc, k, hd, hh, hr, hc, rfl⟩, hn, rfl⟩ :=
    (C58_foreground_from_bytes cfg data off f rest).1 h
  refine ⟨head, body, hd, hh, fun data' body' m hd' ha => ?_⟩
  have hp : 0 < ((Form.ofBytes data).drop off).length := by
    obtain ⟨nh, nb, k, e, hn, -⟩ := hr
    have := netHeader_long hn
    rw [hd, e, List.length_append, List.length_append]
    omega
  obtain ⟨hl, hr'⟩ := netReading_announcing hr ha
  have hl := dropped_length_inj (a := data') (b := data) (by rw [hd, hd']; simp [hl]) hp
  rw [← hl] at hr' hn ho
  exact ⟨_, (C58_foreground_from_bytes cfg data' off _ _).2
    ⟨ho, left, _, ⟨head, body', crc, k, hd', hh, hr', hc, rfl⟩, hn, rfl⟩, by simp [hl], rfl⟩

/-- **C78** does not hold: this frame announces encryption and authentication, and is decoded as the plain request
that its bytes are when nothing is encrypted. -/
theorem C78_violates (cfg : Cfg) (hv : cfg.variant ≠ .wizzilab) :
    ∃ data f, ForegroundFrame.tryFrom cfg data = .ok f ∧ f.frame.header.control.nlsMethod = .aesCcm32 ∧
      f.frame.frame.command.actions = [Sample.tag] := by
  rcases cfg with ⟨v, a, b, c, d⟩
  have key : ∀ data, (match ForegroundFrame.tryFrom ⟨v, a, b, c, d⟩ data with
      | .ok f => decide (f.frame.header.control.nlsMethod = .aesCcm32) &&
        decide (f.frame.frame.command.actions = [Sample.tag])
      | .error _ => false) = true →
      ∃ data f, ForegroundFrame.tryFrom ⟨v, a, b, c, d⟩ data = .ok f ∧
        f.frame.header.control.nlsMethod = .aesCcm32 ∧ f.frame.frame.command.actions = [Sample.tag] := by
    intro data h
    split at h
    · next f hf =>
      rw [Bool.and_eq_true, decide_eq_true_eq, decide_eq_true_eq] at h
      exact ⟨data, f, hf, h⟩
    · cases h
  refine key (Sample.foregroundWire ++ if b then [99, 99] else [99]) ?_
  cases v
  · clear key hv; revert a b c d; decide +kernel
  · clear key hv; revert a b c d; decide +kernel
  · exact absurd rfl hv

/-- **C78** does not hold in wizzilab builds either: an encrypted frame read as a query for a file (if stepping back
clears the bits of the byte begun). -/
theorem C78_wizzilab_violates (big counts unit : Bool) :
    let cfg : Cfg := ⟨.wizzilab, big, counts, true, unit⟩
    ∃ data f, ForegroundFrame.tryFrom cfg data = .ok f ∧ f.frame.header.control.nlsMethod = .aesCcm32 ∧
      f.frame.frame.command.actions = [.existFile ⟨⟨true, true⟩, ⟨16⟩, 7⟩] := by
  intro cfg
  have key : ∀ data, (match ForegroundFrame.tryFrom cfg data with
      | .ok f => decide (f.frame.header.control.nlsMethod = .aesCcm32) &&
        decide (f.frame.frame.command.actions = [.existFile ⟨⟨true, true⟩, ⟨16⟩, 7⟩])
      | .error _ => false) = true →
      ∃ data f, ForegroundFrame.tryFrom cfg data = .ok f ∧ f.frame.header.control.nlsMethod = .aesCcm32 ∧
        f.frame.frame.command.actions = [.existFile ⟨⟨true, true⟩, ⟨16⟩, 7⟩] := by
    intro data h
    split at h
    · next f hf =>
      rw [Bool.and_eq_true, decide_eq_true_eq, decide_eq_true_eq] at h
      exact ⟨data, f, hf, h⟩
    · cases h
  refine key ([9, 5, 0x40, 0x17, 0xFE, 0, 0, 0, 0xD0, 7, 0, 0] ++ if counts then [0] else []) ?_
  clear key
  revert big counts unit
  decide +kernel

/-- The frame of `C78_violates` with another method, AES in counter mode: `announcing` holds, and what is read differs
in the method only. -/
example : Spec.announcing .spec .aesCtr (Form.ofBytes (Sample.foregroundWire.drop 3))
    (Form.ofBytes (0xE0 :: Sample.foregroundWire.drop 4)) ∧
    ForegroundFrame.tryFrom spec (Sample.foregroundWire.take 3 ++ 0xE0 :: Sample.foregroundWire.drop 4 ++ [99]) =
      .ok { Sample.foreground 25 ⟨[Sample.tag]⟩ with
            frame := Spec.withMethod .aesCtr (Sample.foreground 25 ⟨[Sample.tag]⟩).frame } := by
  refine ⟨⟨[false, false, false, true], ⟨rfl, by decide +kernel⟩, by decide +kernel⟩, by decide +kernel⟩
/-- A network frame whose method is replaced. -/
example : Net.Frame.tryFrom spec [227, 160, 16, 128, 8, 145, 25, 162, 42, 179, 59, 253, 7, 9, 48, 18, 95, 4, 1, 2]
    = .ok ⟨Sample.netHeader, ⟨Sample.transHeader, ⟨[]⟩⟩⟩ ∧
    Net.Frame.tryFrom spec [224, 32, 16, 128, 8, 145, 25, 162, 42, 179, 59, 253, 7, 9, 48, 18, 95, 4, 1, 2]
    = .ok (Spec.withMethod .none ⟨Sample.netHeader, ⟨Sample.transHeader, ⟨[]⟩⟩⟩) := by decide +kernel
/-- The same behind a byte of something else. -/
example : Net.Frame.fromBytes spec ([0xAB, 227, 160, 16, 128, 8, 145, 25, 162, 42, 179, 59, 253, 7, 9, 48, 18, 95, 4, 1, 2], 8)
    = .ok (([], 0), ⟨Sample.netHeader, ⟨Sample.transHeader, ⟨[]⟩⟩⟩) ∧
    Net.Frame.fromBytes spec ([0xAB, 224, 32, 16, 128, 8, 145, 25, 162, 42, 179, 59, 253, 7, 9, 48, 18, 95, 4, 1, 2], 8)
    = .ok (([], 0), Spec.withMethod .none ⟨Sample.netHeader, ⟨Sample.transHeader, ⟨[]⟩⟩⟩) := by decide +kernel

#print axioms C78_network_partial
#print axioms C78_network_from_bytes_partial
#print axioms C78_foreground_partial
#print axioms C78_foreground_from_bytes_partial
#print axioms C78_violates
#print axioms C78_wizzilab_violates

end Dash7
