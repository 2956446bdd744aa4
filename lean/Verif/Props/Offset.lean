import Verif.Lemmas.Offset
import Verif.Props.FrameAccept

/-!
# C58: what the decoders accept at any bit position

`Verif.Spec.Offset` tells what is taken for the actions of a command wherever the reader stands in a byte:
behind a TX status, in a transport frame, at a bit offset given by the caller.
-/

namespace Dash7
open Sample Spec

/-! ## Readers of frames -/

theorem Trans.Frame.takes (cfg : Cfg) (L : U32) : Takes (Trans.Frame.read cfg L)
    (fun size f s left n => transReading cfg L.toNat size f s left n) where
  conv {r r' f} h hr := by
    obtain ⟨r1, h1, h2⟩ := Trans.read_iff.1 hr
    obtain ⟨c, hF, hrem, -, hd, hb, hp⟩ := Trans.Header.fits.ok h.toOK h1
    obtain ⟨m, hR, hok, hd', hb'⟩ := (Command.takes cfg L).conv (hp h) h2
    rw [hd] at hR
    exact ⟨c.length + m, ⟨c, r1.rem, m, hrem, hF, hR, rfl⟩, hok, hd'.trans hd, by omega⟩
  form {r f left n} h hT := by
    obtain ⟨head, body, m, hs, hF, hR, rfl⟩ := hT
    obtain ⟨r1, h1, -, hd, hrem, hb, hp⟩ := Trans.Header.fits.form h.toOK hF hs
    obtain ⟨r', h2, hok, hd', hm, hb'⟩ := (Command.takes cfg L).form (a := f.command) (hp h)
      (by rw [hd, hrem]; exact hR)
    exact ⟨r', Trans.read_iff.2 ⟨r1, h1, h2⟩, hok, hd'.trans hd, hm, by omega⟩

theorem Net.Frame.takes (cfg : Cfg) (L : U32) : Takes (Net.Frame.read cfg L)
    (fun size f s left n => netReading cfg L.toNat size f s left n) where
  conv {r r' f} h hr := by
    obtain ⟨r1, h1, h2⟩ := Net.read_iff.1 hr
    obtain ⟨c, hF, hrem, -, hd, hb, hp⟩ := (Net.Header.fits cfg).ok h.toOK h1
    obtain ⟨m, hR, hok, hd', hb'⟩ := (Trans.Frame.takes cfg L).conv (hp h) h2
    rw [hd] at hR
    exact ⟨c.length + m, ⟨c, r1.rem, m, hrem, hF, hR, rfl⟩, hok, hd'.trans hd, by omega⟩
  form {r f left n} h hT := by
    obtain ⟨head, body, m, hs, hF, hR, rfl⟩ := hT
    obtain ⟨r1, h1, -, hd, hrem, hb, hp⟩ := (Net.Header.fits cfg).form h.toOK hF hs
    obtain ⟨r', h2, hok, hd', hm, hb'⟩ := (Trans.Frame.takes cfg L).form (a := f.frame) (hp h)
      (by rw [hd, hrem]; exact hR)
    exact ⟨r', Net.read_iff.2 ⟨r1, h1, h2⟩, hok, hd'.trans hd, hm, by omega⟩

theorem ForegroundFrame.takes (cfg : Cfg) : Takes (ForegroundFrame.read cfg)
    (fun size f s left n => foregroundReading cfg size f s left n) where
  conv {r r' f} h hr := by
    obtain ⟨r1, r2, h1, h2, h3⟩ := ForegroundFrame.read_iff.1 hr
    obtain ⟨c, hF, hrem, -, hd, hb, hp⟩ := ForegroundHeader.fits.ok h.toOK h1
    obtain ⟨m, hR, hok, hd', hb'⟩ := (Net.Frame.takes cfg f.header.length.val).conv (hp h) h2
    obtain ⟨crc, hC, hrem3, hok3, hd3, hb3, -⟩ := (Fits.host cfg 2).ok hok h3
    rw [hd, hrem3] at hR
    exact ⟨c.length + m + crc.length, ⟨c, r1.rem, crc, m, hrem, hF, hR, hC, rfl⟩, hok3,
      hd3.trans (hd'.trans hd), by omega⟩
  form {r f left n} h hT := by
    obtain ⟨head, body, crc, m, hs, hF, hR, hC, rfl⟩ := hT
    obtain ⟨r1, h1, -, hd, hrem, hb, hp⟩ := ForegroundHeader.fits.form h.toOK hF hs
    obtain ⟨r2, h2, hok, hd', hm, hb'⟩ := (Net.Frame.takes cfg f.header.length.val).form (a := f.frame) (hp h)
      (by rw [hd, hrem]; exact hR)
    obtain ⟨r3, h3, hok3, hd3, hm3, hb3, -⟩ := (Fits.host cfg 2).form hok hC hm
    exact ⟨r3, ForegroundFrame.read_iff.2 ⟨r1, r2, h1, h2, h3⟩, hok3, hd3.trans (hd'.trans hd), hm3, by omega⟩

/-! ## Actions and commands -/

/-- **C58** `Action::from_bytes` at any bit offset. -/
theorem C58_action (cfg : Cfg) (data : List U8) (off : Nat) (a : Action) (rest : Rest) :
    Action.fromBytes cfg (data, off) = .ok (rest, a) ↔
      off ≤ 8 * data.length ∧ ∃ left n, actionReading cfg a ((Form.ofBytes data).drop off) left n ∧
        ¬ cutsTooFar data off (off + n) ∧ rest = handedBack data off (off + n) :=
  (Action.takes cfg).fromBytes data off a rest

/-- **C58** `Action::from_reader` at any bit offset. -/
theorem C58_action_reader (cfg : Cfg) (data : List U8) (off : Nat) (a : Action) (count : Nat) :
    Action.fromReader cfg data off = .ok (count, a) ↔
      off ≤ 8 * data.length ∧ ∃ left n, actionReading cfg a ((Form.ofBytes data).drop off) left n ∧
        count = off + n :=
  (Action.takes cfg).fromReader data off a count

/-- **C58** `Command::from_bytes` at any bit offset, whatever the actions. -/
theorem C58_command (cfg : Cfg) (data : List U8) (off : Nat) (c : Command) (rest : Rest) :
    Command.fromBytes cfg (data, off) = .ok (rest, c) ↔
      off ≤ 8 * data.length ∧
        ∃ left n, reading cfg 0 data.length false c.actions ((Form.ofBytes data).drop off) left n ∧
          ¬ cutsTooFar data off (off + n) ∧ rest = handedBack data off (off + n) :=
  (Command.takes cfg 0).fromBytes data off c rest

/-- **C58** `Command::from_reader` at any bit offset, whatever the actions. -/
theorem C58_command_reader (cfg : Cfg) (data : List U8) (off : Nat) (c : Command) (count : Nat) :
    Command.fromReader cfg data off = .ok (count, c) ↔
      off ≤ 8 * data.length ∧
        ∃ left n, reading cfg 0 data.length false c.actions ((Form.ofBytes data).drop off) left n ∧
          count = off + n :=
  (Command.takes cfg 0).fromReader data off c count

/-- **C58** `Command::try_from`, whatever the actions: the bits counted must be all of the input, or more. -/
theorem C58_command_try (cfg : Cfg) (data : List U8) (c : Command) :
    Command.tryFrom cfg data = .ok c ↔
      ∃ left n, reading cfg 0 data.length false c.actions (Form.ofBytes data) left n ∧
        8 * data.length ≤ n := by
  have key : Command.tryFrom cfg data = .ok c ↔
      ∃ rest, Command.fromBytes cfg (data, 0) = .ok (rest, c) ∧ rest.1 = [] := by
    unfold Command.tryFrom
    constructor
    · intro h
      split at h
      · cases h
      · rename_i rest c' hf
        split at h
        · cases h
        · rename_i hn
          cases h
          exact ⟨rest, hf, by simpa using hn⟩
    · rintro ⟨rest, hf, h0⟩
      rw [hf]
      simp [h0]
  rw [key]
  simp only [C58_command, List.drop_zero, Nat.zero_add]
  have hcut : ∀ n, 8 * data.length ≤ n ↔ ¬ cutsTooFar data 0 n ∧ (handedBack data 0 n).1 = [] := by
    intro n
    unfold cutsTooFar handedBack
    split
    · exact ⟨fun h => ⟨by omega, rfl⟩, fun _ => by omega⟩
    · simp only [List.drop_eq_nil_iff]; omega
  constructor
  · rintro ⟨rest, ⟨-, left, n, hR, hc, rfl⟩, h0⟩
    exact ⟨left, n, hR, (hcut n).2 ⟨hc, h0⟩⟩
  · rintro ⟨left, n, hR, hn⟩
    exact ⟨_, ⟨by omega, left, n, hR, ((hcut n).1 hn).1, rfl⟩, ((hcut n).1 hn).2⟩

/-! ## Frames -/

/-- **C58** `try_from` of the transport layer, in every build. -/
theorem C58_transport (cfg : Cfg) (data : List U8) (f : Trans.Frame) :
    Trans.Frame.tryFrom cfg data = .ok f ↔
      ∃ left n, transReading cfg 0 data.length f (Form.ofBytes data) left n ∧ n / 8 = data.length :=
  (Trans.Frame.takes cfg 0).derivedTryFrom data f

/-- **C58** `from_bytes` of the transport layer at any bit offset, in every build. -/
theorem C58_transport_from_bytes (cfg : Cfg) (data : List U8) (off : Nat) (f : Trans.Frame) (rest : Rest) :
    Trans.Frame.fromBytes cfg (data, off) = .ok (rest, f) ↔
      off ≤ 8 * data.length ∧
        ∃ left n, transReading cfg 0 data.length f ((Form.ofBytes data).drop off) left n ∧
          (off + n) / 8 ≤ data.length ∧ rest = (data.drop ((off + n) / 8), (off + n) % 8) :=
  (Trans.Frame.takes cfg 0).derivedFromBytes data off f rest

/-- **C58** `try_from` of the network layer, in every build. -/
theorem C58_network (cfg : Cfg) (data : List U8) (f : Net.Frame) :
    Net.Frame.tryFrom cfg data = .ok f ↔
      ∃ left n, netReading cfg 0 data.length f (Form.ofBytes data) left n ∧ n / 8 = data.length :=
  (Net.Frame.takes cfg 0).derivedTryFrom data f

/-- **C58** `from_bytes` of the network layer at any bit offset, in every build. -/
theorem C58_network_from_bytes (cfg : Cfg) (data : List U8) (off : Nat) (f : Net.Frame) (rest : Rest) :
    Net.Frame.fromBytes cfg (data, off) = .ok (rest, f) ↔
      off ≤ 8 * data.length ∧
        ∃ left n, netReading cfg 0 data.length f ((Form.ofBytes data).drop off) left n ∧
          (off + n) / 8 ≤ data.length ∧ rest = (data.drop ((off + n) / 8), (off + n) % 8) :=
  (Net.Frame.takes cfg 0).derivedFromBytes data off f rest

/-- **C58** `ForegroundFrame::try_from`, in every build. -/
theorem C58_foreground (cfg : Cfg) (data : List U8) (f : ForegroundFrame) :
    ForegroundFrame.tryFrom cfg data = .ok f ↔
      ∃ left n, foregroundReading cfg data.length f (Form.ofBytes data) left n ∧ n / 8 = data.length :=
  (ForegroundFrame.takes cfg).derivedTryFrom data f

/-- **C58** `ForegroundFrame::from_bytes` at any bit offset, in every build. -/
theorem C58_foreground_from_bytes (cfg : Cfg) (data : List U8) (off : Nat) (f : ForegroundFrame) (rest : Rest) :
    ForegroundFrame.fromBytes cfg (data, off) = .ok (rest, f) ↔
      off ≤ 8 * data.length ∧
        ∃ left n, foregroundReading cfg data.length f ((Form.ofBytes data).drop off) left n ∧
          (off + n) / 8 ≤ data.length ∧ rest = (data.drop ((off + n) / 8), (off + n) % 8) :=
  (ForegroundFrame.takes cfg).derivedFromBytes data off f rest

/-! ## Cases -/

/-- Behind a TX status: the six bits of the byte begun are dropped, and a no-operation is read. -/
example : ∃ left n, reading wizzilab 0 5 false [.txStatus ⟨⟨0⟩, ⟨0x10, .other []⟩⟩, .nop ⟨⟨false, false⟩, ⟨0⟩⟩]
    (Form.ofBytes [0x66, 0x00, 0x40, 0x00, 0x00]) left n ∧ 40 ≤ n := by
  refine (C58_command_try wizzilab [0x66, 0x00, 0x40, 0x00, 0x00]
    ⟨[.txStatus ⟨⟨0⟩, ⟨0x10, .other []⟩⟩, .nop ⟨⟨false, false⟩, ⟨0⟩⟩]⟩).1 ?_
  decide +kernel

/-- The code of a request tag from the fourth bit on. The operand is what stands behind the byte boundary;
where the bits kept back are not dropped, they come first. -/
example : (∃ left n, actionReading spec (.requestTag ⟨true, ⟨7⟩, 0x60⟩)
      ((Form.ofBytes [0x16, 0x87, 0x60]).drop 3) left n) ∧
    ∃ left n, actionReading spec' (.requestTag ⟨false, ⟨0x3c⟩, 0x3b⟩)
      ((Form.ofBytes [0x16, 0x87, 0x60]).drop 3) left n := by
  constructor
  · obtain ⟨-, l, n, h, -⟩ := (C58_action spec [0x16, 0x87, 0x60] 3 (.requestTag ⟨true, ⟨7⟩, 0x60⟩) ([], 3)).1
      (by decide +kernel)
    exact ⟨l, n, h⟩
  · obtain ⟨-, l, n, h, -⟩ := (C58_action spec' [0x16, 0x87, 0x60] 3 (.requestTag ⟨false, ⟨0x3c⟩, 0x3b⟩) ([], 3)).1
      (by decide +kernel)
    exact ⟨l, n, h⟩

/-- Transport frames are read with one bit kept back. -/
example : (∃ left n, transReading spec 0 10 Sample.transNop
      (Form.ofBytes [0xfa, 0x0e, 0x12, 0x60, 0x24, 0xbe, 0x08, 0x02, 0x04, 0x00]) left n ∧ n / 8 = 10) := by
  refine (C58_transport spec [0xfa, 0x0e, 0x12, 0x60, 0x24, 0xbe, 0x08, 0x02, 0x04, 0x00] Sample.transNop).1 ?_
  decide +kernel

/-- A foreground frame read up to its length. -/
example : ∃ left n, foregroundReading spec 28 (Sample.foreground 25 ⟨[tag]⟩)
    (Form.ofBytes (Sample.foregroundWire ++ [99])) left n ∧ n / 8 = 28 := by
  refine (C58_foreground spec (Sample.foregroundWire ++ [99]) (Sample.foreground 25 ⟨[tag]⟩)).1 ?_
  decide +kernel

/-! ## Where the plain grammar does not hold -/

/-- **C55** fails for a TX status with something behind it: the command is no sequence of forms. -/
theorem C55_tx_status_violates :
    Command.tryFrom wizzilab [0x66, 0x00, 0x40, 0x00, 0x00] =
        .ok ⟨[.txStatus ⟨⟨0⟩, ⟨0x10, .other []⟩⟩, .nop ⟨⟨false, false⟩, ⟨0⟩⟩]⟩ ∧
      ¬ ∃ wire junk, [0x66, 0x00, 0x40, 0x00, 0x00] = wire ++ junk ∧
        Form.actions wizzilab [.txStatus ⟨⟨0⟩, ⟨0x10, .other []⟩⟩, .nop ⟨⟨false, false⟩, ⟨0⟩⟩]
          (Form.ofBytes wire) := by
  refine ⟨by decide +kernel, ?_⟩
  rintro ⟨wire, junk, -, x, _, h, hx, y, _, rfl, hy, rfl⟩
  obtain ⟨c, hc, hdec, -⟩ := Action.decode_ok ((Action.decode_iff wizzilab _ x []).2 hx)
  rw [List.append_nil, List.append_nil] at hc
  subst hc
  have h1 := hdec.dvd' rfl
  have h2 := (Action.form_dvd hy rfl).1
  have h3 := congrArg List.length h
  rw [Form.ofBytes_eq, bytesBits_length, List.length_append, List.append_nil] at h3
  omega

/-- **C57** fails for transport frames: the frame decoded holds an action that has no form. -/
theorem C57_transport_violates :
    ∃ data f, Trans.Frame.tryFrom spec data = .ok f ∧
      ∀ wire, ¬ Form.actions spec f.command.actions wire := by
  refine ⟨[0xfa, 0x0e, 0x12, 0x60, 0x24, 0xbe, 0x08, 0x02, 0x05, 0x68, 0x0e],
    ⟨Sample.transHeader, ⟨[.requestTag ⟨false, ⟨0x28⟩, 0x0e⟩]⟩⟩, by decide +kernel, ?_⟩
  rintro wire ⟨x, y, -, ⟨_, _, -, -, _, _, -, -, _, _, -, ⟨h, -⟩, -⟩, -⟩
  exact absurd h (by decide)

#print axioms C55_tx_status_violates
#print axioms C57_transport_violates
#print axioms C58_action
#print axioms C58_action_reader
#print axioms C58_command
#print axioms C58_command_reader
#print axioms C58_command_try
#print axioms C58_transport
#print axioms C58_transport_from_bytes
#print axioms C58_network
#print axioms C58_network_from_bytes
#print axioms C58_foreground
#print axioms C58_foreground_from_bytes

end Dash7
