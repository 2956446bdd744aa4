import Verif.Lemmas.Mirror
import Verif.Model.Stream
import Verif.Props.Roundtrip
import Verif.Props.Foreground

/-!
# C76: what a host of the other byte order writes and reads
-/

namespace Dash7

open Spec

/-- Results with the value mirrored; errors stay. -/
def Spec.mirrored {α β : Type} (f : α → α) (r : Except Err (β × α)) : Except Err (β × α) :=
  r.map fun x => (x.1, f x.2)

/-! ## Entry points -/

theorem R.Mirrors.fromBytes {α : Type} {f : α → α} {m m' : R α} (h : R.Mirrors f m m') (input : Rest) :
    Dash7.fromBytes m' input = mirrored f (Dash7.fromBytes m input) := by
  unfold Dash7.fromBytes
  rw [h.startAt input.2]
  cases Dash7.startAt input.2 m (Rd.new input.1) with
  | error e => rfl
  | ok x =>
    simp only [Except.map]
    cases padRest input x.2.bitsRead <;> rfl

theorem R.Mirrors.derivedFromBytes {α : Type} {f : α → α} {m m' : R α} (h : R.Mirrors f m m') (input : Rest) :
    Dash7.derivedFromBytes m' input = mirrored f (Dash7.derivedFromBytes m input) := by
  unfold Dash7.derivedFromBytes
  rw [h.startAt input.2]
  cases Dash7.startAt input.2 m (Rd.new input.1) with
  | error e => rfl
  | ok x =>
    simp only [Except.map]
    cases sliceFrom input.1 (x.2.bitsRead / 8) <;> rfl

theorem R.Mirrors.fromReader {α : Type} {f : α → α} {m m' : R α} (h : R.Mirrors f m m') (data : List U8) (off : Nat) :
    Dash7.fromReader m' data off = mirrored f (Dash7.fromReader m data off) := by
  unfold Dash7.fromReader
  rw [h.startAt off]
  cases Dash7.startAt off m (Rd.new data) <;> rfl

theorem R.Mirrors.readSource {α : Type} {f : α → α} {m m' : R α} (h : R.Mirrors f m m') (s : Source) (off : Nat) :
    Dash7.readSource m' s off = (Dash7.readSource m s off).map fun x => (x.1, f x.2.1, x.2.2) := by
  unfold Dash7.readSource
  rw [h.startAt off]
  cases Dash7.startAt off m ⟨s.data, s.pos, [], 0⟩ <;> rfl

theorem R.Mirrors.derivedTryFrom {α : Type} {f : α → α} {m m' : R α} (h : R.Mirrors f m m') (data : List U8) :
    Dash7.derivedTryFrom m' data = (Dash7.derivedTryFrom m data).map f := by
  unfold Dash7.derivedTryFrom
  rw [h (Rd.new data)]
  cases m (Rd.new data) with
  | error e => rfl
  | ok x =>
    simp only [Except.map]
    split <;> rfl

/-! ## The numbers -/

/-- **C76** To mirror a number is to reverse its bytes, and nothing else. -/
theorem C76_bytes (k : Nat) (v w : BitVec (8 * k)) :
    mirror k v = w ↔ bigEndian k w.toNat = (bigEndian k v.toNat).reverse :=
  ⟨fun h => h ▸ mirror_bytes k v, fun h => bigEndian_inj (by rw [mirror_bytes, h])⟩

/-! ## Encoding -/

/-- **C76** What one host writes for a value is what the other writes for the mirrored one: the same bytes, or the
same error. -/
theorem C76_encode (cfg : Cfg) (b : Bool) :
    (∀ a : Action, a.toBytes { cfg with bigEndianHost := b } =
      (mirrorAction a).toBytes { cfg with bigEndianHost := !b }) ∧
    (∀ c : Command, c.toBytes { cfg with bigEndianHost := b } =
      (mirrorCommand c).toBytes { cfg with bigEndianHost := !b }) ∧
    (∀ f : Trans.Frame, f.toBytes { cfg with bigEndianHost := b } =
      (mirrorTransport f).toBytes { cfg with bigEndianHost := !b }) ∧
    (∀ f : Net.Frame, f.toBytes { cfg with bigEndianHost := b } =
      (mirrorNetwork f).toBytes { cfg with bigEndianHost := !b }) ∧
    (∀ f : ForegroundFrame, f.toBytes { cfg with bigEndianHost := b } =
      (mirrorForeground f).toBytes { cfg with bigEndianHost := !b }) ∧
    ∀ f : BackgroundFrame, f.toBytes { cfg with bigEndianHost := b } =
      (mirrorBackground f).toBytes { cfg with bigEndianHost := !b } :=
  ⟨fun a => congrArg W.toBytes (Action.write_mirror cfg b a),
    fun c => congrArg W.toBytes (Command.write_mirror cfg b c),
    fun f => congrArg W.toBytes (Trans.Frame.write_mirror cfg b f),
    fun f => congrArg W.toBytes (Net.Frame.write_mirror cfg b f),
    fun f => congrArg W.toBytes (ForegroundFrame.write_mirror cfg b f),
    fun f => congrArg W.toBytes (BackgroundFrame.write_mirror cfg b f)⟩

/-- **C76** Two hosts write the same for a command exactly if it is its own mirror image. -/
theorem C76_same_command (cfg : Cfg) (b : Bool) (c : Command)
    (hok : (c.toBytes { cfg with bigEndianHost := b }).isOk = true) :
    c.toBytes { cfg with bigEndianHost := b } = c.toBytes { cfg with bigEndianHost := !b } ↔ mirrorCommand c = c := by
  constructor
  · intro h
    have e := (C76_encode cfg b).2.1 c
    exact (Command.write_like _ c).toBytes ((congrArg Except.isOk h).symm.trans hok) (h.symm.trans e)
  · intro h
    rw [(C76_encode cfg b).2.1 c, h]

/-- **C76** Likewise actions. -/
theorem C76_same_action (cfg : Cfg) (b : Bool) (a : Action)
    (hok : (a.toBytes { cfg with bigEndianHost := b }).isOk = true) :
    a.toBytes { cfg with bigEndianHost := b } = a.toBytes { cfg with bigEndianHost := !b } ↔ mirrorAction a = a := by
  constructor
  · intro h
    have e := (C76_encode cfg b).1 a
    exact (Action.write_like _ a).toBytes ((congrArg Except.isOk h).symm.trans hok) (h.symm.trans e)
  · intro h
    rw [(C76_encode cfg b).1 a, h]

/-- **C76** Likewise foreground frames. -/
theorem C76_same_foreground (cfg : Cfg) (b : Bool) (f : ForegroundFrame)
    (hok : (f.toBytes { cfg with bigEndianHost := b }).isOk = true) :
    f.toBytes { cfg with bigEndianHost := b } = f.toBytes { cfg with bigEndianHost := !b } ↔
      mirrorForeground f = f := by
  constructor
  · intro h
    have e := (C76_encode cfg b).2.2.2.2.1 f
    exact (ForegroundFrame.write_like _ f).toBytes ((congrArg Except.isOk h).symm.trans hok) (h.symm.trans e)
  · intro h
    rw [(C76_encode cfg b).2.2.2.2.1 f, h]

/-! ## Decoding -/

/-- **C76** `from_bytes`: both hosts read as far, fail alike, and find mirrored values. -/
theorem C76_from_bytes (cfg : Cfg) (b : Bool) (input : Rest) :
    Action.fromBytes { cfg with bigEndianHost := !b } input =
      mirrored mirrorAction (Action.fromBytes { cfg with bigEndianHost := b } input) ∧
    Command.fromBytes { cfg with bigEndianHost := !b } input =
      mirrored mirrorCommand (Command.fromBytes { cfg with bigEndianHost := b } input) ∧
    Trans.Frame.fromBytes { cfg with bigEndianHost := !b } input =
      mirrored mirrorTransport (Trans.Frame.fromBytes { cfg with bigEndianHost := b } input) ∧
    Net.Frame.fromBytes { cfg with bigEndianHost := !b } input =
      mirrored mirrorNetwork (Net.Frame.fromBytes { cfg with bigEndianHost := b } input) ∧
    ForegroundFrame.fromBytes { cfg with bigEndianHost := !b } input =
      mirrored mirrorForeground (ForegroundFrame.fromBytes { cfg with bigEndianHost := b } input) ∧
    BackgroundFrame.fromBytes { cfg with bigEndianHost := !b } input =
      mirrored mirrorBackground (BackgroundFrame.fromBytes { cfg with bigEndianHost := b } input) :=
  ⟨(Action.read_mirrors cfg b).fromBytes input, (Command.read_mirrors cfg b 0).fromBytes input,
    (Trans.Frame.read_mirrors cfg b 0).derivedFromBytes input,
    (Net.Frame.read_mirrors cfg b 0).derivedFromBytes input,
    (ForegroundFrame.read_mirrors cfg b).derivedFromBytes input,
    (BackgroundFrame.read_mirrors cfg b).run.derivedFromBytes input⟩

/-- **C76** `from_reader`: also the source is left in the same place. -/
theorem C76_from_reader (cfg : Cfg) (b : Bool) (s : Source) (off : Nat) :
    Action.fromSource { cfg with bigEndianHost := !b } s off =
      (Action.fromSource { cfg with bigEndianHost := b } s off).map (fun x => (x.1, mirrorAction x.2.1, x.2.2)) ∧
    Command.fromSource { cfg with bigEndianHost := !b } s off =
      (Command.fromSource { cfg with bigEndianHost := b } s off).map (fun x => (x.1, mirrorCommand x.2.1, x.2.2)) ∧
    Trans.Frame.fromSource { cfg with bigEndianHost := !b } s off =
      (Trans.Frame.fromSource { cfg with bigEndianHost := b } s off).map
        (fun x => (x.1, mirrorTransport x.2.1, x.2.2)) ∧
    Net.Frame.fromSource { cfg with bigEndianHost := !b } s off =
      (Net.Frame.fromSource { cfg with bigEndianHost := b } s off).map (fun x => (x.1, mirrorNetwork x.2.1, x.2.2)) ∧
    ForegroundFrame.fromSource { cfg with bigEndianHost := !b } s off =
      (ForegroundFrame.fromSource { cfg with bigEndianHost := b } s off).map
        (fun x => (x.1, mirrorForeground x.2.1, x.2.2)) :=
  ⟨(Action.read_mirrors cfg b).readSource s off, (Command.read_mirrors cfg b 0).readSource s off,
    (Trans.Frame.read_mirrors cfg b 0).readSource s off, (Net.Frame.read_mirrors cfg b 0).readSource s off,
    (ForegroundFrame.read_mirrors cfg b).readSource s off⟩

/-- **C76** `TryFrom`: the same inputs are accepted, with the mirrored value, and the others fail alike. -/
theorem C76_try_from (cfg : Cfg) (b : Bool) (data : List U8) :
    Action.tryFrom { cfg with bigEndianHost := !b } data =
      (Action.tryFrom { cfg with bigEndianHost := b } data).map mirrorAction ∧
    Command.tryFrom { cfg with bigEndianHost := !b } data =
      (Command.tryFrom { cfg with bigEndianHost := b } data).map mirrorCommand ∧
    Trans.Frame.tryFrom { cfg with bigEndianHost := !b } data =
      (Trans.Frame.tryFrom { cfg with bigEndianHost := b } data).map mirrorTransport ∧
    Net.Frame.tryFrom { cfg with bigEndianHost := !b } data =
      (Net.Frame.tryFrom { cfg with bigEndianHost := b } data).map mirrorNetwork ∧
    ForegroundFrame.tryFrom { cfg with bigEndianHost := !b } data =
      (ForegroundFrame.tryFrom { cfg with bigEndianHost := b } data).map mirrorForeground ∧
    BackgroundFrame.tryFrom { cfg with bigEndianHost := !b } data =
      (BackgroundFrame.tryFrom { cfg with bigEndianHost := b } data).map mirrorBackground := by
  refine ⟨?_, ?_, (Trans.Frame.read_mirrors cfg b 0).derivedTryFrom data,
    (Net.Frame.read_mirrors cfg b 0).derivedTryFrom data, (ForegroundFrame.read_mirrors cfg b).derivedTryFrom data,
    (BackgroundFrame.read_mirrors cfg b).run.derivedTryFrom data⟩
  · unfold Action.tryFrom
    rw [(C76_from_bytes cfg b (data, 0)).1]
    cases Action.fromBytes { cfg with bigEndianHost := b } (data, 0) with
    | error e => rfl
    | ok x =>
      simp only [mirrored, Except.map]
      split <;> rfl
  · unfold Command.tryFrom
    rw [(C76_from_bytes cfg b (data, 0)).2.1]
    cases Command.fromBytes { cfg with bigEndianHost := b } (data, 0) with
    | error e => rfl
    | ok x =>
      simp only [mirrored, Except.map]
      split <;> rfl

/-! ## The other types -/

/-- **C76** All 83 derived types on their own: only seven are not the same on all hosts. -/
theorem C76_items (cfg : Cfg) (b : Bool) (i : Item) :
    (∀ v : i.Val, i.toBytes { cfg with bigEndianHost := b } v =
      i.toBytes { cfg with bigEndianHost := !b } (mirrorItem i v)) ∧
    (∀ input, i.fromBytes { cfg with bigEndianHost := !b } input =
      mirrored (mirrorItem i) (i.fromBytes { cfg with bigEndianHost := b } input)) ∧
    (∀ data, i.tryFrom { cfg with bigEndianHost := !b } data =
      (i.tryFrom { cfg with bigEndianHost := b } data).map (mirrorItem i)) ∧
    ∀ s off, i.fromSource { cfg with bigEndianHost := !b } s off =
      (i.fromSource { cfg with bigEndianHost := b } s off).map (fun x => (x.1, mirrorItem i x.2.1, x.2.2)) :=
  ⟨fun v => congrArg W.toBytes (Item.write_mirror cfg b i v),
    fun input => (Item.read_mirrors cfg b i).run.derivedFromBytes input,
    fun data => (Item.read_mirrors cfg b i).run.derivedTryFrom data,
    fun s off => (Item.read_mirrors cfg b i).run.readSource s off⟩

/-! ## From one host to the other -/

/-- **C76** A command sent from one host to another arrives mirrored. -/
theorem C76_crossing (cfg : Cfg) (b : Bool) (c : Command) (h : c.WF { cfg with bigEndianHost := b }) :
    ∃ bytes, c.toBytes { cfg with bigEndianHost := b } = .ok bytes ∧
      Command.tryFrom { cfg with bigEndianHost := !b } bytes = .ok (mirrorCommand c) := by
  obtain ⟨bytes, h1, h2⟩ := C01_command_roundtrip _ c h
  exact ⟨bytes, h1, by rw [(C76_try_from cfg b bytes).2.1, h2]; rfl⟩

/-- **C76** And comes back as it was. -/
theorem C76_twice (c : Command) : mirrorCommand (mirrorCommand c) = c := mirrorCommand_twice c

/-! ## Cases -/

open Sample

/-- A command with a security key. -/
def Sample.keyed : Command := ⟨[tag, .writeFileData ⟨⟨true, false⟩, ⟨4⟩, ⟨0x0E, ⟨0⟩⟩,
  .nwlSecurityKey ⟨0x000102030405060708090A0B0C0D0E0F⟩⟩]⟩

/-- It is read with the bytes of its key the other way round, and nothing else changed. -/
example : (Sample.keyed.toBytes spec).isOk = true ∧ mirrorCommand Sample.keyed ≠ Sample.keyed ∧
    mirrorCommand Sample.keyed = ⟨[tag, .writeFileData ⟨⟨true, false⟩, ⟨4⟩, ⟨0x0E, ⟨0⟩⟩,
      .nwlSecurityKey ⟨0x0F0E0D0C0B0A09080706050403020100⟩⟩]⟩ := by decide +kernel
/-- Written by a big-endian host, read by a little-endian one. -/
example : Sample.keyed.WF { spec with bigEndianHost := true } ∧
    Sample.keyed.toBytes { spec with bigEndianHost := true } =
      .ok [0xB4, 7, 0x84, 0x0E, 0, 16, 0, 1, 2, 3, 4, 5, 6, 7, 8, 9, 10, 11, 12, 13, 14, 15] ∧
    Command.tryFrom { spec with bigEndianHost := false }
      [0xB4, 7, 0x84, 0x0E, 0, 16, 0, 1, 2, 3, 4, 5, 6, 7, 8, 9, 10, 11, 12, 13, 14, 15] =
      .ok (mirrorCommand Sample.keyed) := by decide +kernel
/-- A frame on which hosts disagree in the CRC only, and one on which they agree. -/
example : ((foreground 25 ⟨[tag]⟩).toBytes spec).isOk = true ∧
    mirrorForeground (foreground 25 ⟨[tag]⟩) ≠ foreground 25 ⟨[tag]⟩ ∧
    mirrorForeground { foreground 25 ⟨[tag]⟩ with crc16 := 0x4747 } = { foreground 25 ⟨[tag]⟩ with crc16 := 0x4747 } := by decide +kernel
/-- Both hosts read as far, and lose the same. -/
example : Command.fromBytes { spec with bigEndianHost := true } ([0x34, 7, 0x34], 0) =
      mirrored mirrorCommand (Command.fromBytes { spec with bigEndianHost := false } ([0x34, 7, 0x34], 0)) ∧
    (BackgroundFrame.fromBytes { spec with bigEndianHost := true } ([1, 0x42, 3, 4, 5, 6, 7], 0)).isOk = true ∧
    mirrorBackground ⟨1, ⟨.noId, 2⟩, 0x0304, 0x0506⟩ = ⟨1, ⟨.noId, 2⟩, 0x0403, 0x0605⟩ := by decide +kernel

/-- A type with such a number, and one without. -/
example : (mirrorItem .securityKey ⟨0x01020304⟩).key = 0x04030201000000000000000000000000 ∧
    mirrorItem .channel = id ∧
    Item.toBytes { spec with bigEndianHost := true } .securityKey ⟨0x01020304⟩ =
      .ok (List.replicate 12 0 ++ [1, 2, 3, 4]) := ⟨by decide +kernel, rfl, by decide +kernel⟩

#print axioms C76_bytes
#print axioms C76_encode
#print axioms C76_same_command
#print axioms C76_same_action
#print axioms C76_same_foreground
#print axioms C76_from_bytes
#print axioms C76_from_reader
#print axioms C76_try_from
#print axioms C76_items
#print axioms C76_crossing
#print axioms C76_twice

end Dash7
