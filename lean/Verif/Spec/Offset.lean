import Verif.Spec.FrameAccept

/-!
# Reading commands at any bit position

`Verif.Spec.Accept` tells what stands for an action that begins at a byte boundary.  This file tells, with
the same grammar for the operands, what is taken for the actions of a command at any position: behind a TX
status, behind the seven bits of a transport control, at a bit offset given by the caller.  `s` is always
the string of bits still to be read; its first `s.length % 8` bits are what is left of a byte begun.
-/

namespace Dash7.Spec

/-- The whole bytes still to be read. -/
def wholeBytes (s : List Bool) : List Bool := s.drop (s.length % 8)

/-- What is read for an operand once the code of the action was looked at: the reader steps back to the
byte boundary. Unless this clears them, the bits of the byte looked into that were not needed for the code
stay in front, and come twice. -/
def steppedBack (cfg : Cfg) (s : List Bool) : List Bool :=
  if cfg.seekClears then wholeBytes s
  else ((wholeBytes s).take 8).drop (8 - s.length % 8) ++ wholeBytes s

/-- Asking for the position, which is done if there is a length limit, may clear the bits of a byte begun. -/
def asked (cfg : Cfg) (limit : Nat) (s : List Bool) : List Bool :=
  if limit ≠ 0 ∧ cfg.seekClears = true then wholeBytes s else s

/-- In `size` bytes, the byte up to which the source was used. -/
def bytePosition (size : Nat) (s : List Bool) : Nat := size - s.length / 8

/-- What testing for the end counts as read. -/
def endTest (cfg : Cfg) (s : List Bool) : Nat :=
  if cfg.endCounts = true ∧ s ≠ [] ∧ s.length % 8 = 0 then 8 else 0

/-- Reading from `s` on gives these actions, stops in front of `left`, and counts `n` bits as read.
`stop` is whether the action before was an indirect forward. -/
def reading (cfg : Cfg) (limit size : Nat) :
    (stop : Bool) → List Action → (s left : List Bool) → (n : Nat) → Prop
  | stop, [], s, left, n =>
    left = asked cfg limit s ∧
      (limitReached limit (bytePosition size left) ∧ n = 0 ∨
        ¬ limitReached limit (bytePosition size left) ∧ (left = [] ∨ stop = true) ∧ n = endTest cfg left)
  | stop, a :: as, s, left, n =>
    let s := asked cfg limit s
    ¬ limitReached limit (bytePosition size s) ∧ stop = false ∧
      8 ≤ s.length ∧ Form.value ((s.drop 2).take 6) = opcodeOf a ∧
      ∃ wire more m, steppedBack cfg s = wire ++ more ∧ Form.operand cfg a wire ∧
        reading cfg limit size a.isIndirectForward as more left m ∧
        n = endTest cfg s + 8 + wire.length + m

/-- One action is read from `s`, in front of `left`, counting `n` bits. -/
def actionReading (cfg : Cfg) (a : Action) (s left : List Bool) (n : Nat) : Prop :=
  8 ≤ s.length ∧ Form.value ((s.drop 2).take 6) = opcodeOf a ∧
    ∃ wire, steppedBack cfg s = wire ++ left ∧ Form.operand cfg a wire ∧ n = 8 + wire.length

/-- A transport frame: the header, then the command. -/
def transReading (cfg : Cfg) (limit size : Nat) (f : Trans.Frame) (s left : List Bool) (n : Nat) : Prop :=
  ∃ head body m, s = head ++ body ∧ Form.transHeader f.header head ∧
    reading cfg limit size false f.command.actions body left m ∧ n = head.length + m

/-- A network frame: the header, then the transport frame. -/
def netReading (cfg : Cfg) (limit size : Nat) (f : Net.Frame) (s left : List Bool) (n : Nat) : Prop :=
  ∃ head body m, s = head ++ body ∧ Form.netHeader cfg.variant f.header head ∧
    transReading cfg limit size f.frame body left m ∧ n = head.length + m

/-- A foreground frame: the header, the network frame up to the length in the header, then the CRC. -/
def foregroundReading (cfg : Cfg) (size : Nat) (f : ForegroundFrame) (s left : List Bool) (n : Nat) : Prop :=
  ∃ head body crc m, s = head ++ body ∧ Form.foregroundHeader f.header head ∧
    netReading cfg f.header.length.val.toNat size f.frame body (crc ++ left) m ∧
    Form.hostNumber cfg.bigEndianHost 2 f.crc16.toNat crc ∧ n = head.length + m + crc.length

/-- The bytes and bit offset given back when `n` bits, `off` of them skipped, are counted as read. Nothing is
given back if they are more than the input and as many bits as were skipped. -/
def handedBack (data : List U8) (off n : Nat) : Rest :=
  if 8 * data.length + off ≤ n then ([], n % 8) else (data.drop (n / 8), n % 8)

/-- Cutting off the bytes read would go beyond the input. -/
def cutsTooFar (data : List U8) (off n : Nat) : Prop := n < 8 * data.length + off ∧ data.length < n / 8

end Dash7.Spec
