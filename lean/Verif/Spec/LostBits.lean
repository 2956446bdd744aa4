import Verif.Spec.Lost

/-!
# Frames that are asked to be continued although nothing helps any more, bit by bit

`Verif.Spec.LostFrame` tells this for frames that stand at byte boundaries throughout.  Transport frames, and the frames
of a wizzilab build, do not.
-/

namespace Dash7.Spec

/-- From `s` on: actions, and then the beginning of one that no more input completes. -/
def LostActions (cfg : Cfg) (limit size : Nat) (s : List Bool) : Prop :=
  ∃ as left, continuing cfg limit size as s left ∧ 8 ≤ left.length ∧
    HopelessOperand cfg (Form.value ((left.drop 2).take 6)) (wholeBytes left)

/-- A transport header, and such actions behind it. -/
def LostTransport (cfg : Cfg) (limit size : Nat) (s : List Bool) : Prop :=
  ∃ t head body, s = head ++ body ∧ Form.transHeader t head ∧ LostActions cfg limit size body

/-- A single byte, the last three bits of which begin no security method in builds other than wizzilab; or a network
header, and such a transport frame behind it. -/
def LostNetworkBits (cfg : Cfg) (limit size : Nat) (s : List Bool) : Prop :=
  cfg.variant ≠ .wizzilab ∧ s.length = 8 ∧ 4 ≤ Form.value (s.drop 5) ∨
    ∃ n head body, s = head ++ body ∧ Form.netHeader cfg.variant n head ∧ LostTransport cfg limit size body

/-- The header of a foreground frame, and such a network frame behind it. -/
def LostForegroundBits (cfg : Cfg) (size : Nat) (s : List Bool) : Prop :=
  ∃ h link rest, s = link ++ rest ∧ Form.foregroundHeader h link ∧
    LostNetworkBits cfg h.length.val.toNat size rest

/-- Whatever headers the input is completed to, they reach up to the length in the first of them: no action is read. -/
def NoRoom (cfg : Cfg) (data : List U8) : Prop :=
  ∀ more f n x link head tail body, Form.ofBytes (data ++ more) = link ++ (head ++ (tail ++ body)) →
    Form.foregroundHeader f link → Form.netHeader cfg.variant n head → Form.transHeader x tail →
    limitReached f.length.val.toNat (bytePosition (data ++ more).length (wholeBytes body))

end Dash7.Spec
