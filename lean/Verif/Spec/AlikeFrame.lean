import Verif.Spec.Alike
import Verif.Spec.Frames

/-!
# Which frames of the same length mean the same

As `Spec/Alike.lean`, for the headers of frames.
-/

namespace Dash7.Alike

/-- A field that may be missing. -/
def optional {α : Type} (m : α → List Mark) : Option α → List Mark
  | some a => m a
  | none => []

/-- Flags, two ids, then whatever is there of: target level, three time-outs, acknowledgement template. -/
def transHeader (h : Trans.Header) : List Mark :=
  heed 23 ++ optional (fun _ => heed 8) h.targetRxLevelI ++ optional varInt h.listenTimeout ++
    optional varInt h.executionDelayTimeout ++ optional varInt h.congestionTimeout ++
    optional (fun _ => heed 16) h.ackTemplate

/-- A bit of the control is reserved. -/
def netControl (v : Variant) : List Mark := heed 4 ++ skip 1 ++ heed (if v = .wizzilab then 3 else 4)

/-- Five bits of the hopping control are reserved. -/
def hopping : List Mark := skip 1 ++ heed 3 ++ skip 4

/-- Control, hopping control if there, access class, address. -/
def netHeader (v : Variant) (h : Net.Header) : List Mark :=
  netControl v ++ optional (fun _ => hopping) h.hoppingControl ++ heed 8 ++ address h.originAccessAddress

/-- Length, subnet and control, address. -/
def foregroundHeader (h : ForegroundHeader) : List Mark :=
  length h.length.val.toNat ++ heed 16 ++ address h.targetAddress

/-- Headers and actions of a network frame. -/
def network (v : Variant) (f : Net.Frame) : List Mark :=
  netHeader v f.header ++ transHeader f.frame.header ++ command v f.frame.command

/-- Header, network frame, CRC. -/
def foreground (v : Variant) (f : ForegroundFrame) : List Mark :=
  foregroundHeader f.header ++ network v f.frame ++ heed 16

end Dash7.Alike
