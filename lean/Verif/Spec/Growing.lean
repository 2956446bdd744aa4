import Verif.Model.Frame

/-!
# Values continued

What may be found in more of the same input.
-/

namespace Dash7.Spec

/-- The second command begins with the actions of the first one. -/
def continuesCommand (a b : Command) : Prop := a.actions <+: b.actions

/-- The same header, then the command continued. -/
def continuesTransport (a b : Trans.Frame) : Prop := a.header = b.header ∧ continuesCommand a.command b.command

/-- The same header, then the transport frame continued. -/
def continuesNetwork (a b : Net.Frame) : Prop := a.header = b.header ∧ continuesTransport a.frame b.frame

end Dash7.Spec
