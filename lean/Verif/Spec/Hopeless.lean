import Verif.Spec.Items

/-!
# Inputs that are asked to be continued although nothing helps any more
-/

namespace Dash7.Spec

/-- The beginning of a firmware version (15 bytes) which no version begins with: what is there of the names is not
UTF-8. -/
def LostVersion (content : List Bool) : Prop :=
  content.length < 120 ∧ ∀ v more, ¬ Form.firmwareVersion v (content ++ more)

/-- File data of file 2, the firmware version, cut within such a version. -/
def LostFileData (s : List Bool) : Prop :=
  ∃ wire content, s = wire ++ content ∧ LostVersion content ∧
    Form.all [Form.reserved 8, Form.field 8 2, Form.anyLength, Form.anyLength] wire

/-- The TX state of a DASH7 interface, cut two bits into the error code (the fields are not at byte boundaries): the
code is to be 0 or at least `0xEA`, so that these two bits must be equal. -/
def LostTxStatus (s : List Bool) : Prop :=
  ∃ wire b, s = wire ++ [b, !b] ∧
    Form.all [Form.reserved 14, Form.field 8 0xD7, Form.anyLength, Form.reserved 32] wire

/-- Beginnings of file data, interface states and TX states that no more input makes an action. -/
def Hopeless (cfg : Cfg) (data : List U8) : Prop :=
  ∃ first, data[0]? = some first ∧
    ((first.toNat % 64 = 4 ∨ first.toNat % 64 = 5 ∨ first.toNat % 64 = 32) ∧ LostFileData (Form.ofBytes data) ∨
      first.toNat = 0x62 ∧ (data[1]? = some 2 ∨ data[1]? = some 3) ∨
      first.toNat % 64 = 38 ∧ cfg.variant = .wizzilab ∧ LostTxStatus (Form.ofBytes data))

/-- The same for the types read on their own. The control field of the network layer has nine bits outside wizzilab
builds: eight of its sixteen security methods exist. -/
def HopelessItem (cfg : Cfg) (i : Item) (data : List U8) : Prop :=
  i = .firmwareVersion ∧ LostVersion (Form.ofBytes data) ∨
    i = .interfaceStatusOperation ∧ (data[0]? = some 2 ∨ data[0]? = some 3) ∨
    i = .netControl ∧ cfg.variant ≠ .wizzilab ∧ ∃ b, data = [b] ∧ b.toNat % 8 ≥ 4

end Dash7.Spec
