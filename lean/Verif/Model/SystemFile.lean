import Verif.Model.Cli

/-!
# `dash7/src/file/mod.rs`, trait `SystemFile`: the ids and sizes published for files
-/

namespace Dash7

/-- `/repo/dash7/src/file/mod.rs:131-134` (`SystemFile`): its two constants. -/
structure SystemFile where
  id : U8
  size : U32
  deriving DecidableEq, Repr

/-- `/repo/dash7/src/file/firmware_version.rs:26-29` (`impl SystemFile for FirmwareVersion`). -/
def FirmwareVersion.systemFile : SystemFile := ⟨0x02, 17⟩

/-- `/repo/dash7/src/file/access_profile.rs:18-21` (`impl SystemFile for AccessProfile<S>`). The constant is evaluated
at compile time: where `0x20 + S` leaves `u8` the program is refused by the compiler. -/
def AccessProfile.systemFile (s : U8) : Option SystemFile :=
  if 0x20 + s.toNat < 2 ^ 8 then some ⟨0x20 + s, 0⟩ else none

/-- `/repo/dash7/src/file/access_profile.rs:12-16` (`specifier`), on a file of kind `AccessProfile<s>`. -/
def AccessProfile.specifier (s : U8) (_ : AccessProfile) : U8 := s

end Dash7
