import Verif.Model.Types
import Verif.Spec.Accept

/-!
# The same action on another file, or with another tag
-/

namespace Dash7.Spec

instance (b : Nat) : Decidable (Form.structured b) := by unfold Form.structured; infer_instance

/-- The same content in file `b`: bytes without a structure may go to any file that has none, an access profile to the
place of any other. Files of which there is one only stay where they are. -/
def inFile (b : U8) : File → Option File
  | .other d => if Form.structured b.toNat then none else some (.other d)
  | .accessProfile _ p =>
    if h : b.toNat - 0x20 < 15 ∧ 0x20 ≤ b.toNat then some (.accessProfile ⟨b.toNat - 0x20, h.1⟩ p) else none
  | _ => none

/-- The same on file `b`. -/
def withFile (b : U8) (o : Op.FileData) : Option Op.FileData :=
  match inFile b o.data with
  | some f => some { o with offset := { o.offset with fileId := b }, data := f }
  | none => none

/-- The same action on file `b` (for a copy: from file `b`), or with `b` as the id of the tag. None for actions which do
not have such an id as their second byte. -/
def redirect (b : U8) : Action → Option Action
  | .readFileData o => some (.readFileData { o with offset := { o.offset with fileId := b } })
  | .readFileProperties o => some (.readFileProperties { o with fileId := b })
  | .writeFileData o => (withFile b o).map .writeFileData
  | .writeFileDataFlush o => (withFile b o).map .writeFileDataFlush
  | .writeFileProperties o => some (.writeFileProperties { o with fileId := b })
  | .existFile o => some (.existFile { o with fileId := b })
  | .createNewFile o => some (.createNewFile { o with fileId := b })
  | .deleteFile o => some (.deleteFile { o with fileId := b })
  | .restoreFile o => some (.restoreFile { o with fileId := b })
  | .flushFile o => some (.flushFile { o with fileId := b })
  | .copyFile o => some (.copyFile { o with srcFileId := b })
  | .executeFile o => some (.executeFile { o with fileId := b })
  | .returnFileData o => (withFile b o).map .returnFileData
  | .returnFileProperties o => some (.returnFileProperties { o with fileId := b })
  | .responseTag o => some (.responseTag { o with id := b })
  | .requestTag o => some (.requestTag { o with id := b })
  | _ => none

/-- The same write or return with other bytes as its data; none for actions without data, and for files with a structure
of their own. -/
def refill (d : List U8) : Action → Option Action
  | .writeFileData ⟨h, c, o, .other _⟩ => some (.writeFileData ⟨h, c, o, .other d⟩)
  | .writeFileDataFlush ⟨h, c, o, .other _⟩ => some (.writeFileDataFlush ⟨h, c, o, .other d⟩)
  | .returnFileData ⟨h, c, o, .other _⟩ => some (.returnFileData ⟨h, c, o, .other d⟩)
  | _ => none

end Dash7.Spec
