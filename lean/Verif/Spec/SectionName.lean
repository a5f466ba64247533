/-
The name a section is given.
-/
import Verif.Model.Property

namespace OneNote.Spec

/-- `Named store filename name`: the stored display name of the section, or the file name when none
is stored. -/
def Named (store : Store) (filename name : Text) : Prop :=
  ∃ id o, store.dataRoot.roots.get? .metadata = some id ∧ store.dataRoot.getObject id = some o ∧
    ((o.props.get .sectionDisplayName = none ∧ name = filename) ∨
      Simple.parseString .sectionDisplayName o = .ok (some name))

end OneNote.Spec
