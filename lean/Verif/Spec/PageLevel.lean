/-
The levels of pages, which tell pages from their subpages.
-/
import Verif.Spec.Isolation
import Verif.Spec.Words

namespace OneNote.Spec

open Document

/-- The metadata of the page in this object space stores the level `v`. -/
def StoredLevel (space : ObjectSpace) (v : Nat) : Prop :=
  ∃ info m, space.roots.get? .metadata = some info ∧ At space info m ∧
    m.props.properties.get Word.pageLevel = some (.u32 v)

/-- The metadata of the page in this object space stores no level. -/
def NoStoredLevel (space : ObjectSpace) : Prop :=
  ∃ info m, space.roots.get? .metadata = some info ∧ At space info m ∧
    m.props.properties.get Word.pageLevel = none

end OneNote.Spec
