/-
Pages that are marked as deleted.
-/
import Verif.Spec.Isolation
import Verif.Spec.Words

namespace OneNote.Spec

open Document Objects

/-- The metadata of the page in this object space has the property IsDeletedGraphSpaceContent with the
value `mark`. -/
def Marked (mark : Bool) (space : ObjectSpace) : Prop :=
  ∃ info m, space.roots.get? .metadata = some info ∧ At space info m ∧
    m.props.properties.get Word.isDeletedGraphSpaceContent = some (.bool mark)

/-- The cell at a place in the list of the pages. -/
def cellAt (cells : List (List CellId)) (i j : Nat) : Option CellId := cells[i]? >>= fun cs => cs[j]?

/-- Two object spaces of pages that differ in the metadata of the page only. The metadata is complete in
both, and the level of the page is the same. -/
structure SameButMetadata (space space' : ObjectSpace) : Prop where
  roots : ∀ r, space'.roots.get? r = space.roots.get? r
  others : ∀ id, space.roots.get? .metadata ≠ some id → space'.getObject id = space.getObject id
  metadata : ∃ info m m' n n', space.roots.get? .metadata = some info ∧ At space info m ∧
    At space' info m' ∧ IsPageMetadata m n ∧ IsPageMetadata m' n' ∧ n'.pageLevel = n.pageLevel

/-- The object is the same in both spaces, or it is metadata of a page in both. -/
def SameButMetadataAt (space space' : ObjectSpace) (id : ExGuid) : Prop :=
  space'.getObject id = space.getObject id ∨ ∃ m m', At space id m ∧ At space' id m' ∧
    m.jcId = 0x00020030 ∧ m'.jcId = 0x00020030

/-- Two stores that differ in the metadata of pages only: in that of the object spaces of the pages, and
in what the first object space stores about pages. -/
structure SameButMarks (store store' : Store) : Prop where
  schema : store'.schema = store.schema
  roots : ∀ r, store'.dataRoot.roots.get? r = store.dataRoot.roots.get? r
  objects : ∀ id, SameButMetadataAt store.dataRoot store'.dataRoot id
  there : ∀ c space, store.objectSpace c = some space →
    ∃ space', store'.objectSpace c = some space' ∧ (space' = space ∨ SameButMetadata space space')
  none : ∀ c, store.objectSpace c = none → store'.objectSpace c = none

end OneNote.Spec
