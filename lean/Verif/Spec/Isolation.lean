/-
Which part of a store belongs to which page.
-/
import Verif.Spec.Document

namespace OneNote.Spec

open Document Objects

/-- The cells of the pages of a section, series by series, from the objects of the first object
space. -/
def PageCells (root : ObjectSpace) (cells : List (List CellId)) : Prop :=
  ∃ id o n, root.roots.get? .defaultContent = some id ∧ At root id o ∧ IsSectionNode o n ∧
    Each (fun series cs => ∃ o n, At root series o ∧ IsPageSeriesNode o n ∧ n.pageSpaces = cs)
      n.pageSeries cells

/-- The `j`-th page of the `i`-th series. -/
def pageAt (s : Section) (i j : Nat) : Option Page := s.pageSeries[i]? >>= fun x => x.pages[j]?

end OneNote.Spec
