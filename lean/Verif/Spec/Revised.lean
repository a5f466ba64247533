/-
A section some of whose pages were edited.
-/
import Verif.Spec.PageHistory

namespace OneNote.Spec

open StoreContents Document

/-- The page that a file stores for a cell. -/
def FilePage (data : Bytes) (c : CellId) (p : Page) : Prop :=
  ∃ store space, FileStore data store ∧ store.objectSpace c = some space ∧ PageIs space p

/-- The series with the pages of some cells replaced. -/
def reviseSeries (new : CellId → Option Page) (series : PageSeries) (cells : List CellId) : PageSeries :=
  ⟨List.zipWith (fun p c => (new c).getD p) series.pages cells⟩

/-- The section `s`, whose pages are those of `cells`, with the pages of some cells replaced. -/
def revisePages (new : CellId → Option Page) (cells : List (List CellId)) (s : Section) : Section :=
  { s with pageSeries := List.zipWith (reviseSeries new) s.pageSeries cells }

/-- The section file `data'` is `data` saved again, with the same storage manifest. The cell of the
first object space, with the list of the pages, is left alone, and so are the cells in `left`. -/
def Resaved (data data' : Bytes) (left : CellId → Prop) : Prop :=
  ∃ i i' es es' items items' id id' schema roots root,
    HoldsElements data i es ∧ HoldsElements data' i' es' ∧ Distinct es ∧ Distinct es' ∧
    ⟨i, .body (.storageIndex items)⟩ ∈ es ∧ ⟨i', .body (.storageIndex items')⟩ ∈ es' ∧
    ⟨id, .body (.storageManifest schema roots)⟩ ∈ es ∧
    ⟨id', .body (.storageManifest schema roots)⟩ ∈ es' ∧
    lastWith roots defaultRootId = some root ∧
    ∀ c, c = root ∨ left c → PageHistory.SavedAgain c es es' items items'

end OneNote.Spec
