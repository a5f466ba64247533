/-
A section as its heading and a list of pages.
-/
import Verif.Spec.Revised

namespace OneNote.Spec

open StoreContents Document

/-- The section file has this name (that of the file, if none is stored) and color. -/
def FileHeading (data : Bytes) (filename displayName : Text) (color : Option Color) : Prop :=
  ∃ store info m metadata, FileStore data store ∧ store.schema = sectionFileSchema ∧
    store.dataRoot.roots.get? .metadata = some info ∧ At store.dataRoot info m ∧
    Objects.IsSectionMetadata m metadata ∧
    Stripped (metadata.displayName.getD filename) displayName ∧ color = metadata.color

/-- The pages of the series are those that the file stores for the cells, in order. -/
def PagesOf (data : Bytes) (cells : List (List CellId)) (series : List PageSeries) : Prop :=
  Each (fun cs x => Each (FilePage data) cs x.pages) cells series

/-- The section file `data'` is `data` saved again, with the same storage manifest, and the cells in `left`
are left alone. The list of the pages may have changed. -/
def SavedPages (data data' : Bytes) (left : CellId → Prop) : Prop :=
  ∃ i i' es es' items items' id id' schema roots,
    HoldsElements data i es ∧ HoldsElements data' i' es' ∧ Distinct es ∧ Distinct es' ∧
    ⟨i, .body (.storageIndex items)⟩ ∈ es ∧ ⟨i', .body (.storageIndex items')⟩ ∈ es' ∧
    ⟨id, .body (.storageManifest schema roots)⟩ ∈ es ∧
    ⟨id', .body (.storageManifest schema roots)⟩ ∈ es' ∧
    ∀ c, left c → PageHistory.SavedAgain c es es' items items'

end OneNote.Spec
