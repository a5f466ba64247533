/-
What a file stores for one page, and what it means that a file was saved again.
-/
import Verif.Spec.Whole
import Verif.Spec.Isolation
import Verif.Spec.Arrange

namespace OneNote.Spec.PageHistory

open StoreContents Document

/-- The cells of the pages of a section file, series by series. -/
def FileCells (data : Bytes) (cells : List (List CellId)) : Prop :=
  ∃ store, FileStore data store ∧ PageCells store.dataRoot cells

/-- What the file stores for the cell `c`: the root declarations and the object groups of its
revisions, newest first, and the file data that these groups refer to. -/
def StoresCell (data : Bytes) (c : CellId) (roots : List (ExGuid × ExGuid)) (groups : List ObjectGroup)
    (files : ExGuid → Option Bytes) : Prop :=
  ∃ p si m r ms, Contains data p ∧ IndexIs p si ∧ si.cellMappings.get? c = some m ∧
    Newest p.package si m r ∧ RevisionChain p.package si r ms ∧ rootsOf ms = roots ∧
    groupsOf p.package ms = groups ∧
    ∀ g ∈ groups, ∀ refs cells id, GroupData.blobReference refs cells id ∈ g.objects →
      p.package.blobs.get? id = files id

/-- A file with the data elements `es` and the storage index `items` is saved again, with the data
elements `es'` and the storage index `items'`, and the cell `c` is left alone. -/
structure SavedAgain (c : CellId) (es es' : List LaxElement) (items items' : List IndexItem) : Prop where
  /-- Nothing is taken away, except that storage indexes and storage manifests may be replaced. -/
  kept : ∀ e ∈ es, ¬ IsStart e.piece → e ∈ es'
  /-- What is added has an identifier that nothing referred to before. -/
  added : ∀ e ∈ es', e ∉ es → ¬ IsStart e.piece → ∀ old ∈ es, ¬ Refers old.piece e.id
  /-- The cell still has its manifest. -/
  cell : (indexOf items').cellMappings.get? c = (indexOf items).cellMappings.get? c
  /-- Revisions that were listed are still listed. -/
  listed : ∀ a m, (indexOf items).revisionMappings.get? a = some m →
    (indexOf items').revisionMappings.get? a = some m
  /-- Revisions that were referred to and not listed are still not listed. -/
  unlisted : ∀ a, (∃ old ∈ es, Refers old.piece a) → (indexOf items).revisionMappings.get? a = none →
    (indexOf items').revisionMappings.get? a = none

end OneNote.Spec.PageHistory
