/-
C77: Editing one page leaves the other pages as they were.
-/
import Verif.Lemmas.PageHistory
import Verif.Lemmas.SampleEdit

namespace OneNote

open Spec Spec.StoreContents Spec.Document Spec.PageHistory PageHistory

/-- **A page shows only its own history.** Let two section files store the same for a cell: the same
root declarations and object groups in its revisions, newest first, and the same file data for them.
Whatever else differs between the files (other pages and their order, the name of the section, other
data elements, the order of the data elements, identifiers of revisions), the page of that cell is
shown the same, wherever in the sections it is. -/
theorem C77_same_page (data data' : Bytes) (c : CellId) (roots : List (ExGuid × ExGuid))
    (groups : List ObjectGroup) (files : ExGuid → Option Bytes)
    (hs : StoresCell data c roots groups files) (hs' : StoresCell data' c roots groups files)
    (hu : PlainFile data) (hu' : PlainFile data') (fuel fuel' : Nat) (ord ord' : Order)
    (name name' : Text) (s s' : Section) (h : parseSectionBuffer fuel ord data name = .ok s)
    (h' : parseSectionBuffer fuel' ord' data' name' = .ok s') (cells cells' : List (List CellId))
    (hc : FileCells data cells) (hc' : FileCells data' cells') (i j i' j' : Nat)
    (hj : (cells[i]? >>= fun cs => cs[j]?) = some c)
    (hj' : (cells'[i']? >>= fun cs => cs[j']?) = some c) :
    ∃ p, pageAt s i j = some p ∧ pageAt s' i' j' = some p := by
  obtain ⟨p, hp⟩ := page_there hu h hc hj
  obtain ⟨q, hq⟩ := page_there hu' h' hc' hj'
  obtain ⟨store, a1, a2⟩ := page_at hu h hc
  obtain ⟨store', b1, b2⟩ := page_at hu' h' hc'
  obtain ⟨c1, space, a3, a4, a5⟩ := (a2 i j p).1 hp
  obtain ⟨c2, space', b3, b4, b5⟩ := (b2 i' j' q).1 hq
  rw [hj] at a3
  cases a3
  rw [hj'] at b3
  cases b3
  have e := spaces_same hu hu' a1 b1 a4 b4 hs hs'
  obtain ⟨m1, a5⟩ := (C43_page _ _).2 a5
  obtain ⟨m2, b5⟩ := (C43_page _ _).2 b5
  have a5 := refines_ok (refines_page (Nat.le_max_left m1 m2) space) a5
  have b5 := refines_ok (refines_page (Nat.le_max_right m1 m2) space') b5
  rw [page_same e, b5] at a5
  cases a5
  exact ⟨_, hp, hq⟩

/-- **Saving again changes only what is saved.** A section file gets further data elements, with
identifiers of their own, and a new storage index; every other data element is kept. Then every page
whose cell has the same manifest in both indexes is shown as before, even if other pages were edited,
added, moved or taken out. -/
theorem C77_saved (data data' : Bytes) (i i' : ExGuid) (es es' : List LaxElement)
    (items items' : List IndexItem) (c : CellId) (h : HoldsElements data i es)
    (h' : HoldsElements data' i' es') (hd : Distinct es) (hd' : Distinct es')
    (hi : ⟨i, .body (.storageIndex items)⟩ ∈ es) (hi' : ⟨i', .body (.storageIndex items')⟩ ∈ es')
    (hs : SavedAgain c es es' items items') (hu : PlainFile data) (hu' : PlainFile data')
    (fuel fuel' : Nat) (ord ord' : Order) (name name' : Text) (s s' : Section)
    (hp : parseSectionBuffer fuel ord data name = .ok s)
    (hp' : parseSectionBuffer fuel' ord' data' name' = .ok s') (cells cells' : List (List CellId))
    (hc : FileCells data cells) (hc' : FileCells data' cells') (k j k' j' : Nat)
    (hj : (cells[k]? >>= fun cs => cs[j]?) = some c)
    (hj' : (cells'[k']? >>= fun cs => cs[j']?) = some c) :
    ∃ p, pageAt s k j = some p ∧ pageAt s' k' j' = some p := by
  obtain ⟨p, hx⟩ := page_there hu hp hc hj
  obtain ⟨store, a1, a2⟩ := page_at hu hp hc
  obtain ⟨c1, space, a3, a4, a5⟩ := (a2 k j p).1 hx
  rw [hj] at a3
  cases a3
  obtain ⟨roots, groups, files, h1, h2⟩ :=
    saved_stores h h' hd hd' hi hi' hs (stores_page a1 a4 a5)
  exact C77_same_page data data' c roots groups files h1 h2 hu hu' fuel fuel' ord ord' name name' s s'
    hp hp' cells cells' hc hc' k j k' j' hj hj'

/-- The cells of the pages are determined by the file, and each has a page. -/
theorem C77_cells (data : Bytes) (hu : PlainFile data) (fuel : Nat) (ord : Order) (name : Text)
    (s : Section) (h : parseSectionBuffer fuel ord data name = .ok s) :
    ∃ cells, FileCells data cells ∧ (∀ cells', FileCells data cells' → cells' = cells) ∧
      cells.map List.length = s.pageSeries.map fun x => x.pages.length := by
  unfold parseSectionBuffer at h
  obtain ⟨store, hs, h⟩ := Res.bind_ok_iff.1 h
  split at h
  · cases h
  · obtain ⟨cells, h1, h2⟩ := C56_page_cells fuel store name s h
    refine ⟨cells, ⟨store, readStore_sound hs, h1⟩, fun cells' hc => ?_, h2⟩
    obtain ⟨store0, h0, hc⟩ := hc
    obtain ⟨store', hs', e⟩ := readStore_complete hu h0 ord
    rw [hs] at hs'
    cases hs'
    exact pageCells_unique (pageCells_same e.dataRoot hc) h1

/-! ### A file before and after an edit of its second page -/

open SampleEdit

/-- The files before and after the edit: the second page has another outline, the first is left
alone. -/
example : ∃ (data data' : Bytes) (es es' : List LaxElement) (s s' : Section) (cells : List (List CellId)),
    HoldsElements data (sx 3) es ∧ HoldsElements data' (sx 8) es' ∧ Distinct es ∧ Distinct es' ∧
    (⟨sx 3, .body (.storageIndex (indexItems 106))⟩ : LaxElement) ∈ es ∧
    (⟨sx 8, .body (.storageIndex (indexItems 107))⟩ : LaxElement) ∈ es' ∧
    SavedAgain (cell 5) es es' (indexItems 106) (indexItems 107) ∧ PlainFile data ∧ PlainFile data' ∧
    parseSectionBuffer 2 Order.id data [] = .ok s ∧ parseSectionBuffer 2 Order.id data' [] = .ok s' ∧
    FileCells data cells ∧ FileCells data' cells ∧
    (cells[0]? >>= fun cs => cs[0]?) = some (cell 5) ∧
    counts s = [[1, 1]] ∧ counts s' = [[1, 2]] := by
  obtain ⟨s, hs, h1⟩ := shown_of (data := fileW (sx 3) sectionGuid before) (n := [[1, 1]])
    (by decide +kernel)
  obtain ⟨s', hs', h2⟩ := shown_of (data := fileW (sx 8) sectionGuid after) (n := [[1, 2]])
    (by decide +kernel)
  exact ⟨_, _, before.map ordinary, after.map ordinary, s, s', [[cell 5, cell 6]],
    fileW_holds (by decide) before_fits, fileW_holds (by decide) after_fits,
    (by unfold Distinct; decide +kernel), (by unfold Distinct; decide +kernel),
    ordinary_mem (e := ⟨sx 3, .storageIndex (indexItems 106)⟩).2 (.tail _ (.head _)),
    ordinary_mem (e := ⟨sx 8, .storageIndex (indexItems 107)⟩).2 (.tail _ (.head _)), saved rfl,
    plain_of (by decide) before_fits
      (unambiguous_of (by decide +kernel) (by decide +kernel) (by decide +kernel)),
    plain_of (by decide) after_fits
      (unambiguous_of (by decide +kernel) (by decide +kernel) (by decide +kernel)),
    hs, hs', fileCells_of (by decide +kernel), fileCells_of (by decide +kernel), rfl, h1, h2⟩

#print axioms C77_same_page
#print axioms C77_saved
#print axioms C77_cells

end OneNote
