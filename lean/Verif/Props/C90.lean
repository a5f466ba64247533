/-
C90: A section is its heading and its list of pages, which can be changed freely.
-/
import Verif.Lemmas.PageList
import Verif.Lemmas.SampleEdit
import Verif.Props.C47

namespace OneNote

open Spec Spec.StoreContents Spec.Document Spec.PageHistory PageHistory

/-- **Exactly.** A section file is read as a section if and only if this has the name and the color
that the file stores, and shows for each cell in the list of the pages the page that the file
stores for that cell. -/
theorem C90_exactly (data : Bytes) (hu : PlainFile data) (cells : List (List CellId))
    (hc : FileCells data cells) (ord : Order) (name : Text) (s : Section) :
    (∃ fuel, parseSectionBuffer fuel ord data name = .ok s) ↔
      FileHeading data name s.displayName s.color ∧ PagesOf data cells s.pageSeries := by
  rw [C47_section_exactly data name s hu ord, sectionFile_iff hu]
  refine and_congr_right fun _ => ⟨?_, fun h => ⟨cells, hc, h⟩⟩
  rintro ⟨cells', ⟨store', h1, h2⟩, hp⟩
  obtain ⟨store, h3, h4⟩ := hc
  rw [pageCells_unique (pageCells_same (stores_alike hu h3 h1).dataRoot h4) h2]
  exact hp

/-- A file stores at most one page for a cell. -/
theorem C90_page_unique (data : Bytes) (hu : PlainFile data) (c : CellId) (p q : Page)
    (hp : FilePage data c p) (hq : FilePage data c q) : p = q :=
  filePage_unique hu hp hq

/-- **Changing the list.** Let a section file be saved again with any changes to the list of its
pages: pages may be added, removed, moved and listed more than once. If every page in the new list
is an old page that is left alone or one that can be read, then the file is read; it has the name and the
color it stores, the arrangement of the new list, and shows each old page that is left alone, where
it is listed now, as it was shown where it was listed before. -/
theorem C90_list_changed (data data' : Bytes) (left : CellId → Prop) (hs : SavedPages data data' left)
    (hu : PlainFile data) (hu' : PlainFile data') (cells cells' : List (List CellId))
    (hc : FileCells data cells) (hc' : FileCells data' cells')
    (hn : ∀ c ∈ cells'.flatten, c ∈ cells.flatten ∧ left c ∨ ∃ p, FilePage data' c p)
    (fuel : Nat) (ord : Order) (name : Text) (s : Section)
    (h : parseSectionBuffer fuel ord data name = .ok s) (name' displayName : Text) (color : Option Color)
    (hh : FileHeading data' name' displayName color) :
    ∃ n s', (∀ k, n ≤ k → ∀ ord', parseSectionBuffer k ord' data' name' = .ok s') ∧
      s'.displayName = displayName ∧ s'.color = color ∧
      s'.pageSeries.map (fun x => x.pages.length) = cells'.map List.length ∧
      (∀ i j i' j' c, left c → (cells[i]? >>= fun cs => cs[j]?) = some c →
        (cells'[i']? >>= fun cs => cs[j']?) = some c →
        ∃ p, pageAt s i j = some p ∧ pageAt s' i' j' = some p) ∧
      ∀ i' j' c p, (cells'[i']? >>= fun cs => cs[j']?) = some c → FilePage data' c p →
        pageAt s' i' j' = some p := by
  have hf : ∃ store, FileStore data' store := by
    obtain ⟨store, h, -⟩ := hc'
    exact ⟨store, h⟩
  obtain ⟨h1, h2⟩ := (C90_exactly data hu cells hc ord name s).1 ⟨fuel, h⟩
  obtain ⟨series, hp⟩ : ∃ series, PagesOf data' cells' series := by
    refine pages_exist fun c hm => ?_
    rcases hn c hm with ⟨hx, hl⟩ | hx
    · obtain ⟨cs, g1, g2⟩ := List.mem_flatten.1 hx
      obtain ⟨i, hi⟩ := List.mem_iff_getElem?.1 g1
      obtain ⟨j, hj⟩ := List.mem_iff_getElem?.1 g2
      obtain ⟨p, -, g3⟩ := page_of h2 (i := i) (j := j) (c := c) (by rw [hi]; exact hj)
      exact ⟨p, page_left hs hu hu' hf hl g3⟩
    · exact hx
  let s' : Section := ⟨displayName, series, color⟩
  have key : SectionFile data' name' s' := (sectionFile_iff hu').2 ⟨hh, cells', hc', hp⟩
  obtain ⟨n, hn⟩ := C47_section_complete data' name' s' hu' key
  refine ⟨n, s', fun k hk ord' => refines_ok (refines_buffer hk ord' data' name') (hn ord'), rfl, rfl,
    pages_length hp, fun i j i' j' c hl hi hi' => ?_, fun i' j' c p hi' hq => ?_⟩
  · obtain ⟨p, g1, g2⟩ := page_of h2 hi
    obtain ⟨q, g3, g4⟩ := page_of (s := s') hp hi'
    rw [filePage_unique hu' g4 (page_left hs hu hu' hf hl g2)] at g3
    exact ⟨p, g1, g3⟩
  · obtain ⟨q, g3, g4⟩ := page_of (s := s') hp hi'
    rw [filePage_unique hu' g4 hq] at g3
    exact g3

/-! ### The hypotheses can be met -/

open SampleEdit

private def newIndex : List IndexItem :=
  [.cell headerCell (sx 101) ⟨sampleGuid, 1⟩, .cell dataCell (sx 112) ⟨sampleGuid, 12⟩,
   .cell (cell 5) (sx 105) ⟨sampleGuid, 5⟩, .cell (cell 6) (sx 106) ⟨sampleGuid, 106⟩,
   .cell (cell 7) (sx 107) ⟨sampleGuid, 7⟩]

/-- A new revision of the list of the pages, with a new page first and the second page twice; the first
page is no longer listed. -/
private def relist : List Element :=
  [⟨sx 112, .cellManifest (sx 212)⟩,
   ⟨sx 212, .revisionManifest (sx 212) (sx 202) [.group (sx 412)]⟩,
   ⟨sx 412, groupOf [objectW 1002 .pageSeriesNode
     [(.notebookManagementEntityGuid, .vec (guid sampleGuid)),
      (.childGraphSpaceElementNodes, .objectSpaceIds 3)] [] [cell 7, cell 6, cell 6]]⟩] ++
  cellOf 7 pageRoots (groupOf (pageObjects [3001, 3002] [outlineW 3001 [], outlineW 3002 []]))

private def relisted : List Element :=
  ⟨sx 4, manifestOf sectionGuid⟩ :: ⟨sx 8, .storageIndex newIndex⟩ :: (kept ++ relist)

private theorem relisted_fits : ∀ e ∈ relisted, ElementFits e := by decide +kernel

private theorem relisted_saved {c : CellId} (hc : (indexOf newIndex).cellMappings.get? c =
      (indexOf (indexItems 106)).cellMappings.get? c) :
    SavedAgain c (before.map ordinary) (relisted.map ordinary) (indexItems 106) newIndex := by
  refine ⟨fun e he hn => ?_, fun e he hn hs old ho hr => ?_, hc, fun a m h => ?_, fun _ _ h => h⟩
  · obtain ⟨x, hx, rfl⟩ := List.mem_map.1 he
    rw [ordinary_mem]
    unfold before at hx
    rcases List.mem_cons.1 hx with rfl | hx
    · exact absurd trivial hn
    rcases List.mem_cons.1 hx with rfl | hx
    · exact absurd trivial hn
    · exact .tail _ (.tail _ (List.mem_append_left _ hx))
  · obtain ⟨x, hx, rfl⟩ := List.mem_map.1 he
    rw [ordinary_mem] at hn
    have hid : (ordinary x).id ∈ relist.map (·.id) := by
      unfold relisted at hx
      rcases List.mem_cons.1 hx with rfl | hx
      · exact absurd trivial hs
      rcases List.mem_cons.1 hx with rfl | hx
      · exact absurd trivial hs
      rcases List.mem_append.1 hx with hx | hx
      · exact absurd (.tail _ (.tail _ hx)) hn
      · exact List.mem_map.2 ⟨x, hx, rfl⟩
    have hl : ∀ id ∈ relist.map (·.id), ∀ old ∈ before.map ordinary,
        id ∉ refersList old.piece := by decide +kernel
    exact hl _ hid old ho (refers_list hr)
  · cases h

private theorem heading_of {data : Bytes} (hu : PlainFile data) {cells : List (List CellId)}
    (hc : FileCells data cells) {s : Section} (h : parseSectionBuffer 2 Order.id data [] = .ok s) :
    FileHeading data [] s.displayName s.color ∧ PagesOf data cells s.pageSeries :=
  (C90_exactly data hu cells hc Order.id [] s).1 ⟨2, h⟩

/-- The first page is taken off the list, the second is listed twice, and there is a new page before
it. -/
example : ∃ (data data' : Bytes) (s : Section) (dn : Text) (color : Option Color),
    SavedPages data data' (· = cell 6) ∧ PlainFile data ∧ PlainFile data' ∧
    FileCells data [[cell 5, cell 6]] ∧ FileCells data' [[cell 7, cell 6, cell 6]] ∧
    (∀ c ∈ [[cell 7, cell 6, cell 6]].flatten,
      c ∈ [[cell 5, cell 6]].flatten ∧ c = cell 6 ∨ ∃ p, FilePage data' c p) ∧
    parseSectionBuffer 2 Order.id data [] = .ok s ∧ FileHeading data' [] dn color := by
  obtain ⟨s, hs, -⟩ := shown_of (data := fileW (sx 3) sectionGuid before) (n := [[1, 1]])
    (by decide +kernel)
  obtain ⟨s', hs', -⟩ := shown_of (data := fileW (sx 8) sectionGuid relisted) (n := [[2, 1, 1]])
    (by decide +kernel)
  have hu : PlainFile (fileW (sx 3) sectionGuid before) := plain_of (by decide) before_fits
    (unambiguous_of (by decide +kernel) (by decide +kernel) (by decide +kernel))
  have hu' : PlainFile (fileW (sx 8) sectionGuid relisted) := plain_of (by decide) relisted_fits
    (unambiguous_of (by decide +kernel) (by decide +kernel) (by decide +kernel))
  have hc' : FileCells (fileW (sx 8) sectionGuid relisted) [[cell 7, cell 6, cell 6]] :=
    fileCells_of (by decide +kernel)
  obtain ⟨hh, hp⟩ := heading_of hu' hc' hs'
  refine ⟨_, _, s, _, _, ?_, hu, hu', fileCells_of (by decide +kernel), hc', fun c hm => ?_, hs, hh⟩
  · exact ⟨sx 3, sx 8, before.map ordinary, relisted.map ordinary, indexItems 106, newIndex, sx 4, sx 4,
      sectionGuid, [(fileHeaderRoot, headerCell), (fileDataRoot, dataCell)],
      fileW_holds (by decide) before_fits, fileW_holds (by decide) relisted_fits,
      (by unfold Distinct; decide +kernel), (by unfold Distinct; decide +kernel),
      ordinary_mem (e := ⟨sx 3, .storageIndex (indexItems 106)⟩).2 (.tail _ (.head _)),
      ordinary_mem (e := ⟨sx 8, .storageIndex newIndex⟩).2 (.tail _ (.head _)),
      ordinary_mem (e := ⟨sx 4, manifestOf sectionGuid⟩).2 (.head _),
      ordinary_mem (e := ⟨sx 4, manifestOf sectionGuid⟩).2 (.head _),
      fun c hc => hc ▸ relisted_saved rfl⟩
  · have hm : c ∈ [cell 7, cell 6, cell 6] := hm
    rcases List.mem_cons.1 hm with h | h
    · subst h
      obtain ⟨p, -, hp⟩ := page_of hp (i := 0) (j := 0) (c := cell 7) rfl
      exact .inr ⟨p, hp⟩
    · have h : c = cell 6 := by simpa using h
      subst h
      exact .inl ⟨.tail _ (.head _), rfl⟩

#print axioms C90_exactly
#print axioms C90_page_unique
#print axioms C90_list_changed

end OneNote
