/-
A section file before and after an edit of its second page, for the examples.
-/
import Verif.Lemmas.PageHistory
import Verif.Lemmas.MapM
import Verif.Lemmas.Terminates
import Verif.Spec.SampleFile

namespace OneNote.SampleEdit

open Spec Spec.StoreContents Spec.Document Spec.PageHistory PageHistory

def cell (n : Nat) : CellId := ⟨sx n, sx n⟩

def pageRoots : List RevisionItem := [.root contentRole (sx 2002), .root metadataRole (sx 2001)]

/-- The storage index; the manifest of the second page is `second`. -/
def indexItems (second : Nat) : List IndexItem :=
  [.cell headerCell (sx 101) ⟨sampleGuid, 1⟩, .cell dataCell (sx 102) ⟨sampleGuid, 2⟩,
   .cell (cell 5) (sx 105) ⟨sampleGuid, 5⟩, .cell (cell 6) (sx second) ⟨sampleGuid, second⟩]

def kept : List Element :=
  cellOf 1 [] (.objectGroup [.object (sx 900) 1 0 0 0] [.object [] [] headerProps]) ++
  cellOf 2 [.root contentRole (sx 1000), .root metadataRole (sx 1001)] (groupOf
    [sectionMetadataW none,
     objectW 1000 .sectionNode
       [(.notebookManagementEntityGuid, .vec (guid sampleGuid)), (.elementChildNodes, .objectIds 1),
        (.topologyCreationTimeStamp, .u64 0)] [1002],
     objectW 1002 .pageSeriesNode
       [(.notebookManagementEntityGuid, .vec (guid sampleGuid)),
        (.childGraphSpaceElementNodes, .objectSpaceIds 2)] [] [cell 5, cell 6]]) ++
  cellOf 5 pageRoots (groupOf (pageObjects [3001] [outlineW 3001 []])) ++
  cellOf 6 pageRoots (groupOf (pageObjects [3001] [outlineW 3001 []]))

def before : List Element :=
  ⟨sx 4, manifestOf sectionGuid⟩ :: ⟨sx 3, .storageIndex (indexItems 106)⟩ :: kept

/-- A new revision of the second page, which has another outline. -/
def edit : List Element :=
  [⟨sx 107, .cellManifest (sx 207)⟩,
   ⟨sx 207, .revisionManifest (sx 207) (sx 206) [.group (sx 407)]⟩,
   ⟨sx 407, groupOf [objectW 2003 .pageNode [(.elementChildNodes, .objectIds 2)] [3001, 3002],
     outlineW 3002 []]⟩]

def after : List Element :=
  ⟨sx 4, manifestOf sectionGuid⟩ :: ⟨sx 8, .storageIndex (indexItems 107)⟩ :: (kept ++ edit)

theorem before_fits : ∀ e ∈ before, ElementFits e := by decide +kernel
theorem after_fits : ∀ e ∈ after, ElementFits e := by decide +kernel

def packaging (i : ExGuid) (es : List Element) : Packaging :=
  ⟨sectionGuid, Guid.nil, Guid.nil, packageStore, i, sectionGuid, packageOf es⟩

theorem unambiguous_of {p : Packaging}
    (h1 : (p.package.storageIndexes.get? p.storageIndex).isSome = true)
    (h2 : p.package.storageManifests.length ≤ 1)
    (h : ∀ e ∈ p.package.storageIndexes, ∀ e' ∈ e.2.cellMappings,
      (p.package.resolveCellRevisionManifestId e.2 e'.2.id).isSome = true) : Unambiguous p where
  index := .inl (Option.isSome_iff_exists.mp h1)
  manifest := h2
  cells := fun _ _ _ _ hi hm => .inr (.inl ((leads_iff _ _ _).mpr
      (Option.isSome_iff_exists.mp (h _ hi _ hm))))

theorem plain_of_parse {data rest : Bytes} {p : Packaging}
    (h : Packaging.parse data = .ok (p, rest)) (hu : Unambiguous p) : PlainFile data := by
  intro q hq
  have hq := holds_iff.1 hq
  unfold P.run at hq
  rw [h] at hq
  cases hq
  exact hu

theorem plain_of {i : ExGuid} {es : List Element} (hi : ExGuidFits i)
    (hf : ∀ e ∈ es, ElementFits e) (hu : Unambiguous (packaging i es)) :
    PlainFile (fileW i sectionGuid es) :=
  plain_of_parse (fileW_parse hi hf) hu

/-- The cells of the pages, computed. -/
def cellsOf (data : Bytes) : Res (List (List CellId)) := do
  let store ← readStore Order.id data
  let id ← orErr .malformedOneNote store.dataRoot.contentRoot
  let o ← orErr .malformedOneNote (store.dataRoot.getObject id)
  let n ← SectionNode.parse o
  n.pageSeries.mapM fun series => do
    let o ← orErr .malformedOneNote (store.dataRoot.getObject series)
    let n ← PageSeriesNode.parse o
    return n.pageSpaces

theorem fileCells_of {data : Bytes} {cells : List (List CellId)}
    (h : (cellsOf data).toOption = some cells) : FileCells data cells := by
  have h := toOption_some h
  unfold cellsOf at h
  obtain ⟨store, h1, h⟩ := Res.bind_ok_iff.1 h
  obtain ⟨id, h2, h⟩ := Res.bind_ok_iff.1 h
  obtain ⟨o, h3, h⟩ := Res.bind_ok_iff.1 h
  obtain ⟨n, h4, h⟩ := Res.bind_ok_iff.1 h
  refine ⟨store, readStore_sound h1, id, o, n, orErr_some h2, orErr_some h3,
    SectionNode.parse_iff.1 h4, each_mono (mapM_each.1 h) fun a b _ hx => ?_⟩
  obtain ⟨o, h5, hx⟩ := Res.bind_ok_iff.1 hx
  obtain ⟨n, h6, hx⟩ := Res.bind_ok_iff.1 hx
  cases hx
  exact ⟨o, n, orErr_some h5, PageSeriesNode.parse_iff.1 h6, rfl⟩

/-- The number of objects on each page. -/
def counts (s : Section) : List (List Nat) :=
  s.pageSeries.map fun series => series.pages.map fun p => p.contents.length

theorem shown_of {data : Bytes} {n : List (List Nat)}
    (h : (parseSectionBuffer 2 Order.id data []).toOption.map counts = some n) :
    ∃ s, parseSectionBuffer 2 Order.id data [] = .ok s ∧ counts s = n := by
  obtain ⟨s, hs, hc⟩ := Option.map_eq_some_iff.1 h
  exact ⟨s, toOption_some hs, hc⟩

theorem ordinary_mem {e : Element} {es : List Element} :
    ordinary e ∈ es.map ordinary ↔ e ∈ es := by
  constructor
  · intro h
    obtain ⟨x, hx, e⟩ := List.mem_map.1 h
    obtain ⟨i, b⟩ := x
    cases e
    exact hx
  · exact fun h => List.mem_map.2 ⟨e, h, rfl⟩

theorem saved {c : CellId} (hc : (indexOf (indexItems 107)).cellMappings.get? c =
      (indexOf (indexItems 106)).cellMappings.get? c) :
    SavedAgain c (before.map ordinary) (after.map ordinary) (indexItems 106) (indexItems 107) := by
  refine ⟨fun e he hn => ?_, fun e he hn hs old ho hr => ?_, hc, fun a m h => ?_, fun _ _ h => h⟩
  · obtain ⟨x, hx, rfl⟩ := List.mem_map.1 he
    rw [ordinary_mem]
    unfold before at hx
    rcases List.mem_cons.1 hx with rfl | hx
    · exact absurd trivial hn
    rcases List.mem_cons.1 hx with rfl | hx
    · exact absurd trivial hn
    · exact .tail _ (.tail _ (List.mem_append_left _ hx))
  · obtain ⟨x, hx, rfl⟩ := List.mem_map.1 he
    rw [ordinary_mem] at hn
    have hid : (ordinary x).id ∈ [sx 107, sx 207, sx 407] := by
      unfold after at hx
      rcases List.mem_cons.1 hx with rfl | hx
      · exact absurd trivial hs
      rcases List.mem_cons.1 hx with rfl | hx
      · exact absurd trivial hs
      rcases List.mem_append.1 hx with hx | hx
      · exact absurd (.tail _ (.tail _ hx)) hn
      · unfold edit at hx
        simp only [List.mem_cons, List.not_mem_nil, or_false] at hx
        rcases hx with rfl | rfl | rfl <;> simp [ordinary]
    have hl : ∀ id ∈ [sx 107, sx 207, sx 407], ∀ old ∈ before.map ordinary,
        id ∉ refersList old.piece := by decide +kernel
    exact hl _ hid old ho (refers_list hr)
  · cases h

end OneNote.SampleEdit
