/-
C100: A page that is marked as deleted is not shown.
-/
import Verif.Lemmas.Deleted
import Verif.Lemmas.DeletedSample
import Verif.Lemmas.Terminates
import Verif.Props.C43
import Verif.Spec.SampleFile

namespace OneNote

open Spec Spec.Document

/-! ### The mark has no effect -/

/-- **Refuted for all files.** Two files whose stores differ in the metadata of pages only, as in the mark
of deleted pages, are read as the same section, or refused with the same error. -/
theorem C100_ignored (ord ord' : Order) (data data' : Bytes) (store store' : Store)
    (h : readStore ord data = .ok store) (h' : readStore ord' data' = .ok store')
    (hs : SameButMarks store store') (fuel : Nat) (name : Text) :
    parseSectionBuffer fuel ord' data' name = parseSectionBuffer fuel ord data name := by
  unfold parseSectionBuffer
  rw [h, h']
  show (if store'.schema ≠ sectionSchema then _ else _) = if store.schema ≠ sectionSchema then _ else _
  rw [hs.schema, Deleted.section_same hs]

/-! ### A sample -/

/-- A section file with one page that has the mark. The property is of the type Bool, and its value is the
top bit of its identifier. -/
private def file (mark : Bool) : Bytes :=
  storeFile sectionGuid [.root contentRole (sx 1000), .root metadataRole (sx 1001)]
    (sectionObjects none 1)
    [(pageCell, 5, [.root contentRole (sx 2002), .root metadataRole (sx 2001)],
      { id := 2001, jcid := PropertySetId.pageMetadata.asJcid, refs := [], cells := [],
        props := streamHeader 0 0 false true ++ (leBytes 2 4 ++
          (leBytes 4 PropertyType.notebookManagementEntityGuid.code ++
            (leBytes 4 PropertyType.cachedTitleString.code ++
              (leBytes 4 PropertyType.topologyCreationTimeStamp.code ++
                leBytes 4 (if mark then 0x88001DE9 else 0x08001DE9)))) ++
          (valueW (.vec (guid sampleGuid)) ++ (valueW (stringW ['t']) ++ valueW (.u64 0)))) } ::
      (pageObjects [] []).drop 1)]

private structure Found where
  s : Section
  store : Store
  id : ExGuid
  o : Object
  n : SectionNode
  o' : Object
  n' : PageSeriesNode
  space : ObjectSpace
  info : ExGuid
  m : Object
  p : Page

private def found (data : Bytes) : Option Found := do
  let s ← (parseSectionBuffer 2 Order.id data []).toOption
  let store ← (readStore Order.id data).toOption
  let id ← store.dataRoot.roots.get? .defaultContent
  let o ← store.dataRoot.getObject id
  let n ← (SectionNode.parse o).toOption
  let o' ← store.dataRoot.getObject (sx 1002)
  let n' ← (PageSeriesNode.parse o').toOption
  let space ← store.objectSpace pageCell
  let info ← space.roots.get? .metadata
  let m ← space.getObject info
  let p ← pageAt s 0 0
  some ⟨s, store, id, o, n, o', n', space, info, m, p⟩

private def markOf (m : Object) : Option Bool :=
  match m.props.properties.get Word.isDeletedGraphSpaceContent with
  | some (.bool mark) => some mark
  | _ => none

private def summary (f : Found) := (markOf f.m, decide (f.n.pageSeries = [sx 1002] ∧
  f.n'.pageSpaces = [pageCell]))

private theorem facts {data : Bytes} {mark : Bool} (h : (found data).map summary = some (some mark, true)) :
    ∃ s store space p, parseSectionBuffer 2 Order.id data [] = .ok s ∧
      readStore Order.id data = .ok store ∧ PageCells store.dataRoot [[pageCell]] ∧
      store.objectSpace pageCell = some space ∧ Marked mark space ∧ pageAt s 0 0 = some p := by
  obtain ⟨f, hf, h⟩ := Option.map_eq_some_iff.1 h
  simp only [summary, Prod.mk.injEq, decide_eq_true_eq] at h
  obtain ⟨h1, h2, h3⟩ := h
  unfold found at hf
  obtain ⟨s, e1, hf⟩ := Option.bind_eq_some_iff.1 hf
  obtain ⟨store, e2, hf⟩ := Option.bind_eq_some_iff.1 hf
  obtain ⟨id, e3, hf⟩ := Option.bind_eq_some_iff.1 hf
  obtain ⟨o, e4, hf⟩ := Option.bind_eq_some_iff.1 hf
  obtain ⟨n, e5, hf⟩ := Option.bind_eq_some_iff.1 hf
  obtain ⟨o', e6, hf⟩ := Option.bind_eq_some_iff.1 hf
  obtain ⟨n', e7, hf⟩ := Option.bind_eq_some_iff.1 hf
  obtain ⟨space, e8, hf⟩ := Option.bind_eq_some_iff.1 hf
  obtain ⟨info, e9, hf⟩ := Option.bind_eq_some_iff.1 hf
  obtain ⟨m, e10, hf⟩ := Option.bind_eq_some_iff.1 hf
  obtain ⟨p, e11, hf⟩ := Option.bind_eq_some_iff.1 hf
  injection hf with hf
  subst hf
  refine ⟨s, store, space, p, toOption_some e1, toOption_some e2,
    ⟨id, o, n, e3, e4, SectionNode.parse_iff.1 (toOption_some e5), ?_⟩, e8, ⟨info, m, e9, e10, ?_⟩, e11⟩
  · rw [show n.pageSeries = _ from h2]
    exact .cons ⟨o', n', e6, PageSeriesNode.parse_iff.1 (toOption_some e7), h3⟩ .nil
  · unfold markOf at h1
    split at h1
    · rename_i hv
      cases h1
      exact hv
    · cases h1

/-- **Refuted**: there is a section file whose only page is marked as deleted, and the section shows the
page. -/
theorem C100_refuted : ∃ data s store cell space p,
    parseSectionBuffer 2 Order.id data [] = .ok s ∧ readStore Order.id data = .ok store ∧
    PageCells store.dataRoot [[cell]] ∧ store.objectSpace cell = some space ∧ Marked true space ∧
    pageAt s 0 0 = some p := by
  obtain ⟨s, store, space, p, h1, h2, h3, h4, h5, h6⟩ :=
    facts (data := file true) (mark := true) (by decide +kernel)
  exact ⟨_, s, store, pageCell, space, p, h1, h2, h3, h4, h5, h6⟩

private theorem pair {data data' : Bytes}
    (h : (found data).map summary = some (some true, true))
    (h' : (found data').map summary = some (some false, true))
    (hs : ((readStore Order.id data).toOption.bind fun a => (readStore Order.id data').toOption.map fun b =>
      Deleted.sameButMarks a b) = some true) :
    ∃ data data' store store' space space', readStore Order.id data = .ok store ∧
      readStore Order.id data' = .ok store' ∧ SameButMarks store store' ∧
      store.objectSpace pageCell = some space ∧ Marked true space ∧
      store'.objectSpace pageCell = some space' ∧ Marked false space' := by
  obtain ⟨-, store, space, -, -, h2, -, h4, h5, -⟩ := facts h
  obtain ⟨-, store', space', -, -, h2', -, h4', h5', -⟩ := facts h'
  rw [h2, h2'] at hs
  exact ⟨data, data', store, store', space, space', h2, h2',
    Deleted.sameButMarks_ok (Option.some.inj hs), h4, h5, h4', h5'⟩

/-- The hypotheses of `C100_ignored` are met: two files that differ in the mark of their page. -/
example : ∃ data data' store store' space space', readStore Order.id data = .ok store ∧
    readStore Order.id data' = .ok store' ∧ SameButMarks store store' ∧
    store.objectSpace pageCell = some space ∧ Marked true space ∧
    store'.objectSpace pageCell = some space' ∧ Marked false space' :=
  pair (data := file true) (data' := file false) (by decide +kernel) (by decide +kernel)
    (by decide +kernel)

/-! ### What is shown -/

/-- The pages that a section shows are those that are listed, each in its place. -/
theorem C100_partial (fuel : Nat) (ord : Order) (data : Bytes) (name : Text) (s : Section)
    (h : parseSectionBuffer fuel ord data name = .ok s) :
    ∃ store cells, readStore ord data = .ok store ∧ PageCells store.dataRoot cells ∧
      (∀ i j c, cellAt cells i j = some c →
        ∃ space p, store.objectSpace c = some space ∧ pageAt s i j = some p ∧ PageIs space p) ∧
      ∀ i j p, pageAt s i j = some p →
        ∃ c space, cellAt cells i j = some c ∧ store.objectSpace c = some space ∧ PageIs space p := by
  obtain ⟨store, h1, -, info, m, metadata, root, o, n, -, -, -, h2, h3, h4, -, h5, -⟩ :=
    (C43_buffer ord data name s).1 ⟨fuel, h⟩
  obtain ⟨cells, h6, h7⟩ := Deleted.listed h5
  refine ⟨store, cells, h1, ⟨root, o, n, h2, h3, h4, h6⟩, fun i j c hc => ?_, fun i j p hp => ?_⟩
  · obtain ⟨cs, g1, g2⟩ := Option.bind_eq_some_iff.1 hc
    obtain ⟨x, g3, g4⟩ := Deleted.each_at h7 g1
    obtain ⟨p, g5, space, g6, g7⟩ := Deleted.each_at g4 g2
    exact ⟨space, p, g6, Option.bind_eq_some_iff.2 ⟨x, g3, g5⟩, g7⟩
  · obtain ⟨x, g1, g2⟩ := Option.bind_eq_some_iff.1 hp
    obtain ⟨cs, g3, g4⟩ := Deleted.each_from h7 g1
    obtain ⟨c, g5, space, g6, g7⟩ := Deleted.each_from g4 g2
    exact ⟨c, space, Option.bind_eq_some_iff.2 ⟨cs, g3, g5⟩, g6, g7⟩

/-- The hypothesis of `C100_partial` is met by a file with a page. -/
example : ∃ data s p, parseSectionBuffer 2 Order.id data [] = .ok s ∧ pageAt s 0 0 = some p := by
  obtain ⟨s, -, -, p, h1, -, -, -, -, h6⟩ :=
    facts (data := file false) (mark := false) (by decide +kernel)
  exact ⟨_, s, p, h1, h6⟩

#print axioms C100_ignored
#print axioms C100_refuted
#print axioms C100_partial

end OneNote
