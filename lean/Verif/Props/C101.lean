/-
C101: The level of a page is the one that is stored with it.
-/
import Verif.Props.C100
import Verif.Lemmas.Bounded
import Verif.Lemmas.Whole
import Verif.Spec.PageLevel

namespace OneNote

open Spec Spec.Document

/-- **What holds**: the level of a page that is shown is zero if none is stored, and the stored number if it
is less than 2³¹. Larger numbers are shown as negative ones. -/
theorem C101_partial (fuel : Nat) (ord : Order) (data : Bytes) (name : Text) (s : Section)
    (h : parseSectionBuffer fuel ord data name = .ok s) :
    ∃ store cells, readStore ord data = .ok store ∧ PageCells store.dataRoot cells ∧
      ∀ i j p, pageAt s i j = some p → ∃ c space, cellAt cells i j = some c ∧
        store.objectSpace c = some space ∧
        ((NoStoredLevel space ∧ p.level = 0) ∨ ∃ v, StoredLevel space v ∧
          (v < 2 ^ 31 → p.level = v) ∧ (2 ^ 31 ≤ v → p.level = v - 2 ^ 32 ∧ p.level < 0)) := by
  obtain ⟨store, cells, h1, h2, -, h3⟩ := C100_partial fuel ord data name s h
  refine ⟨store, cells, h1, h2, fun i j p hp => ?_⟩
  obtain ⟨c, space, h4, h5, h6⟩ := h3 i j p hp
  refine ⟨c, space, h4, h5, ?_⟩
  obtain ⟨info, m, metadata, _, _, _, _, _, _, _, a1, a2, a3, -, -, -, -, -, -, -, rfl⟩ := h6
  rcases a3.pageLevel with ⟨b1, b2⟩ | ⟨v, b1, n, rfl, b2⟩
  · exact .inl ⟨⟨info, m, a1, a2, b1⟩, b2⟩
  · have hv : n < 2 ^ 32 :=
      (Bounded.get_deep ((Bounded.store_fits (readStore_sound h1)).2 c space h5 info m a2) b1).1
    refine .inr ⟨n, ⟨info, m, a1, a2, b1⟩, fun hn => ?_, fun hn => ?_⟩
    · show metadata.pageLevel = _
      rw [b2, if_pos hn]
    · show metadata.pageLevel = _ ∧ metadata.pageLevel < 0
      rw [b2, if_neg (by omega)]
      exact ⟨rfl, by omega⟩

/-! ### A sample -/

/-- A section file with one page of this level. -/
private def file (level : Nat) : Bytes :=
  storeFile sectionGuid [.root contentRole (sx 1000), .root metadataRole (sx 1001)]
    (sectionObjects none 1)
    [(pageCell, 5, [.root contentRole (sx 2002), .root metadataRole (sx 2001)],
      objectW 2001 .pageMetadata
        [(.notebookManagementEntityGuid, .vec (guid sampleGuid)), (.cachedTitleString, stringW ['t']),
         (.topologyCreationTimeStamp, .u64 0), (.pageLevel, .u32 level)] ::
      (pageObjects [] []).drop 1)]

private structure Found where
  s : Section
  store : Store
  id : ExGuid
  o : Object
  n : SectionNode
  o' : Object
  n' : PageSeriesNode
  space : ObjectSpace
  info : ExGuid
  m : Object
  p : Page

private def found (data : Bytes) : Option Found := do
  let s ← (parseSectionBuffer 2 Order.id data []).toOption
  let store ← (readStore Order.id data).toOption
  let id ← store.dataRoot.roots.get? .defaultContent
  let o ← store.dataRoot.getObject id
  let n ← (SectionNode.parse o).toOption
  let o' ← store.dataRoot.getObject (sx 1002)
  let n' ← (PageSeriesNode.parse o').toOption
  let space ← store.objectSpace pageCell
  let info ← space.roots.get? .metadata
  let m ← space.getObject info
  let p ← pageAt s 0 0
  some ⟨s, store, id, o, n, o', n', space, info, m, p⟩

private def levelOf (m : Object) : Option Nat :=
  match m.props.properties.get Word.pageLevel with
  | some (.u32 v) => some v
  | _ => none

private def summary (f : Found) := (levelOf f.m, f.p.level, decide (f.n.pageSeries = [sx 1002] ∧
  f.n'.pageSpaces = [pageCell]))

private theorem facts {data : Bytes} {v : Nat} {level : Int}
    (h : (found data).map summary = some (some v, level, true)) :
    ∃ s store space p, parseSectionBuffer 2 Order.id data [] = .ok s ∧
      readStore Order.id data = .ok store ∧ PageCells store.dataRoot [[pageCell]] ∧
      store.objectSpace pageCell = some space ∧ StoredLevel space v ∧ pageAt s 0 0 = some p ∧
      p.level = level := by
  obtain ⟨f, hf, h⟩ := Option.map_eq_some_iff.1 h
  simp only [summary, Prod.mk.injEq, decide_eq_true_eq] at h
  obtain ⟨h1, h4, h2, h3⟩ := h
  unfold found at hf
  obtain ⟨s, e1, hf⟩ := Option.bind_eq_some_iff.1 hf
  obtain ⟨store, e2, hf⟩ := Option.bind_eq_some_iff.1 hf
  obtain ⟨id, e3, hf⟩ := Option.bind_eq_some_iff.1 hf
  obtain ⟨o, e4, hf⟩ := Option.bind_eq_some_iff.1 hf
  obtain ⟨n, e5, hf⟩ := Option.bind_eq_some_iff.1 hf
  obtain ⟨o', e6, hf⟩ := Option.bind_eq_some_iff.1 hf
  obtain ⟨n', e7, hf⟩ := Option.bind_eq_some_iff.1 hf
  obtain ⟨space, e8, hf⟩ := Option.bind_eq_some_iff.1 hf
  obtain ⟨info, e9, hf⟩ := Option.bind_eq_some_iff.1 hf
  obtain ⟨m, e10, hf⟩ := Option.bind_eq_some_iff.1 hf
  obtain ⟨p, e11, hf⟩ := Option.bind_eq_some_iff.1 hf
  injection hf with hf
  subst hf
  refine ⟨s, store, space, p, toOption_some e1, toOption_some e2,
    ⟨id, o, n, e3, e4, SectionNode.parse_iff.1 (toOption_some e5), ?_⟩, e8, ⟨info, m, e9, e10, ?_⟩, e11, h4⟩
  · rw [show n.pageSeries = _ from h2]
    exact .cons ⟨o', n', e6, PageSeriesNode.parse_iff.1 (toOption_some e7), h3⟩ .nil
  · unfold levelOf at h1
    split at h1
    · rename_i hv
      cases h1
      exact hv
    · cases h1

/-- **Refuted**: there is a section file whose only page has the stored level 2³² - 1, and the page is
shown with the level -1. -/
theorem C101_refuted : ∃ data s store cell space p,
    parseSectionBuffer 2 Order.id data [] = .ok s ∧ readStore Order.id data = .ok store ∧
    PageCells store.dataRoot [[cell]] ∧ store.objectSpace cell = some space ∧
    StoredLevel space (2 ^ 32 - 1) ∧ pageAt s 0 0 = some p ∧ p.level = -1 := by
  obtain ⟨s, store, space, p, h1, h2, h3, h4, h5, h6, h7⟩ :=
    facts (data := file (2 ^ 32 - 1)) (v := 2 ^ 32 - 1) (level := -1) (by decide +kernel)
  exact ⟨_, s, store, pageCell, space, p, h1, h2, h3, h4, h5, h6, h7⟩

/-- The hypothesis of `C101_partial` is met by a file with a page of level 2. -/
example : ∃ data s p, parseSectionBuffer 2 Order.id data [] = .ok s ∧ pageAt s 0 0 = some p ∧
    p.level = 2 := by
  obtain ⟨s, -, -, p, h1, -, -, -, -, h6, h7⟩ :=
    facts (data := file 2) (v := 2) (level := 2) (by decide +kernel)
  exact ⟨_, s, p, h1, h6, h7⟩

#print axioms C101_partial
#print axioms C101_refuted

end OneNote
