/-
C56: Damage to one page does not affect the other pages.
-/
import Verif.Spec.Isolation
import Verif.Spec.SampleFile
import Verif.Props.C43
import Verif.Props.C41
import Verif.Lemmas.AnyOrder

namespace OneNote

open Spec Spec.Document Spec.Objects

private theorem each_left {α β γ : Type} {R : α → β → Prop} {f : α → γ → Prop} {as : List α}
    {bs : List β} (h : Each R as bs) (hf : ∀ a b, R a b → ∃ c, f a c) : ∃ cs, Each f as cs := by
  induction h with
  | nil => exact ⟨[], .nil⟩
  | cons hr _ ih =>
    obtain ⟨c, hc⟩ := hf _ _ hr
    obtain ⟨cs, hcs⟩ := ih
    exact ⟨c :: cs, .cons hc hcs⟩

private theorem each_getElem {α β : Type} {R : α → β → Prop} {as : List α} {bs : List β}
    (h : Each R as bs) (i : Nat) :
    (as[i]? = none ∧ bs[i]? = none) ∨ ∃ a b, as[i]? = some a ∧ bs[i]? = some b ∧ R a b := by
  induction h generalizing i with
  | nil => exact .inl ⟨rfl, rfl⟩
  | cons hr _ ih =>
    cases i with
    | zero => exact .inr ⟨_, _, rfl, rfl, hr⟩
    | succ i => exact ih i

/-- Every section that is read has page cells. -/
theorem C56_page_cells (fuel : Nat) (store : Store) (name : Text) (s : Section)
    (h : parseSectionStore fuel store name = .ok s) :
    ∃ cells, PageCells store.dataRoot cells ∧
      cells.map List.length = s.pageSeries.map fun x => x.pages.length := by
  obtain ⟨_, _, _, root, o, n, -, -, -, b1, b2, b3, -, hp, -⟩ := (C43_section _ _ _).1 ⟨fuel, h⟩
  generalize s.pageSeries = ss at hp ⊢
  suffices ∃ cells : List (List CellId), Each (fun series cs => ∃ o n, At store.dataRoot series o ∧
      IsPageSeriesNode o n ∧ n.pageSpaces = cs) n.pageSeries cells ∧
      cells.map List.length = ss.map fun x => x.pages.length by
    obtain ⟨cells, h1, h2⟩ := this
    exact ⟨cells, ⟨root, o, n, b1, b2, b3, h1⟩, h2⟩
  generalize n.pageSeries = ids at hp ⊢
  induction hp with
  | nil => exact ⟨[], .nil, rfl⟩
  | cons hr _ ih =>
    obtain ⟨o, n, h1, h2, h3⟩ := hr
    obtain ⟨cells, h4, h5⟩ := ih
    refine ⟨n.pageSpaces :: cells, .cons ⟨o, n, h1, h2, rfl⟩ h4, ?_⟩
    rw [List.map_cons, List.map_cons, h5, ((each_iff _ _ _).1 h3).1]

/-- **What holds**: every page shows what is in its own object space, and nothing else. -/
theorem C56_own_space_partial (fuel : Nat) (store : Store) (name : Text) (s : Section)
    (h : parseSectionStore fuel store name = .ok s) (cells : List (List CellId))
    (hc : PageCells store.dataRoot cells) (i j : Nat) (p : Page) :
    pageAt s i j = some p ↔ ∃ c space, (cells[i]? >>= fun cs => cs[j]?) = some c ∧
      store.objectSpace c = some space ∧ PageIs space p := by
  obtain ⟨_, _, _, root, o, n, -, -, -, b1, b2, b3, -, hp, -⟩ := (C43_section _ _ _).1 ⟨fuel, h⟩
  obtain ⟨root', o', n', c1, c2, c3, c4⟩ := hc
  rw [b1] at c1
  cases c1
  unfold At at b2 c2
  rw [b2] at c2
  cases c2
  have e : SectionNode.parse o = .ok n' := SectionNode.parse_iff.2 c3
  rw [SectionNode.parse_iff.2 b3] at e
  cases e
  unfold pageAt
  rcases each_getElem hp i with ⟨h1, h2⟩ | ⟨id, series, h1, h2, k, m, d1, d2, d3⟩
  · rcases each_getElem c4 i with ⟨_, h3⟩ | ⟨_, _, h3, _⟩
    · rw [h2, h3]; simp
    · rw [h1] at h3; cases h3
  rcases each_getElem c4 i with ⟨h3, _⟩ | ⟨id', cs, h3, h4, k', m', e1, e2, e3⟩
  · rw [h1] at h3; cases h3
  rw [h1] at h3
  cases h3
  unfold At at d1 e1
  rw [d1] at e1
  cases e1
  have e : PageSeriesNode.parse k = .ok m' := PageSeriesNode.parse_iff.2 e2
  rw [PageSeriesNode.parse_iff.2 d2] at e
  cases e
  subst e3
  rw [h2, h4]
  show series.pages[j]? = some p ↔ ∃ c space, m.pageSpaces[j]? = some c ∧ _
  rcases each_getElem d3 j with ⟨f1, f2⟩ | ⟨c, q, f1, f2, space, f3, f4⟩
  · rw [f1, f2]; simp
  · rw [f1, f2]
    constructor
    · intro hq
      cases hq
      exact ⟨c, space, rfl, f3, f4⟩
    · rintro ⟨c', space', g1, g2, g3⟩
      cases g1
      rw [f3] at g2
      cases g2
      obtain ⟨m1, g3⟩ := (C43_page _ _).2 g3
      obtain ⟨m2, f4⟩ := (C43_page _ _).2 f4
      have g3 := refines_ok (refines_page (Nat.le_max_left m1 m2) space) g3
      have f4 := refines_ok (refines_page (Nat.le_max_right m1 m2) space) f4
      rw [g3] at f4
      cases f4
      rfl

/-- So what is changed in the object spaces of some pages shows on these pages only, as long as the
section can be read. -/
theorem C56_isolated_partial (fuel fuel' : Nat) (store store' : Store) (name : Text) (s s' : Section)
    (h : parseSectionStore fuel store name = .ok s)
    (h' : parseSectionStore fuel' store' name = .ok s') (hr : store'.dataRoot = store.dataRoot)
    (cells : List (List CellId)) (hc : PageCells store.dataRoot cells) (i j : Nat) (c : CellId)
    (hj : (cells[i]? >>= fun cs => cs[j]?) = some c)
    (hs : store'.objectSpace c = store.objectSpace c) : pageAt s' i j = pageAt s i j := by
  have a := C56_own_space_partial fuel store name s h cells hc i j
  have b := C56_own_space_partial fuel' store' name s' h' cells (hr ▸ hc) i j
  have key : ∀ p, pageAt s' i j = some p ↔ pageAt s i j = some p := by
    intro p
    rw [a, b]
    constructor
    · rintro ⟨d, space, h1, h2, h3⟩
      rw [hj] at h1
      cases h1
      exact ⟨c, space, hj, hs ▸ h2, h3⟩
    · rintro ⟨d, space, h1, h2, h3⟩
      rw [hj] at h1
      cases h1
      exact ⟨c, space, hj, hs.trans h2, h3⟩
  cases h1 : pageAt s i j with
  | some p => exact (key p).2 h1
  | none =>
    cases h2 : pageAt s' i j with
    | none => rfl
    | some p =>
      rw [(key p).1 h2] at h1
      cases h1

/-! ### A section with a damaged page -/

/-- The cells of two pages. -/
private def cell (n : Nat) : CellId := ⟨sx n, sx n⟩

/-- A section file with the pages of these numbers, from 5; each has the given contents and objects. -/
private def file (pages : List (Nat × List Nat × List SampleObject)) : Bytes :=
  storeFile sectionGuid [.root contentRole (sx 1000), .root metadataRole (sx 1001)]
    [sectionMetadataW none,
     objectW 1000 .sectionNode
       [(.notebookManagementEntityGuid, .vec (guid sampleGuid)), (.elementChildNodes, .objectIds 1),
        (.topologyCreationTimeStamp, .u64 0)] [1002],
     objectW 1002 .pageSeriesNode
       [(.notebookManagementEntityGuid, .vec (guid sampleGuid)),
        (.childGraphSpaceElementNodes, .objectSpaceIds pages.length)] [] (pages.map fun p => cell p.1)]
    (pages.map fun p => (cell p.1, p.1, [.root contentRole (sx 2002), .root metadataRole (sx 2001)],
      pageObjects p.2.1 p.2.2))

private def first : Nat × List Nat × List SampleObject := (5, [3001], [outlineW 3001 []])

private def shape (s : Section) : List (List Nat) :=
  s.pageSeries.map fun x => x.pages.map fun p => p.contents.length

private theorem file_plain {pages : List (Nat × List Nat × List SampleObject)}
    (h : PlainFile (file pages)) {n : Nat} (hr : ((readStore Order.id (file pages)).toOption.map fun _ => n) =
      some n) (fuel : Nat) (ord : Order) :
    parseSectionBuffer fuel ord (file pages) [] = parseSectionBuffer fuel Order.id (file pages) [] := by
  obtain ⟨store, hs, -⟩ := Option.map_eq_some_iff.1 hr
  exact any_order h (toOption_some hs) ord fuel []

/-- **Refuted**: the section file with the first page is shown, and so is the one with two such pages.
With a second page whose content is missing nothing is shown of the section, with any hash order. -/
theorem C56_damaged_page_refuted :
    ∃ intact damaged : Bytes,
      (∃ s, (∀ ord, parseSectionBuffer 2 ord intact [] = .ok s) ∧ shape s = [[1, 1]]) ∧
      intact = file [first, (6, [3001], [outlineW 3001 []])] ∧ damaged = file [first, (6, [3001], [])] ∧
      ∀ fuel ord, parseSectionBuffer fuel ord damaged [] = .error .malformedOneNote := by
  refine ⟨_, _, ?_, rfl, rfl, ?_⟩
  · have h : (parseSectionBuffer 2 Order.id (file [first, (6, [3001], [outlineW 3001 []])]) []).toOption.map
        shape = some [[1, 1]] := by decide +kernel
    obtain ⟨s, hs, he⟩ := Option.map_eq_some_iff.1 h
    refine ⟨s, fun ord => ?_, he⟩
    rw [file_plain (storeFile_plain (by decide +kernel) (by decide +kernel) (by decide +kernel)
      (by decide +kernel)) (n := 0) (by decide +kernel)]
    exact toOption_some hs
  · have h : (match parseSectionBuffer 0 Order.id (file [first, (6, [3001], [])]) [] with
        | .error e => some e
        | .ok _ => none) = some .malformedOneNote := by decide +kernel
    have h0 : parseSectionBuffer 0 Order.id (file [first, (6, [3001], [])]) [] =
        .error .malformedOneNote := by
      generalize parseSectionBuffer 0 Order.id (file [first, (6, [3001], [])]) [] = r at h
      cases r with
      | ok _ => cases h
      | error e => cases h; rfl
    intro fuel ord
    rw [file_plain (storeFile_plain (by decide +kernel) (by decide +kernel) (by decide +kernel)
      (by decide +kernel)) (n := 0) (by decide +kernel),
      C41_more_calls Order.id _ [] 0 fuel (Nat.zero_le _) (by rw [h0]; simp), h0]

/-- Two stores with the same first object space: the second page of one is empty. -/
example : ∃ store store' s s' cells c, parseSectionStore 2 store [] = .ok s ∧
    parseSectionStore 2 store' [] = .ok s' ∧ store'.dataRoot = store.dataRoot ∧
    PageCells store.dataRoot cells ∧ (cells[0]? >>= fun cs => cs[0]?) = some c ∧
    store'.objectSpace c = store.objectSpace c ∧ shape s = [[1, 1]] ∧ shape s' = [[1, 0]] := by
  have h : ((do
      let a ← (readStore Order.id (file [first, (6, [3001], [outlineW 3001 []])])).toOption
      let b ← (readStore Order.id (file [first, (6, [], [])])).toOption
      let space ← b.objectSpace (cell 6)
      let s ← (parseSectionStore 2 a []).toOption
      let s' ← (parseSectionStore 2 { a with
        objectSpaces := a.objectSpaces.insert (cell 6) space } []).toOption
      let o ← a.dataRoot.getObject (sx 1002)
      let n ← (PageSeriesNode.parse o).toOption
      let root ← a.dataRoot.contentRoot
      let k ← a.dataRoot.getObject root
      let m ← (SectionNode.parse k).toOption
      pure (shape s, shape s', n.pageSpaces, m.pageSeries)) : Option _) =
      some ([[1, 1]], [[1, 0]], [cell 5, cell 6], [sx 1002]) := by decide +kernel
  obtain ⟨a, -, h⟩ := Option.bind_eq_some_iff.1 h
  obtain ⟨b, -, h⟩ := Option.bind_eq_some_iff.1 h
  obtain ⟨space, -, h⟩ := Option.bind_eq_some_iff.1 h
  obtain ⟨s, h1, h⟩ := Option.bind_eq_some_iff.1 h
  obtain ⟨s', h2, h⟩ := Option.bind_eq_some_iff.1 h
  obtain ⟨o, h3, h⟩ := Option.bind_eq_some_iff.1 h
  obtain ⟨n, h4, h⟩ := Option.bind_eq_some_iff.1 h
  obtain ⟨root, h5, h⟩ := Option.bind_eq_some_iff.1 h
  obtain ⟨k, h6, h⟩ := Option.bind_eq_some_iff.1 h
  obtain ⟨m, h7, h⟩ := Option.bind_eq_some_iff.1 h
  have h := Option.some.inj h
  simp only [Prod.mk.injEq] at h
  refine ⟨a, _, s, s', [[cell 5, cell 6]], cell 5, toOption_some h1, toOption_some h2, rfl,
    ⟨root, k, m, h5, h6, SectionNode.parse_iff.1 (toOption_some h7), ?_⟩, rfl, ?_, h.1, h.2.1⟩
  · rw [h.2.2.2]
    exact .cons ⟨o, n, h3, PageSeriesNode.parse_iff.1 (toOption_some h4), h.2.2.1⟩ .nil
  · exact Map.get?_insert_ne _ _ _ _ (by decide)

#print axioms C56_page_cells
#print axioms C56_own_space_partial
#print axioms C56_isolated_partial
#print axioms C56_damaged_page_refuted

end OneNote
