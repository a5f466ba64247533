/-
The converse of `Lemmas.Written`: what a section read from a written file shows.
-/
import Verif.Lemmas.Written

namespace OneNote.Written

open Spec Spec.StoreContents Spec.Document

/-- A section read from the written file shows its page. -/
theorem page_read {page : List SampleObject} (hn : (page.map (·.id)).Nodup)
    (hg : ∀ o ∈ page, Good o) (hf : ∀ o ∈ page, Fitting o) {name : Text} {s : Section}
    (h : SectionFile (fileFor page) name s) :
    ∃ p, PageIs (spaceOf pageCell (sx 2002) (sx 2001) page) p ∧ s.pageSeries = [⟨[p]⟩] := by
  obtain ⟨store, ⟨q, hq, hs⟩, -, h⟩ := h
  obtain rfl := (contains_parse (file_parse hf) q).1 hq
  obtain ⟨header, hw⟩ := store_written
  have hsame := C46_unique _ _ _ (file_parse hf) (unambiguous_written page) _ _ (hw page hn hg) hs
  obtain ⟨fuel, hp⟩ := (C43_section _ _ _).2 h
  rw [← section_same hsame] at hp
  obtain ⟨info, m, metadata, root, o, n, a1, a2, a3, b1, b2, b3, -, hp, -⟩ :=
    (C43_section _ _ _).1 ⟨fuel, hp⟩
  cases b1
  cases b2
  obtain ⟨n', h1, h2⟩ := parsed (r := SectionNode.parse (objectOf dataCell
    (sectionObjects none 1)[1])) (·.pageSeries) (b := [sx 1002]) (by decide +kernel)
  obtain ⟨k', h5, h6⟩ := parsed (r := PageSeriesNode.parse (objectOf dataCell
    (sectionObjects none 1)[2])) (·.pageSpaces) (b := [pageCell]) (by decide +kernel)
  have e : SectionNode.parse (objectOf dataCell (sectionObjects none 1)[1]) = .ok n :=
    SectionNode.parse_iff.2 b3
  rw [h1] at e
  cases e
  rw [h2] at hp
  generalize s.pageSeries = ss at hp ⊢
  cases hp with
  | cons hx hp =>
    cases hp
    obtain ⟨o, k, c1, c2, c3⟩ := hx
    cases c1
    have e : PageSeriesNode.parse (objectOf dataCell (sectionObjects none 1)[2]) = .ok k :=
      PageSeriesNode.parse_iff.2 c2
    rw [h5] at e
    cases e
    rw [h6] at c3
    rename_i series
    obtain ⟨pages⟩ := series
    cases c3 with
    | cons hx c3 =>
      cases c3
      obtain ⟨space, d1, d2⟩ := hx
      cases d1
      exact ⟨_, d2, rfl⟩

/-- The content of a written page with one content. -/
theorem content_read {objs : List SampleObject}
    (hn : ((pageObjects [3001] objs).map (·.id)).Nodup) {p : Page}
    (h : PageIs (spaceOf pageCell (sx 2002) (sx 2001) (pageObjects [3001] objs)) p) :
    ∃ c, PageContentIs (spaceOf pageCell (sx 2002) (sx 2001) (pageObjects [3001] objs)) (sx 3001) c ∧
      p.contents = [c] := by
  obtain ⟨info, m, metadata, manifest, k, page, o, n, title, contents, -, -, -, a1, a2, a3, a4, a5,
    -, a6, rfl⟩ := h
  obtain ⟨manifest', b1, b2⟩ := parsed (r := PageManifestNode.parse (objectOf pageCell
    (pageObjects [3001] [])[1])) _root_.id (b := sx 2003) (by decide +kernel)
  obtain ⟨node, c1, c2⟩ := parsed (r := PageNode.parse (objectOf pageCell
    (pageObjects [3001] [])[2])) (·.content) (b := [sx 3001]) (by decide +kernel)
  have b2 : manifest' = sx 2003 := b2
  subst b2
  cases a1
  have hm := get_space (cell := pageCell) (content := sx 2002) (info := sx 2001) hn
    (.tail _ (.head _))
  have hm : At _ (sx 2002) _ := hm
  unfold At at a2 hm
  rw [hm] at a2
  cases a2
  have e : PageManifestNode.parse (objectOf pageCell (pageObjects [3001] [])[1]) = _ :=
    PageManifestNode.parse_iff.2 a3
  rw [b1] at e
  cases e
  have hm := get_space (cell := pageCell) (content := sx 2002) (info := sx 2001) hn
    (.tail _ (.tail _ (.head _)))
  have hm : At _ (sx 2003) _ := hm
  unfold At at a4 hm
  rw [hm] at a4
  cases a4
  have e : PageNode.parse (objectOf pageCell (pageObjects [3001] [])[2]) = _ :=
    PageNode.parse_iff.2 a5
  rw [c1] at e
  cases e
  rw [c2] at a6
  cases a6 with
  | cons hx a6 =>
    cases a6
    exact ⟨_, hx, rfl⟩

end OneNote.Written
