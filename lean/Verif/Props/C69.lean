/-
C69: Every document that the file format can store can be stored in a file, and is read back exactly.
-/
import Verif.Lemmas.WriteLength
import Verif.Lemmas.SampleDocument
import Verif.Props.C47

namespace OneNote

open Spec Spec.Document Spec.Storable Spec.Writer Writer

private theorem pairs_fit {s : Section} (h : 3 + (s.pageSeries.flatMap (·.pages)).length ≤ 2 ^ 32) (k : Nat)
    (p : Tree × Tree) (hk : (sectionTrees s :: allPages s)[k]? = some p) :
    p.1.Fits (2 + k) ∧ p.2.Fits (2 + k) := by
  cases k with
  | zero => cases hk; exact section_fits h
  | succ k =>
    obtain ⟨q, _, rfl⟩ := List.mem_map.1 (List.mem_of_getElem? hk)
    exact pageTrees_fit q

/-- The file has the section. -/
theorem written_section {s : Section} (ok : SectionOk s) (hl : SectionWithin s) (name : Text) :
    PlainFile (sectionFile s) ∧ SectionFile (sectionFile s) name s := by
  have hcount : 3 + (s.pageSeries.flatMap (·.pages)).length ≤ 2 ^ 32 := by
    have h := hl.count
    rw [total_sum, total] at h
    have c := pages_total (allPages s)
    have d := Tree.size_pos (sectionTrees s).1
    have e := Tree.size_pos (sectionTrees s).2
    have f : (allPages s).length = (s.pageSeries.flatMap (·.pages)).length := List.length_map _
    omega
  obtain ⟨h1, h2⟩ := limits_fit hl (pairs_fit hcount)
  obtain ⟨h3, store, h4, h5, h6, h7⟩ := tree_file h1 (by rw [allPages, List.length_map]; omega) (by omega)
  refine ⟨h3, store, h4, h5, section_is ok h6 (fun k p hk => ?_) name⟩
  obtain ⟨space, h8, h9⟩ := h7 k (pageTrees p) (by rw [allPages, List.getElem?_map, hk]; rfl)
  obtain ⟨series, hs, hp⟩ := List.mem_flatMap.1 (List.mem_of_getElem? hk)
  exact ⟨space, h8, page_is (ok.pages series hs p hp) h9⟩

/-- **Every section that can be stored is read back exactly from its file**, whatever the name of the
file and in every order of the hash maps, if it is within the limits of the file format. -/
theorem C69_round_trip (s : Section) (ok : SectionOk s) (hl : SectionWithin s) (name : Text) :
    ∃ fuel, ∀ ord, parseSectionBuffer fuel ord (sectionFile s) name = .ok s := by
  obtain ⟨h1, h2⟩ := written_section ok hl name
  exact C47_section_complete _ name s h1 h2

/-- Every section with a file of less than 256 MB is within the limits. -/
theorem C69_small_files (s : Section) (hl : (sectionFile s).length < 2 ^ 28) : SectionWithin s := by
  have hel := Nat.lt_of_le_of_lt (file_elements _ _ _) hl
  have hcount : (s.pageSeries.flatMap (·.pages)).length < 2 ^ 28 := by
    have := elements_count (cellsFrom 2 1 (sectionTrees s :: allPages s))
    have b := congrArg List.length (cells_ids 2 1 (sectionTrees s :: allPages s))
    have c := pages_total (sectionTrees s :: allPages s)
    rw [List.length_map, List.length_range'] at b
    rw [List.length_cons, allPages, List.length_map] at c
    unfold fileElements at hel
    simp only [listW_append, List.length_append] at hel
    unfold allPages at *
    omega
  exact limits_of_short (pairs_fit (by omega)) hel

/-- **Different sections have different files**: nothing of a section that can be stored is lost. -/
theorem C69_nothing_lost (s t : Section) (hs : SectionOk s) (ht : SectionOk t) (ls : SectionWithin s)
    (lt : SectionWithin t) (h : sectionFile s = sectionFile t) : s = t := by
  obtain ⟨h1, h2⟩ := written_section hs ls []
  obtain ⟨_, h4⟩ := written_section ht lt []
  rw [← h] at h4
  exact C47_unique _ [] s t h1 h2 h4

/-! A section with texts, a note tag, a formula, a table, a list, an image, a file and drawings. -/

example : SectionOk SampleDocument.sect ∧ SectionWithin SampleDocument.sect :=
  ⟨OneNote.SampleDocument.section_ok, C69_small_files _ (by decide +kernel)⟩

example (ord : Order) : ∃ fuel, parseSectionBuffer fuel ord (sectionFile SampleDocument.sect) [] =
    .ok SampleDocument.sect := by
  obtain ⟨fuel, h⟩ := C69_round_trip _ OneNote.SampleDocument.section_ok (C69_small_files _ (by decide +kernel)) []
  exact ⟨fuel, h ord⟩

/-! Attachments of any size that the format can store. -/

private def attached (data : Bytes) : Section :=
  ⟨['s'], [⟨[⟨none, 1, none, none, [.embeddedFile { (default : EmbeddedFile) with data := data }]⟩]⟩], none⟩

private theorem attached_within (data : Bytes) (h : data.length < 2 ^ 64) : SectionWithin (attached data) := by
  have h0 : SectionWithin (attached []) := C69_small_files _ (by decide +kernel)
  refine ⟨fun p hp => ?_, h0.count⟩
  rcases List.mem_cons.1 hp with rfl | hp
  · exact h0.objects _ List.mem_cons_self
  · replace hp : p = pageTrees ⟨none, 1, none, none, [.embeddedFile { (default : EmbeddedFile) with data := data }]⟩ :=
      List.mem_singleton.1 hp
    subst hp
    obtain ⟨h1, h2⟩ := h0.objects _ (List.mem_cons_of_mem _ List.mem_cons_self)
    refine ⟨?_, h2⟩
    cases h1 with
    | mk a1 a2 a3 a4 a5 a6 =>
    refine .mk a1 a2 a3 a4 a5 fun t ht => ?_
    cases List.mem_singleton.1 ht
    cases a6 _ List.mem_cons_self with
    | mk b1 b2 b3 b4 b5 b6 =>
    refine .mk b1 b2 b3 b4 b5 fun t ht => ?_
    cases List.mem_singleton.1 ht
    cases b6 _ List.mem_cons_self with
    | mk c1 c2 c3 c4 c5 c6 =>
    refine .mk c1 c2 c3 c4 c5 fun t ht => ?_
    cases List.mem_singleton.1 ht
    cases c6 _ List.mem_cons_self with
    | mk d1 d2 d3 d4 d5 d6 =>
    exact .mk (fun d hd => by cases hd; exact h) d2 d3 d4 d5 d6

private theorem attached_ok (data : Bytes) : SectionOk (attached data) where
  pages := by
    intro series hs p hp
    cases List.mem_singleton.1 hs
    cases List.mem_singleton.1 hp
    refine ⟨fun _ h => (nomatch h), by show _ ≤ (1 : Int) ∧ (1 : Int) < _; decide,
      fun _ h => (nomatch h), fun _ h => (nomatch h), fun c hc => ?_⟩
    cases List.mem_singleton.1 hc
    exact ⟨show Plain [] by decide, fun _ h => (nomatch h), fun _ h => (nomatch h), fun _ h => (nomatch h),
      fun _ h => (nomatch h), fun _ h => (nomatch h), fun _ h => (nomatch h)⟩
  color := fun _ h => (nomatch h)
  plain := show Plain ['s'] by decide
  stripped := by
    rintro ⟨t, h⟩
    have := congrArg List.length h
    simp [attached] at this

example (data : Bytes) (h : data.length < 2 ^ 64) (ord : Order) : ∃ fuel,
    parseSectionBuffer fuel ord (sectionFile (attached data)) [] = .ok (attached data) := by
  obtain ⟨fuel, h⟩ := C69_round_trip (attached data) (attached_ok data) (attached_within data h) []
  exact ⟨fuel, h ord⟩

end OneNote

#print axioms OneNote.C69_round_trip
#print axioms OneNote.C69_small_files
#print axioms OneNote.C69_nothing_lost
