/-
C70: Whatever is parsed can be stored: the numbers and texts of a parsed document fit the file format.
-/
import Verif.Lemmas.Resaved
import Verif.Props.C48
import Verif.Props.C69

namespace OneNote

open Spec Spec.Document Spec.Storable Spec.Writer

/-- **Every section that is parsed can be stored.** No assumption is made about the bytes. The name of
a section without a stored name is that of its file, which must have no NUL. -/
theorem C70_storable (fuel : Nat) (ord : Order) (data : Bytes) (name : Text) (s : Section)
    (hn : nul ∉ name) (h : parseSectionBuffer fuel ord data name = .ok s) : SectionOk s := by
  obtain ⟨store, hf, _, hi⟩ := C47_section_sound fuel ord data name s h
  obtain ⟨h1, h2⟩ := Bounded.store_fits hf
  exact Bounded.section_ok h1 h2 hn hi

/-- **The sections that can be parsed are exactly those that can be stored**, among those within
the limits of the file format. -/
theorem C70_exactly (s : Section) (hl : SectionWithin s) (name : Text) (hn : nul ∉ name) :
    (∃ fuel ord data, parseSectionBuffer fuel ord data name = .ok s) ↔ SectionOk s := by
  constructor
  · rintro ⟨fuel, ord, data, h⟩
    exact C70_storable fuel ord data name s hn h
  · intro ok
    obtain ⟨fuel, h⟩ := C69_round_trip s ok hl name
    exact ⟨fuel, Order.id, _, h Order.id⟩

/-- **A section that was parsed from any file can be written again**, and reading the new file gives
the same section. -/
theorem C70_written_again (fuel : Nat) (ord : Order) (data : Bytes) (name : Text) (s : Section)
    (hn : nul ∉ name) (h : parseSectionBuffer fuel ord data name = .ok s)
    (hl : SectionWithin s) (name' : Text) :
    ∃ fuel', ∀ ord', parseSectionBuffer fuel' ord' (sectionFile s) name' = .ok s :=
  C69_round_trip s (C70_storable fuel ord data name s hn h) hl name'

/-- **Every section of a parsed notebook can be stored**, also those in section groups. No assumption
is made about the file system: the names of files are read from tables of contents and have no NUL. -/
theorem C70_notebook (env : Env) (n : Nat) (path : Path) (nb : Notebook)
    (h : parseNotebook env n path = .ok nb) (s : Section) (hs : Among s nb.entries) : SectionOk s :=
  Resaved.sections_ok (C48_notebook_sound env n path nb h) hs

/-- Parsed from a file that the writer did not write: the name is that of the file. -/
example : ∃ s, parseSectionBuffer 0 Order.id (emptySectionFile none) ['a'] = .ok s ∧ SectionOk s ∧
    s.displayName = ['a'] := by
  have key : (parseSectionBuffer 0 Order.id (emptySectionFile none) ['a']).toOption.map (·.displayName) =
    some ['a'] := by decide +kernel
  obtain ⟨s, h, hd⟩ := Option.map_eq_some_iff.1 key
  have h := toOption_some h
  exact ⟨s, h, C70_storable _ _ _ _ _ (by decide) h, hd⟩

/-- With all kinds of contents. -/
example : ∃ fuel ord data, parseSectionBuffer fuel ord data [] = .ok SampleDocument.sect :=
  (C70_exactly _ (C69_small_files _ (by decide +kernel)) [] (by decide)).2 OneNote.SampleDocument.section_ok

end OneNote

#print axioms OneNote.C70_storable
#print axioms OneNote.C70_exactly
#print axioms OneNote.C70_written_again
#print axioms OneNote.C70_notebook
