/-
C93: Whatever notebook is parsed can be saved again.
-/
import Verif.Lemmas.Resaved
import Verif.Props.C71

namespace OneNote

open Spec Spec.Storable Spec.Writer Spec.Folder

/-- **Every notebook that is parsed can be stored**: its sections, the names of its section groups at
any depth and its color. No assumption is made about the file system and the files. -/
theorem C93_storable (env : Env) (n : Nat) (path : Path) (nb : Notebook)
    (h : parseNotebook env n path = .ok nb) : NotebookOk env.sanitise nb :=
  Resaved.notebook_ok (C48_notebook_sound env n path nb h)

/-- **Every notebook that can be stored can be saved on a disk**, and is then read back exactly. -/
theorem C93_saved (sanitise : Text → Text) (many : ManyNames sanitise) (nb : Notebook)
    (ok : NotebookOk sanitise nb) (hl : NotebookWithin nb) :
    ∃ toc saved, TocName toc ∧ EntriesOk sanitise toc saved nb.color ∧
      ∃ n, ∀ m, n ≤ m → ∀ fuel, n ≤ fuel → ∀ ord,
        parseNotebook ⟨disk (notebookItem toc saved nb.color), sanitise, ord, fuel⟩ m
          [.rootDir, .normal toc] = .ok nb := by
  obtain ⟨toc, saved, ht, h, he⟩ := Resaved.save many nb.entries nb.color ok.color
    (fun s hs => ⟨ok.sections s hs, hl.sections s hs⟩)
    (fun g hg => ⟨ok.groups g hg, hl.groups g hg⟩) hl.entries
  obtain ⟨n, hr⟩ := C71_read_back _ _ _ _ _ _ h (C71_can_be_saved _ _ _ _ h)
  rw [he] at hr
  exact ⟨toc, saved, ht, h, n, hr⟩

/-- **A notebook that was parsed from any directory can be saved again**: there are files for it from
which the same notebook is read. -/
theorem C93_saved_again (env : Env) (n : Nat) (path : Path) (nb : Notebook)
    (h : parseNotebook env n path = .ok nb) (many : ManyNames env.sanitise) (hl : NotebookWithin nb) :
    ∃ toc saved, TocName toc ∧ EntriesOk env.sanitise toc saved nb.color ∧
      ∃ n, ∀ m, n ≤ m → ∀ fuel, n ≤ fuel → ∀ ord,
        parseNotebook ⟨disk (notebookItem toc saved nb.color), env.sanitise, ord, fuel⟩ m
          [.rootDir, .normal toc] = .ok nb :=
  C93_saved _ many nb (C93_storable env n path nb h) hl

/-- **The notebooks that can be parsed are exactly those that can be stored**, among those within the
limits. -/
theorem C93_exactly (sanitise : Text → Text) (many : ManyNames sanitise) (nb : Notebook)
    (hl : NotebookWithin nb) :
    (∃ fs ord fuel n path, parseNotebook ⟨fs, sanitise, ord, fuel⟩ n path = .ok nb) ↔
      NotebookOk sanitise nb := by
  constructor
  · rintro ⟨fs, ord, fuel, n, path, h⟩
    exact C93_storable _ n path nb h
  · intro ok
    obtain ⟨toc, saved, -, -, n, h⟩ := C93_saved sanitise many nb ok hl
    exact ⟨_, Order.id, n, n, _, h n (Nat.le_refl _) n (Nat.le_refl _) Order.id⟩

/-- **There are enough names** for every sanitiser that does not change names of 26 letters. -/
theorem C93_many_names (sanitise : Text → Text)
    (h : ∀ t : Text, t.length = 26 → (∀ c ∈ t, c = 'a' ∨ c = 'b') → sanitise t = t) :
    ManyNames sanitise := Resaved.many_names h

/-! A notebook with a section, and a group with a section and an empty group. -/

private def inner : List SectionEntry :=
  [.sectionGroup ⟨"2019".toList, []⟩, .section SampleDocument.sect]

private def outer : Notebook :=
  ⟨[.section SampleDocument.sect, .sectionGroup ⟨"Old ^ things".toList, inner⟩], some ⟨255, 0, 128, 255⟩⟩

private theorem no_section {s : Section} : ¬ Among s [] := by
  intro h
  cases h with
  | entry h => cases h
  | group h _ => cases h

private theorem no_group {g : SectionGroup} : ¬ GroupAmong g [] := by
  intro h
  cases h with
  | entry h => cases h
  | group h _ => cases h

private theorem inner_sections {s : Section} (h : Among s inner) : s = SampleDocument.sect := by
  cases h with
  | entry h =>
    simp only [inner, List.mem_cons, List.not_mem_nil, or_false, reduceCtorEq, false_or,
      SectionEntry.section.injEq] at h
    exact h
  | group h h' =>
    simp only [inner, List.mem_cons, List.not_mem_nil, or_false, reduceCtorEq,
      SectionEntry.sectionGroup.injEq] at h
    subst h
    exact absurd h' no_section

private theorem outer_sections {s : Section} (h : Among s outer.entries) : s = SampleDocument.sect := by
  cases h with
  | entry h =>
    simp only [outer, List.mem_cons, List.not_mem_nil, or_false, reduceCtorEq,
      SectionEntry.section.injEq] at h
    exact h
  | group h h' =>
    simp only [outer, List.mem_cons, List.not_mem_nil, or_false, reduceCtorEq, false_or,
      SectionEntry.sectionGroup.injEq] at h
    subst h
    exact inner_sections h'

private theorem outer_groups {g : SectionGroup} (h : GroupAmong g outer.entries) :
    g = ⟨"Old ^ things".toList, inner⟩ ∨ g = ⟨"2019".toList, []⟩ := by
  cases h with
  | entry h =>
    simp only [outer, List.mem_cons, List.not_mem_nil, or_false, reduceCtorEq, false_or,
      SectionEntry.sectionGroup.injEq] at h
    exact .inl h
  | group h h' =>
    simp only [outer, List.mem_cons, List.not_mem_nil, or_false, reduceCtorEq, false_or,
      SectionEntry.sectionGroup.injEq] at h
    subst h
    cases h' with
    | entry h =>
      simp only [inner, List.mem_cons, List.not_mem_nil, or_false, reduceCtorEq,
        SectionEntry.sectionGroup.injEq] at h
      exact .inr h
    | group h h' =>
      simp only [inner, List.mem_cons, List.not_mem_nil, or_false, reduceCtorEq,
        SectionEntry.sectionGroup.injEq] at h
      subst h
      exact absurd h' no_group

private theorem outer_ok : NotebookOk (fun n => n) outer where
  sections s h := by rw [outer_sections h]; exact OneNote.SampleDocument.section_ok
  groups g h := by
    rcases outer_groups h with rfl | rfl
    · exact Folder.name_ok (by unfold FileName; decide +kernel) (by decide +kernel) (by decide +kernel)
        (by decide +kernel)
    · exact Folder.name_ok (by unfold FileName; decide +kernel) (by decide +kernel) (by decide +kernel)
        (by decide +kernel)
  color := fun _ h => by cases h; constructor <;> decide

private theorem outer_within : NotebookWithin outer where
  sections s h := by rw [outer_sections h]; exact C69_small_files _ (by decide +kernel)
  entries := ⟨by decide, by decide +kernel⟩
  groups g h := by
    rcases outer_groups h with rfl | rfl
    · exact ⟨⟨by decide, by decide +kernel⟩, by decide +kernel⟩
    · exact ⟨⟨by decide, by decide +kernel⟩, by decide +kernel⟩

/-- It can be parsed, and so it can be saved again. -/
example : ∃ fs ord fuel n path, parseNotebook ⟨fs, fun n => n, ord, fuel⟩ n path = .ok outer :=
  (C93_exactly _ (C93_many_names _ fun _ _ _ => rfl) _ outer_within).2 outer_ok

/-- A group with a slash in its name cannot be read from any disk. -/
example : ¬ ∃ fs ord fuel n path, parseNotebook ⟨fs, fun n => n, ord, fuel⟩ n path =
    .ok ⟨[.sectionGroup ⟨['a', '/', 'b'], []⟩], none⟩ := by
  rintro ⟨fs, ord, fuel, n, path, h⟩
  exact ((C93_storable _ _ _ _ h).groups _ (.entry List.mem_cons_self)).file.2.1 (by decide)

end OneNote

#print axioms OneNote.C93_storable
#print axioms OneNote.C93_saved
#print axioms OneNote.C93_saved_again
#print axioms OneNote.C93_exactly
#print axioms OneNote.C93_many_names
