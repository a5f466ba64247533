/-
C71: A notebook that is saved on a disk is read back exactly.
-/
import Verif.Lemmas.Folder
import Verif.Props.C48

namespace OneNote

open Spec Spec.Storable Spec.Writer Spec.Folder Folder

/-- **A notebook whose files are on the disk is read back exactly**: its sections and section groups, in
order and at any depth, and its color. It does not matter how the section files and the tables of
contents are named, in which order the directories are listed, what else is on the disk and in which
order the hash maps are visited. -/
theorem C71_read_back (fs : FileSystem) (sanitise : Text → Text) (dir : Path) (toc : Text)
    (entries : List Saved) (color : Option Color) (ok : EntriesOk sanitise toc entries color)
    (h : NotebookOnDisk fs dir toc entries color) :
    ∃ n, ∀ m, n ≤ m → ∀ fuel, n ≤ fuel → ∀ ord,
      parseNotebook ⟨fs, sanitise, ord, fuel⟩ m (dir ++ [.normal toc]) =
        .ok ⟨savedEntries entries, color⟩ :=
  C48_only_what_is_read _ _ _ _ (notebook_is ok h)

/-- **It can be saved**: the files of the notebook, alone on a disk, are such files. -/
theorem C71_can_be_saved (sanitise : Text → Text) (toc : Text) (entries : List Saved)
    (color : Option Color) (ok : EntriesOk sanitise toc entries color) :
    NotebookOnDisk (disk (notebookItem toc entries color)) [.rootDir] toc entries color :=
  saved_on_disk (names := []) ok rfl

/-- **Nothing is lost**: notebooks with the same files are the same. -/
theorem C71_nothing_lost (sanitise : Text → Text) (toc toc' : Text) (entries entries' : List Saved)
    (color color' : Option Color) (ok : EntriesOk sanitise toc entries color)
    (ok' : EntriesOk sanitise toc' entries' color')
    (h : notebookItem toc entries color = notebookItem toc' entries' color') :
    savedEntries entries = savedEntries entries' ∧ color = color' := by
  have ht : toc = toc' := by
    unfold notebookItem at h
    exact congrArg Prod.fst (List.cons.inj (Item.dir.inj h)).1
  subst ht
  have h1 := C71_can_be_saved sanitise toc entries color ok
  have h2 := C71_can_be_saved sanitise toc entries' color' ok'
  rw [← h] at h2
  obtain ⟨n, h1⟩ := C71_read_back _ _ _ _ _ _ ok h1
  obtain ⟨m, h2⟩ := C71_read_back _ _ _ _ _ _ ok' h2
  have h1 := h1 (n + m) (by omega) (n + m) (by omega) Order.id
  rw [h2 (n + m) (by omega) (n + m) (by omega) Order.id] at h1
  obtain ⟨a, b⟩ := Notebook.mk.inj (Except.ok.inj h1)
  exact ⟨a.symm, b.symm⟩

/-! A notebook with a section, and a group with a section and an empty group. -/

private def toc : Text := "Open Notebook.onetoc2".toList

private def inner : List Saved :=
  [.group "2019".toList toc [], .section "a, b + c.one".toList ⟨"a, b + c".toList, [], none⟩]

private def outer : List Saved :=
  [.section "Notes.one".toList SampleDocument.sect, .group "Old ^ things".toList toc inner]

private theorem toc_name : TocName toc := ⟨"Open Notebook".toList, by decide +kernel, by decide +kernel⟩

private theorem plain_section : SectionOk ⟨"a, b + c".toList, [], none⟩ where
  pages := fun _ h => (nomatch h)
  color := fun _ h => (nomatch h)
  plain := by decide +kernel
  stripped := by
    rintro ⟨t, h⟩
    have := congrArg List.getLast? h
    rw [show t ++ ['.', 'o', 'n', 'e'] = (t ++ ['.', 'o', 'n']) ++ ['e'] by simp, List.getLast?_concat] at this
    exact absurd this (by decide +kernel)

private theorem empty_ok : EntriesOk (fun n => n) toc [] none :=
  .mk (fun _ h => (nomatch h)) (by decide +kernel) (Writer.contents_small (by decide +kernel)) (fun _ h => (nomatch h))
    (fun _ _ h => (nomatch h)) (fun _ _ _ h => (nomatch h)) (fun _ _ _ h => (nomatch h))

private theorem inner_ok : EntriesOk (fun n => n) toc inner none := by
  refine .mk ?_ (by decide +kernel) (Writer.contents_small (by decide +kernel)) (fun _ h => (nomatch h)) ?_ ?_ ?_
  · unfold inner
    simp only [List.forall_mem_cons, Saved.name]
    exact ⟨name_ok (by unfold FileName; decide +kernel) (by decide +kernel) (by decide +kernel) (by decide +kernel),
      name_ok (by unfold FileName; decide +kernel) (by decide +kernel) (by decide +kernel) (by decide +kernel),
      fun _ h => (nomatch h)⟩
  · intro file s h
    simp only [inner, List.mem_cons, List.not_mem_nil, or_false, reduceCtorEq, false_or, Saved.section.injEq] at h
    obtain ⟨-, rfl⟩ := h
    exact ⟨plain_section, C69_small_files _ (by decide +kernel)⟩
  · intro name t es h
    simp only [inner, List.mem_cons, List.not_mem_nil, or_false, reduceCtorEq, Saved.group.injEq] at h
    obtain ⟨-, rfl, -⟩ := h
    exact toc_name
  · intro name t es h
    simp only [inner, List.mem_cons, List.not_mem_nil, or_false, reduceCtorEq, Saved.group.injEq] at h
    obtain ⟨-, rfl, rfl⟩ := h
    exact empty_ok

private theorem sample_ok : EntriesOk (fun n => n) toc outer (some ⟨255, 0, 128, 255⟩) := by
  refine .mk ?_ (by decide +kernel) (Writer.contents_small (by decide +kernel)) (fun _ h => by cases h; constructor <;> decide) ?_ ?_ ?_
  · unfold outer
    simp only [List.forall_mem_cons, Saved.name]
    exact ⟨name_ok (by unfold FileName; decide +kernel) (by decide +kernel) (by decide +kernel) (by decide +kernel),
      name_ok (by unfold FileName; decide +kernel) (by decide +kernel) (by decide +kernel) (by decide +kernel),
      fun _ h => (nomatch h)⟩
  · intro file s h
    simp only [outer, List.mem_cons, List.not_mem_nil, or_false, reduceCtorEq, Saved.section.injEq] at h
    obtain ⟨-, rfl⟩ := h
    exact ⟨OneNote.SampleDocument.section_ok, C69_small_files _ (by decide +kernel)⟩
  · intro name t es h
    simp only [outer, List.mem_cons, List.not_mem_nil, or_false, false_or, reduceCtorEq, Saved.group.injEq] at h
    obtain ⟨-, rfl, -⟩ := h
    exact toc_name
  · intro name t es h
    simp only [outer, List.mem_cons, List.not_mem_nil, or_false, false_or, reduceCtorEq, Saved.group.injEq] at h
    obtain ⟨-, rfl, rfl⟩ := h
    exact inner_ok

example (ord : Order) : ∃ n, parseNotebook
    ⟨disk (notebookItem toc outer (some ⟨255, 0, 128, 255⟩)), fun n => n, ord, n⟩ n
      [.rootDir, .normal toc] =
    .ok ⟨[.section SampleDocument.sect,
      .sectionGroup ⟨"Old ^ things".toList,
        [.sectionGroup ⟨"2019".toList, []⟩, .section ⟨"a, b + c".toList, [], none⟩]⟩],
      some ⟨255, 0, 128, 255⟩⟩ := by
  obtain ⟨n, h⟩ := C71_read_back _ _ _ _ _ _ sample_ok (C71_can_be_saved _ _ _ _ sample_ok)
  exact ⟨n, h n (Nat.le_refl _) n (Nat.le_refl _) ord⟩

end OneNote

#print axioms OneNote.C71_read_back
#print axioms OneNote.C71_can_be_saved
#print axioms OneNote.C71_nothing_lost
