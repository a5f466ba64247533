/-
C48: From the files to the notebook: a notebook shows exactly what is written in its files.
-/
import Verif.Lemmas.WholeNotebook
import Verif.Spec.SampleFile
import Verif.Lemmas.PlainSamples

namespace OneNote

open Spec Spec.StoreContents Spec.Document PlainSamples

/-- **Whatever a notebook is parsed as is written in its files**: the names in the tables of contents
and their order, the sections in the section files and the section groups in the directories. No
assumption is made about the files. -/
theorem C48_notebook_sound (env : Env) (n : Nat) (path : Path) (nb : Notebook)
    (h : parseNotebook env n path = .ok nb) : NotebookIs env.fs env.sanitise path nb :=
  notebook_sound h

/-- **A notebook that is written in the files is read**, in every order of the hash maps, if the files
have no ambiguities (see `C24`). Neither the depth of the directories nor the nested calls are limited
in the code. -/
theorem C48_notebook_complete (fs : FileSystem) (sanitise : Text → Text) (path : Path) (nb : Notebook)
    (hu : PlainFiles fs) (h : NotebookIs fs sanitise path nb) :
    ∃ n, ∀ m, n ≤ m → ∀ fuel, n ≤ fuel → ∀ ord,
      parseNotebook ⟨fs, sanitise, ord, fuel⟩ m path = .ok nb :=
  notebook_complete hu h

/-- Only the files that are read must be without ambiguities: it does not matter what else is on the
disk. -/
theorem C48_only_what_is_read (fs : FileSystem) (sanitise : Text → Text) (path : Path) (nb : Notebook)
    (h : NotebookIs (plainPart fs) sanitise path nb) :
    ∃ n, ∀ m, n ≤ m → ∀ fuel, n ≤ fuel → ∀ ord,
      parseNotebook ⟨fs, sanitise, ord, fuel⟩ m path = .ok nb :=
  notebook_read h

/-- Exactly. -/
theorem C48_notebook_exactly (fs : FileSystem) (sanitise : Text → Text) (path : Path) (nb : Notebook)
    (hu : PlainFiles fs) (ord : Order) :
    (∃ n fuel, parseNotebook ⟨fs, sanitise, ord, fuel⟩ n path = .ok nb) ↔
      NotebookIs fs sanitise path nb := by
  constructor
  · rintro ⟨n, fuel, h⟩
    exact notebook_sound h
  · intro h
    obtain ⟨n, hn⟩ := notebook_complete hu h
    exact ⟨n, n, hn n (Nat.le_refl _) n (Nat.le_refl _) ord⟩

/-- The files say at most one thing. -/
theorem C48_unique (fs : FileSystem) (sanitise : Text → Text) (path : Path) (nb nb' : Notebook)
    (hu : PlainFiles fs) (h : NotebookIs fs sanitise path nb) (h' : NotebookIs fs sanitise path nb') :
    nb = nb' := by
  obtain ⟨m, hm⟩ := notebook_complete hu h
  obtain ⟨n, hn⟩ := notebook_complete hu h'
  have hm := hm (m + n) (by omega) (m + n) (by omega) Order.id
  rw [hn (m + n) (by omega) (m + n) (by omega) Order.id] at hm
  cases hm
  rfl

/-! ### A notebook -/

/-- A table of contents `t` with the section `s` and the group `g`, in which the section `r` is. -/
private def sample : FileSystem where
  pathExists p := decide (p ∈ [[.rootDir, .normal ['t']], [.rootDir, .normal ['s']],
    [.rootDir, .normal ['g']], [.rootDir, .normal ['g'], .normal ['r']]])
  isFile p := decide (p ≠ [.rootDir, .normal ['g']])
  canonicalize := some
  readDir _ := some [some ['r'], some "t.onetoc2".toList, none]
  read p :=
    if p = [.rootDir, .normal ['t']] then some (tocFile [(2, ['g']), (1, ['s'])])
    else if p = [.rootDir, .normal ['s']] then some (emptySectionFile none)
    else if p = [.rootDir, .normal ['g'], .normal "t.onetoc2".toList] then
      some (tocFile [(1, ['r'])])
    else if p = [.rootDir, .normal ['g'], .normal ['r']] then some (emptySectionFile none)
    else none

private theorem sample_plain : PlainFiles sample := by
  have h1 := toc_plain [(2, ['g']), (1, ['s'])] (by decide +kernel)
      (package_unambiguous (by decide +kernel) (by decide +kernel) (by decide +kernel))
  have h2 := toc_plain [(1, ['r'])] (by decide +kernel)
      (package_unambiguous (by decide +kernel) (by decide +kernel) (by decide +kernel))
  have h3 := section_plain
  intro path data h
  unfold sample at h
  dsimp only at h
  split at h
  · cases h; exact h1
  split at h
  · cases h; exact h3
  split at h
  · cases h; exact h2
  split at h
  · cases h; exact h3
  · cases h

/-- The names of the entries of a notebook, with the names of the entries of its groups. -/
private def names (nb : Notebook) : List (Text × List Text) :=
  nb.entries.map fun
    | .section s => (s.displayName, [])
    | .sectionGroup g => (g.displayName, g.entries.map fun
      | .section s => s.displayName
      | .sectionGroup g => g.displayName)

/-- Files without ambiguities in which a notebook with a section and a section group is written. -/
example : ∃ fs path nb, PlainFiles fs ∧ NotebookIs fs id path nb ∧
    names nb = [(['s'], []), (['g'], [['r']])] := by
  have h : (parseNotebook ⟨sample, id, Order.id, 3⟩ 2 [.rootDir, .normal ['t']]).toOption.map names =
      some [(['s'], []), (['g'], [['r']])] := by
    decide +kernel
  obtain ⟨nb, hn, he⟩ := Option.map_eq_some_iff.1 h
  exact ⟨_, _, nb, sample_plain, C48_notebook_sound _ _ _ _ (toOption_some hn), he⟩

#print axioms C48_notebook_sound
#print axioms C48_notebook_complete
#print axioms C48_notebook_exactly
#print axioms C48_unique

end OneNote
