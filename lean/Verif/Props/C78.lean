/-
C78: Editing sections of a notebook changes only these sections.
-/
import Verif.Lemmas.Edited
import Verif.Lemmas.Terminates
import Verif.Spec.SampleFile

namespace OneNote

open Spec Edited

/-- **Editing section files changes only their sections.** If section files of a notebook are replaced
by other section files, then the notebook is still read, with the new sections where those files
are, at any depth. All other sections, the groups, their names and order and the color are as before. -/
theorem C78_edited (env : Env) (files : Path → Option Bytes) (new : Path → Option Section)
    (hr : Replaced env files new) (n : Nat) (path : Path) (nb : Notebook)
    (h : parseNotebook env n path = .ok nb) :
    ∃ es, Opens env path es nb.color ∧ Located.entries es = nb.entries ∧
      ∃ m, ∀ k, m ≤ k → parseNotebook (withFiles env files) k path =
        .ok ⟨Located.entries (Located.revise new es), nb.color⟩ := by
  obtain ⟨es, ho, he⟩ := opens_of_parse env n path nb h
  exact ⟨es, ho, he, parse_of_opens (opens_new hr ho)⟩

/-- The edited sections are those in the edited files: for any other file nothing changes. -/
theorem C78_others (new : Path → Option Section) (es : List Located)
    (h : ∀ p s, new p = some s → ¬ Located.HasFile p es) : Located.revise new es = es := by
  match es with
  | [] => rfl
  | .file p s :: es =>
    have hn : new p = none := by
      cases hn : new p with
      | none => rfl
      | some s' => exact absurd .here (h p s' hn)
    rw [Located.revise, Located.revised, hn,
      C78_others new es fun p s hp hf => h p s hp (.later hf)]
    rfl
  | .directory p name inner :: es =>
    rw [Located.revise, Located.revised, C78_others new inner fun p s hp hf => h p s hp (.inside hf),
      C78_others new es fun p s hp hf => h p s hp (.later hf)]

/-! ### A notebook with a section in a group -/

private def disk (group : Bytes) : FileSystem where
  pathExists _ := true
  isFile p := decide (p ≠ [.rootDir, .normal ['g']])
  canonicalize := some
  readDir _ := some [some ['r'], some "t.onetoc2".toList]
  read p :=
    if p = [.rootDir, .normal ['t']] then some (tocFile [(2, ['g']), (1, ['s'])])
    else if p = [.rootDir, .normal ['g'], .normal "t.onetoc2".toList] then some (tocFile [(1, ['r'])])
    else if p = [.rootDir, .normal ['g'], .normal ['r']] then some group
    else some (emptySectionFile none)

private def env (group : Bytes) : Env := ⟨disk group, id, Order.id, 3⟩

private def before : Bytes := emptySectionFile none

private def after : Bytes := sectionFile (some ['n', 'e', 'w']) [3001] [outlineW 3001 []]

private def place : Path := [.rootDir, .normal ['g'], .normal ['r']]

/-- The names and numbers of pages of the entries, those of groups in brackets. -/
private def names (nb : Notebook) : List (Text × List (Text × Nat)) :=
  nb.entries.map fun
    | .section s => (s.displayName, [([], s.pageSeries.length)])
    | .sectionGroup g => (g.displayName, g.entries.map fun
      | .section s => (s.displayName, s.pageSeries.length)
      | .sectionGroup g => (g.displayName, 0))

private theorem read_ok (group : Bytes) {n : Nat}
    (h : (parseSectionFile (env group) place).toOption.map (fun s => s.pageSeries.length) = some n) :
    ∃ s, parseSectionFile (env group) place = .ok s := by
  obtain ⟨s, hs, -⟩ := Option.map_eq_some_iff.1 h
  exact ⟨s, toOption_some hs⟩

/-- The section in the group is replaced. -/
example : ∃ (e : Env) (files : Path → Option Bytes) (new : Path → Option Section) (path : Path)
    (nb : Notebook),
    Replaced e files new ∧ parseNotebook e 3 path = .ok nb ∧
    names nb = [(['s'], [([], 1)]), (['g'], [(['r'], 1)])] ∧
    (parseNotebook (withFiles e files) 3 path).toOption.map names =
      some [(['s'], [([], 1)]), (['g'], [(['n', 'e', 'w'], 1)])] := by
  have h : (parseNotebook (env before) 3 [.rootDir, .normal ['t']]).toOption.map names =
      some [(['s'], [([], 1)]), (['g'], [(['r'], 1)])] := by
    decide +kernel
  have h' : (parseNotebook (withFiles (env before) (disk after).read) 3
      [.rootDir, .normal ['t']]).toOption.map names =
      some [(['s'], [([], 1)]), (['g'], [(['n', 'e', 'w'], 1)])] := by
    decide +kernel
  obtain ⟨nb, hn, he⟩ := Option.map_eq_some_iff.1 h
  obtain ⟨s, hs⟩ := read_ok before (n := 1) (by decide +kernel)
  obtain ⟨s', hs'⟩ := read_ok after (n := 1) (by decide +kernel)
  refine ⟨env before, (disk after).read, fun p => if p = place then some s' else none,
    [.rootDir, .normal ['t']], nb, ⟨fun p hp => ?_, fun p x hp => ?_, fun p x hp => ?_⟩,
    toOption_some hn, he, h'⟩
  · have hne : p ≠ place := by
      intro e
      rw [if_pos e] at hp
      cases hp
    show (disk after).read p = (disk before).read p
    unfold disk
    dsimp only
    unfold place at hne
    rw [if_neg hne, if_neg hne]
  · by_cases e : p = place
    · subst e
      exact ⟨s, hs⟩
    · rw [if_neg e] at hp
      cases hp
  · by_cases e : p = place
    · subst e
      rw [if_pos rfl] at hp
      cases hp
      exact hs'
    · rw [if_neg e] at hp
      cases hp

#print axioms C78_edited
#print axioms C78_others

end OneNote
