/-
C73: Deleting section files and section groups leaves the rest of the notebook as it was.
-/
import Verif.Lemmas.Located
import Verif.Lemmas.Terminates
import Verif.Spec.SampleFile

namespace OneNote

open Spec

/-- **Every entry has its place**: the entries of a notebook, at any depth, are the sections in the
files and the groups in the directories that the tables of contents lead to. -/
theorem C73_places (env : Env) (path : Path) (nb : Notebook) :
    (∃ n, parseNotebook env n path = .ok nb) ↔
      ∃ es, Opens env path es nb.color ∧ Located.entries es = nb.entries := by
  constructor
  · rintro ⟨n, h⟩
    exact opens_of_parse env n path nb h
  · rintro ⟨es, h, he⟩
    obtain ⟨n, hn⟩ := parse_of_opens h
    exact ⟨n, by rw [hn n (Nat.le_refl _), he]⟩

/-- **Deleting files or directories of a notebook removes their entries, and nothing else changes**:
the notebook is read as before, without those entries. The tables of contents still list them. -/
theorem C73_deleted (env : Env) (fs' : FileSystem) (gone : Path → Bool) (path : Path) (nb : Notebook)
    (n : Nat) (h : parseNotebook env n path = .ok nb) (hd : Deleted gone env.fs fs')
    (hg : gone path = false) :
    ∃ es, Opens env path es nb.color ∧ Located.entries es = nb.entries ∧
      ∃ m, ∀ k, m ≤ k → parseNotebook { env with fs := fs' } k path =
        .ok ⟨Located.entries (Located.prune gone es), nb.color⟩ := by
  obtain ⟨es, ho, he⟩ := opens_of_parse env n path nb h
  exact ⟨es, ho, he, parse_of_opens (opens_deleted hd ho hg)⟩

/-! ### A notebook with two sections and a group, and what is left of it -/

private def sample : FileSystem where
  pathExists p := decide (p ∈ [[.rootDir, .normal ['t']], [.rootDir, .normal ['s']],
    [.rootDir, .normal ['g']], [.rootDir, .normal ['g'], .normal ['r']],
    [.rootDir, .normal ['g'], .normal ['q']]])
  isFile p := decide (p ≠ [.rootDir, .normal ['g']])
  canonicalize := some
  readDir _ := some [some ['q'], some ['r'], some "t.onetoc2".toList]
  read p :=
    if p = [.rootDir, .normal ['t']] then some (tocFile [(2, ['g']), (1, ['s'])])
    else if p = [.rootDir, .normal ['g'], .normal "t.onetoc2".toList] then
      some (tocFile [(1, ['r']), (2, ['q'])])
    else some (emptySectionFile none)

/-- The section `s` and the section `r` in the group are deleted. -/
private def gone (p : Path) : Bool :=
  [Component.rootDir, .normal ['s']].isPrefixOf p ||
    [Component.rootDir, .normal ['g'], .normal ['r']].isPrefixOf p

private def left : FileSystem where
  pathExists p := sample.pathExists p && !gone p
  isFile := sample.isFile
  canonicalize := some
  readDir p := (sample.readDir p).map (leftIn gone p)
  read p := if gone p then none else sample.read p

private theorem left_deleted : Deleted gone sample left where
  whole dir c h := by
    unfold gone at h ⊢
    simp only [Bool.or_eq_true, List.isPrefixOf_iff_prefix] at h ⊢
    rcases h with h | h
    · exact .inl (List.IsPrefix.trans h (List.prefix_append _ _))
    · exact .inr (List.IsPrefix.trans h (List.prefix_append _ _))
  tocs dir name ht h := by
    refine Bool.eq_false_iff.2 fun hc => ?_
    refine absurd h ?_
    rw [Bool.not_eq_false]
    have short : name.length ≠ 1 := by
      obtain ⟨stem, -, rfl⟩ := ht
      simp
    unfold gone at hc ⊢
    simp only [Bool.or_eq_true, List.isPrefixOf_iff_prefix, List.prefix_concat_iff] at hc ⊢
    have key : ∀ (l : Path) (c : Char), dir ++ [.normal name] ≠ l ++ [.normal [c]] := by
      intro l c h
      have := (List.append_inj' h rfl).2
      cases this
      exact short rfl
    rcases hc with (h | h) | (h | h)
    · exact absurd h.symm (key [.rootDir] 's')
    · exact .inl h
    · exact absurd h.symm (key [.rootDir, .normal ['g']] 'r')
    · exact .inr h
  pathExists _ := rfl
  readDir _ _ := rfl
  isFile _ _ := rfl
  canonicalize _ _ := rfl
  read p h := by
    unfold left
    dsimp only
    rw [h]
    rfl

/-- The names of the entries of a notebook, with the names of the entries of its groups. -/
private def names (nb : Notebook) : List (Text × List Text) :=
  nb.entries.map fun
    | .section s => (s.displayName, [])
    | .sectionGroup g => (g.displayName, g.entries.map fun
      | .section s => s.displayName
      | .sectionGroup g => g.displayName)

example : ∃ env fs' gone path nb, parseNotebook env 3 path = .ok nb ∧ Deleted gone env.fs fs' ∧
    gone path = false ∧ names nb = [(['s'], []), (['g'], [['r'], ['q']])] ∧
    ((parseNotebook { env with fs := fs' } 3 path).toOption.map names) = some [(['g'], [['q']])] := by
  have h : (parseNotebook ⟨sample, id, Order.id, 3⟩ 3 [.rootDir, .normal ['t']]).toOption.map names =
      some [(['s'], []), (['g'], [['r'], ['q']])] := by
    decide +kernel
  obtain ⟨nb, hn, he⟩ := Option.map_eq_some_iff.1 h
  exact ⟨⟨sample, id, Order.id, 3⟩, left, gone, _, nb, toOption_some hn, left_deleted, by decide, he,
    by decide +kernel⟩

#print axioms C73_places
#print axioms C73_deleted

end OneNote
