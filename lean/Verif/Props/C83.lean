/-
C83: Every part of a notebook can be opened on its own and is shown as in the notebook.
-/
import Verif.Props.C35
import Verif.Lemmas.Fuel
import Verif.Lemmas.Path
import Verif.Lemmas.Terminates
import Verif.Spec.Sections
import Verif.Spec.SampleFile

namespace OneNote

open Spec

/-- What one entry of a notebook is: a file or a directory below the directory of the notebook. -/
private theorem entry_place (env : Env) (n : Nat) (path : Path) (nb : Notebook)
    (h : parseNotebook env n path = .ok nb) (x : SectionEntry) (hx : x ∈ nb.entries) :
    ∃ base p m, Path.parent path = some base ∧ n = m + 1 ∧ Below base p ∧ Inside env.fs base p ∧
      EntryAt env.fs (fun p s => parseSectionFile env p = .ok s)
        (fun p nb => parseNotebook env m p = .ok nb) p x := by
  cases n with
  | zero => cases h
  | succ n =>
    obtain ⟨base, names, color, paths, ⟨-, hb⟩, hp, -, he⟩ := (C35_entries env n path nb).1 h
    obtain ⟨p, hk, hat⟩ := each_mem he hx
    obtain ⟨hk, hex⟩ := List.mem_filter.1 hk
    obtain ⟨name, -, hr⟩ := each_mem hp hk
    obtain ⟨⟨ns, hne, hok, e⟩, hin⟩ := resolveEntryPath_ok hr
    exact ⟨base, p, n, hb, rfl, ⟨ns, hne, fun x hx => (hok x hx).1, e⟩,
      hin (by simp only [Bool.and_eq_true] at hex; exact hex.1), hat⟩

private theorem more (env : Env) (m n : Nat) (hmn : m ≤ n) (path : Path) (nb : Notebook)
    (h : parseNotebook env m path = .ok nb) : parseNotebook env n path = .ok nb := by
  rcases refines_notebook env (Nat.le_refl env.fuel) hmn path with h' | h'
  · cases h.symm.trans h'
  · exact h'.symm.trans h

private theorem parent_toc (p : Path) (toc : Text) : Path.parent (p ++ [.normal toc]) = some p :=
  parent_join p toc

/-- **A section group is a notebook**: for every section group shown, at any depth, there is a directory
below that of the notebook with the name of the group. The first table of contents in it can be opened
as a notebook, and that notebook has the entries of the group. -/
theorem C83_groups (env : Env) (n : Nat) (path base : Path) (nb : Notebook)
    (h : parseNotebook env n path = .ok nb) (hb : Path.parent path = some base) (g : SectionGroup)
    (hg : GroupAmong g nb.entries) :
    ∃ dir toc before after color, Below base dir ∧ dir.getLast? = some (.normal g.displayName) ∧
      env.fs.readDir dir = some (before ++ some toc :: after) ∧ NoToc before ∧ TocName toc ∧
      parseNotebook env n (dir ++ [.normal toc]) = .ok ⟨g.entries, color⟩ := by
  generalize hes : nb.entries = es at hg
  induction hg generalizing nb path base n with
  | entry hm =>
    subst hes
    obtain ⟨base', p, m, hb', rfl, hbel, -, hat⟩ := entry_place env n path nb h _ hm
    cases hb.symm.trans hb'
    cases hat with
    | directory name toc before after nb' h1 h2 h3 h4 h5 h6 =>
      exact ⟨p, toc, before, after, nb'.color, hbel, h2, h3, h4, h5,
        more env m (m + 1) (by omega) _ _ h6⟩
  | @group es g' hm _ ih =>
    subst hes
    obtain ⟨base', p, m, hb', rfl, hbel, -, hat⟩ := entry_place env n path nb h _ hm
    cases hb.symm.trans hb'
    cases hat with
    | directory name toc before after nb' h1 h2 h3 h4 h5 h6 =>
      obtain ⟨dir, toc', b', a', c', k1, k2, k3, k4, k5, k6⟩ := ih m _ p nb' h6 (parent_toc p toc) rfl
      exact ⟨dir, toc', b', a', c', below_trans hbel k1, k2, k3, k4, k5,
        more env m (m + 1) (by omega) _ _ k6⟩

/-- **A section is a file**: for every section shown, at any depth, there is a file below the directory of
the notebook that can be opened as a section, with the same result. -/
theorem C83_sections (env : Env) (n : Nat) (path base : Path) (nb : Notebook)
    (h : parseNotebook env n path = .ok nb) (hb : Path.parent path = some base) (s : Section)
    (hs : Among s nb.entries) :
    ∃ file, Below base file ∧ env.fs.isFile file = true ∧ parseSectionFile env file = .ok s := by
  generalize hes : nb.entries = es at hs
  induction hs generalizing nb path base n with
  | entry hm =>
    subst hes
    obtain ⟨base', p, m, hb', rfl, hbel, -, hat⟩ := entry_place env n path nb h _ hm
    cases hb.symm.trans hb'
    cases hat with
    | file _ h1 h2 => exact ⟨p, hbel, h1, h2⟩
  | @group es g' hm _ ih =>
    subst hes
    obtain ⟨base', p, m, hb', rfl, hbel, -, hat⟩ := entry_place env n path nb h _ hm
    cases hb.symm.trans hb'
    cases hat with
    | directory name toc before after nb' h1 h2 h3 h4 h5 h6 =>
      obtain ⟨f, k1, k2, k3⟩ := ih m _ p nb' h6 (parent_toc p toc) rfl
      exact ⟨f, below_trans hbel k1, k2, k3⟩

/-! ### A notebook with a section in a group in a group -/

private def disk : FileSystem where
  pathExists _ := true
  isFile p := decide (p.getLast? = some (.normal ['s']))
  canonicalize := some
  readDir p := some [some (if p.length = 2 then "a.txt".toList else "b.txt".toList), some "t.onetoc2".toList]
  read p :=
    if p = [.rootDir, .normal ['t']] then some (tocFile [(1, ['g'])])
    else if p = [.rootDir, .normal ['g'], .normal "t.onetoc2".toList] then
      some (tocFile [(1, ['h'])])
    else if p = [.rootDir, .normal ['g'], .normal ['h'], .normal "t.onetoc2".toList] then
      some (tocFile [(1, ['s'])])
    else if p = [.rootDir, .normal ['g'], .normal ['h'], .normal ['s']] then
      some (emptySectionFile (some ['1']))
    else none

private def env : Env := ⟨disk, id, Order.id, 3⟩

/-- The group `g` in the notebook, `h` in it, and the section in `h`. -/
private def shown (nb : Notebook) : Option (Text × Text × Text) :=
  match nb.entries with
  | [.sectionGroup g] => match g.entries with
    | [.sectionGroup h] => match h.entries with
      | [.section s] => some (g.displayName, h.displayName, s.displayName)
      | _ => none
    | _ => none
  | _ => none

example : ∃ (nb : Notebook) (h : SectionGroup) (s : Section),
    parseNotebook env 3 [.rootDir, .normal ['t']] = .ok nb ∧
    Path.parent [.rootDir, .normal ['t']] = some [.rootDir] ∧
    GroupAmong h nb.entries ∧ h.displayName = ['h'] ∧ h.entries = [.section s] ∧
    Among s nb.entries ∧ s.displayName = ['1'] := by
  have hn : (parseNotebook env 3 [.rootDir, .normal ['t']]).toOption.bind shown =
      some (['g'], ['h'], ['1']) := by decide +kernel
  obtain ⟨nb, h1, h2⟩ := Option.bind_eq_some_iff.1 hn
  have h1 := toOption_some h1
  unfold shown at h2
  split at h2
  · rename_i g hg
    split at h2
    · rename_i h hh
      split at h2
      · rename_i s hs
        simp only [Option.some.injEq, Prod.mk.injEq] at h2
        refine ⟨nb, h, s, h1, by decide, ?_, h2.2.1, hs, ?_, h2.2.2⟩
        · exact .group (g' := g) (by simp [hg]) (.entry (by simp [hh]))
        · exact .group (g := g) (by simp [hg]) (.group (g := h) (by simp [hh]) (.entry (by simp [hs])))
      · cases h2
    · cases h2
  · cases h2

#print axioms C83_groups
#print axioms C83_sections

end OneNote
