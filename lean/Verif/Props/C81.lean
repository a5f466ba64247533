/-
C81: A notebook is shown as it was at one moment, also if the disk changes while it is read. FALSE of the
code: its sections are read one after the other.
-/
import Verif.Lemmas.Timed
import Verif.Lemmas.Terminates
import Verif.Spec.SampleFile

namespace OneNote

open Spec

/-- On a disk that does not change the model with single file operations gives the same results and
errors as the model on one disk that all other theorems are about. -/
theorem C81_unchanged (e : Timed) (fs : FileSystem) (h : ∀ t, e.world t = fs) (n : Nat) (path : Path)
    (t : Nat) : (e.parseNotebook n path t).map Prod.fst =
      parseNotebook ⟨fs, e.sanitise, e.ord, e.fuel⟩ n path :=
  Timed.notebook_same e fs h n path t

/-- **What holds**: whatever other programs do with the disk in the meantime, every section shown, at any
depth, was in a file as it was at one moment of the time. Missing for the full property: the moments of
the sections are different, so the notebook may be one that never was on the disk. -/
theorem C81_partial (e : Timed) (n : Nat) (path : Path) (t t' : Nat) (nb : Notebook)
    (h : e.parseNotebook n path t = .ok (nb, t')) (s : Section) (hs : Among s nb.entries) :
    ReadAt e t t' s :=
  (Timed.notebook_read e n path t nb t' h).2 s hs

/-! ### Two sections that are saved together -/

private def disk (version : Text) : FileSystem where
  pathExists _ := true
  isFile _ := true
  canonicalize := some
  readDir _ := some []
  read p := if p = [.rootDir, .normal ['t']] then some (tocFile [(1, ['r']), (2, ['s'])])
    else some (emptySectionFile (some version))

/-- The sections are saved between the operations 9 and 10. -/
private def saved : Timed where
  world t := if t < 10 then disk ['1'] else disk ['2']
  sanitise := id
  ord := Order.id
  fuel := 3

private def names (nb : Notebook) : List Text :=
  nb.entries.map fun
    | .section s => s.displayName
    | .sectionGroup g => g.displayName

private theorem disk_names (version : Text) (k : Nat) (nb : Notebook)
    (hv : (parseNotebook ⟨disk version, id, Order.id, 3⟩ 1 [.rootDir, .normal ['t']]).toOption.map names =
      some [version, version])
    (h : parseNotebook ⟨disk version, id, Order.id, 3⟩ k [.rootDir, .normal ['t']] = .ok nb) :
    names nb = [version, version] := by
  obtain ⟨nb', h1, h2⟩ := Option.map_eq_some_iff.1 hv
  have h1 := toOption_some h1
  cases k with
  | zero => cases h
  | succ k =>
    rcases refines_notebook ⟨disk version, id, Order.id, 3⟩ (Nat.le_refl 3) (show 1 ≤ k + 1 by omega)
      [.rootDir, .normal ['t']] with h' | h'
    · exact absurd (h1.symm.trans h') (by intro e; cases e)
    have h := (h1.symm.trans h').trans h
    cases h
    exact h2

/-- **Refuted**: two sections are saved together, first both as version 1 and then both as version 2. If
this happens while the notebook is read, it is shown with version 1 of the first and version 2 of the
second section, which at no moment is what is on the disk. -/
theorem C81_refuted : ∃ (e : Timed) (path : Path) (nb : Notebook) (t' : Nat),
    e.parseNotebook 1 path 0 = .ok (nb, t') ∧ names nb = [['1'], ['2']] ∧
    ∀ τ k, ∀ nb', parseNotebook (e.moment τ) k path = .ok nb' → nb' ≠ nb := by
  have h : (saved.parseNotebook 1 [.rootDir, .normal ['t']] 0).toOption.map (fun x => names x.1) =
      some [['1'], ['2']] := by decide +kernel
  obtain ⟨⟨nb, t'⟩, h1, h2⟩ := Option.map_eq_some_iff.1 h
  refine ⟨saved, _, nb, t', toOption_some h1, h2, fun τ k nb' hk e => ?_⟩
  subst e
  have hm : saved.moment τ = ⟨disk ['1'], id, Order.id, 3⟩ ∨
      saved.moment τ = ⟨disk ['2'], id, Order.id, 3⟩ := by
    by_cases hτ : τ < 10
    · exact .inl (by unfold Timed.moment saved; dsimp only; rw [if_pos hτ])
    · exact .inr (by unfold Timed.moment saved; dsimp only; rw [if_neg hτ])
  have h2 : names nb' = [['1'], ['2']] := h2
  rcases hm with hm | hm <;> rw [hm] at hk
  · rw [disk_names _ _ _ (by decide +kernel) hk] at h2
    cases h2
  · rw [disk_names _ _ _ (by decide +kernel) hk] at h2
    cases h2

/-- In the notebook of `C81_refuted`, both sections are shown, each as it was at a moment of the call. -/
example : ∃ (nb : Notebook) (t' : Nat) (r s : Section),
    saved.parseNotebook 1 [.rootDir, .normal ['t']] 0 = .ok (nb, t') ∧
    Among r nb.entries ∧ r.displayName = ['1'] ∧ ReadAt saved 0 t' r ∧
    Among s nb.entries ∧ s.displayName = ['2'] ∧ ReadAt saved 0 t' s := by
  have h : (saved.parseNotebook 1 [.rootDir, .normal ['t']] 0).toOption.map (fun x =>
      x.1.entries.filterMap fun
        | .section s => some s.displayName
        | .sectionGroup _ => none) = some [['1'], ['2']] := by decide +kernel
  obtain ⟨⟨nb, t'⟩, h1, h2⟩ := Option.map_eq_some_iff.1 h
  have h1 := toOption_some h1
  have shown : ∀ name ∈ [['1'], ['2']], ∃ s, Among s nb.entries ∧ s.displayName = name := by
    intro name hn
    rw [← h2] at hn
    obtain ⟨x, hx, hs⟩ := List.mem_filterMap.1 hn
    cases x with
    | «section» s => exact ⟨s, .entry hx, Option.some.inj hs⟩
    | sectionGroup g => cases hs
  obtain ⟨r, hr, er⟩ := shown ['1'] (by simp)
  obtain ⟨s, hs, es⟩ := shown ['2'] (by simp)
  exact ⟨nb, t', r, s, h1, hr, er, C81_partial _ _ _ _ _ _ h1 r hr, hs, es,
    C81_partial _ _ _ _ _ _ h1 s hs⟩

#print axioms C81_unchanged
#print axioms C81_partial
#print axioms C81_refuted

end OneNote
