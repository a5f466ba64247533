/-
C95: A copy of a notebook at another place shows the same notebook. FALSE of the code: which of several
tables of contents in the directory of a section group is used depends on the order in which the
directory is listed, and a copy may be listed in another order.
-/
import Verif.Lemmas.Moved
import Verif.Lemmas.Terminates
import Verif.Spec.SampleFile

namespace OneNote

open Spec

/-- **What holds**: if no directory below that of the notebook has more than one table of contents, a copy
at any place, on any disk, and listed in any order, shows the same notebook or the same error. -/
theorem C95_one_toc_partial (env env' : Env) (hs : env.sanitise = env'.sanitise)
    (ho : env.ord = env'.ord) (hf : env.fuel = env'.fuel) (n : Nat) (a a' k k' : Path) (name : Text)
    (h : Copied env.fs env'.fs a a' k k') (ht : OneToc env.fs a) :
    parseNotebook env n (a ++ [.normal name]) = parseNotebook env' n (a' ++ [.normal name]) :=
  Moved.notebook_moved hs ho hf n h (Moved.sameTocs_of_one h ht) name

/-- **What holds**: a copy whose directories are listed in the same order shows the same notebook or the
same error. -/
theorem C95_same_order_partial (env env' : Env) (hs : env.sanitise = env'.sanitise)
    (ho : env.ord = env'.ord) (hf : env.fuel = env'.fuel) (n : Nat) (a a' k k' : Path) (name : Text)
    (h : Copied env.fs env'.fs a a' k k') (ht : SameOrder env.fs env'.fs a a') :
    parseNotebook env n (a ++ [.normal name]) = parseNotebook env' n (a' ++ [.normal name]) :=
  Moved.notebook_moved hs ho hf n h (Moved.sameTocs_of_order ht) name

/-! ### A group with two tables of contents -/

namespace C95

private def tocA : Text := "a.onetoc2".toList
private def tocB : Text := "b.onetoc2".toList

/-- The directory `/r`. -/
private def dir (r : Text) : Path := [.rootDir, .normal r]

private def inside (p : Path) : List Text := (p.drop 2).filterMap fun | .normal x => some x | _ => none

/-- The notebook has the section group `g`. Its directory has a table of contents without entries, one
that lists the section `s`, and the section. It is listed as in `l`. -/
private def disk (r : Text) (l : List Text) : FileSystem where
  pathExists p := p.take 2 == dir r &&
    (inside p ∈ [[['t']], [['g']], [['g'], tocA], [['g'], tocB], [['g'], ['s']]])
  isFile p := p.take 2 == dir r && (inside p ∈ [[['t']], [['g'], tocA], [['g'], tocB], [['g'], ['s']]])
  canonicalize := some
  readDir p := if p.take 2 == dir r && inside p == [['g']] then some (l.map some) else none
  read p :=
    if p.take 2 == dir r then
      if inside p = [['t']] then some (tocFile [(1, ['g'])])
      else if inside p = [['g'], tocA] then some (tocFile [])
      else if inside p = [['g'], tocB] then some (tocFile [(1, ['s'])])
      else if inside p = [['g'], ['s']] then some (emptySectionFile none)
      else none
    else none

private def world (r : Text) (l : List Text) : Env := ⟨disk r l, id, Order.id, 3⟩

private theorem inside_names (r : Text) (names : List Text) :
    inside (dir r ++ names.map .normal) = names := by
  show (names.map Component.normal).filterMap _ = names
  induction names with
  | nil => rfl
  | cons n ns ih => rw [List.map_cons, List.filterMap_cons]; exact congrArg (n :: ·) ih

private theorem take_names (r : Text) (names : List Text) :
    ((dir r ++ names.map Component.normal).take 2 == dir r) = true := beq_iff_eq.2 rfl

private theorem copied (r r' : Text) {l l' : List Text} (h : ∀ x, x ∈ l ↔ x ∈ l') :
    Copied (disk r l) (disk r' l') (dir r) (dir r') (dir r) (dir r') := by
  refine ⟨rfl, rfl, fun names rest _ => ?_, fun names _ => ?_, fun names _ => ?_, fun names _ => ?_,
    fun names _ => ?_⟩
  · show some _ = some _ ↔ some _ = some _
    rw [Option.some.injEq, Option.some.injEq, List.append_cancel_left_eq, List.append_cancel_left_eq]
  · simp only [disk, inside_names, take_names]
  · simp only [disk, inside_names, take_names]
  · simp only [disk, inside_names, take_names]
  · simp only [disk, inside_names, take_names]
    split
    · intro x
      simp only [List.mem_map, h]
    · trivial

end C95

open C95

/-- **Refuted**: the notebook in `/w` has a section group with a section; in the copy in `/v` the same
section group is empty. -/
theorem C95_refuted : ∃ (env env' : Env) (a a' k k' : Path) (name : Text) (nb nb' : Notebook),
    env.sanitise = env'.sanitise ∧ env.ord = env'.ord ∧ env.fuel = env'.fuel ∧
    Copied env.fs env'.fs a a' k k' ∧
    parseNotebook env 2 (a ++ [.normal name]) = .ok nb ∧
    parseNotebook env' 2 (a' ++ [.normal name]) = .ok nb' ∧
    groupSizes nb = [some 1] ∧ groupSizes nb' = [some 0] := by
  have h : ((parseNotebook (world ['w'] [tocB, tocA, ['s']]) 2 (dir ['w'] ++ [.normal ['t']])).toOption.map
      groupSizes) = some [some 1] := by decide +kernel
  have h' : ((parseNotebook (world ['v'] [['s'], tocA, tocB]) 2 (dir ['v'] ++ [.normal ['t']])).toOption.map
      groupSizes) = some [some 0] := by decide +kernel
  obtain ⟨nb, e, hs⟩ := Option.map_eq_some_iff.1 h
  obtain ⟨nb', e', hs'⟩ := Option.map_eq_some_iff.1 h'
  refine ⟨world ['w'] [tocB, tocA, ['s']], world ['v'] [['s'], tocA, tocB], _, _, _, _, _, nb, nb', rfl,
    rfl, rfl, copied ['w'] ['v'] ?_, toOption_some e, toOption_some e', hs, hs'⟩
  intro x
  simp only [List.mem_cons, List.not_mem_nil, or_false]
  constructor <;> (rintro (h | h | h) <;> simp [h])

/-- The hypotheses of the two theorems hold of a notebook in `/w` and its copy in `/v`, in which the
directory is listed in another order, or in the same. -/
example : Copied (world ['w'] [tocB, ['s']]).fs (world ['v'] [['s'], tocB]).fs
      (dir ['w']) (dir ['v']) (dir ['w']) (dir ['v']) ∧
    OneToc (world ['w'] [tocB, ['s']]).fs (dir ['w']) ∧
    SameOrder (world ['w'] [tocB, ['s']]).fs (world ['v'] [tocB, ['s']]).fs (dir ['w']) (dir ['v']) ∧
    ((parseNotebook (world ['v'] [['s'], tocB]) 2 (dir ['v'] ++ [.normal ['t']])).toOption.map
      groupSizes) = some [some 1] := by
  refine ⟨copied _ _ fun x => ?_, fun names l _ hl => ?_, fun names _ => ?_, by decide +kernel⟩
  · simp only [List.mem_cons, List.not_mem_nil, or_false]
    exact Or.comm
  · have hl : (if _ then some ([tocB, ['s']].map some) else none) = some l := hl
    split at hl
    · cases hl
      refine ⟨by decide, fun t t' h1 h2 h3 h4 => ?_⟩
      have key : ∀ u : Text, some u ∈ [tocB, ['s']].map some → TocName u → u = tocB := by
        intro u hu ⟨stem, hn, e⟩
        simp only [List.map_cons, List.map_nil, List.mem_cons, Option.some.injEq, List.not_mem_nil,
          or_false] at hu
        rcases hu with rfl | rfl
        · rfl
        · have := congrArg List.length e
          rw [List.length_append] at this
          have : 8 ≤ (['s'] : Text).length := by
            rw [this]
            exact Nat.le_add_left _ _
          exact absurd this (by decide)
      rw [key t h1 h3, key t' h2 h4]
    · cases hl
  · simp only [world, disk, inside_names, take_names]

#print axioms C95_one_toc_partial
#print axioms C95_same_order_partial
#print axioms C95_refuted

end OneNote
