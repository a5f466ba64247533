/-
C42: A notebook opens the same however the path to its table of contents is written. FALSE of the
code: a bare file name (as in the usage example of /repo/src/lib.rs L17-25) is not accepted when an
entry of the notebook exists.
-/
import Verif.Lemmas.SameDir
import Verif.Props.C35

namespace OneNote

open Spec

/-- Two paths that name the same directory and resolve to the same location give the same notebook,
or the same error.
Missing for the full property: directories whose own path does not resolve, that is the empty path
of the directory of a bare file name. -/
theorem C42_same_directory_partial (env : Env) (n : Nat) (a b : Path) (name : Text)
    (h : SameDir env.fs a b) :
    parseNotebook env n (a ++ [.normal name]) = parseNotebook env n (b ++ [.normal name]) :=
  parseNotebook_same env n a b name h

/-- On a system where the empty path does not resolve (as on POSIX systems), a table of contents
given by its bare file name is never accepted when one of its entries exists. -/
theorem C42_bare_name_refuted (env : Env) (n : Nat) (name : Text) (names : List Text)
    (color : Option Color) (hempty : env.fs.canonicalize [] = none)
    (hc : Contents env [.normal name] [] names color) (entry : Text) (he : entry ∈ names)
    (hf : FileName entry) (hs : env.sanitise entry = entry)
    (hx : env.fs.pathExists [.normal entry] = true) :
    parseNotebook env (n + 1) [.normal name] = .error .invalidPath := by
  refine C35_unresolved env n _ _ names color hc entry he ?_
  rintro ⟨p, hp⟩
  have habs : isAbsolute entry = false := by
    unfold isAbsolute
    cases hcase : entry with
    | nil => rfl
    | cons c cs =>
      have : c ≠ '/' := fun h => hf.2.1 (by rw [hcase, h]; exact List.mem_cons_self ..)
      simp [this]
  have hcomp : componentsOf entry = [.normal entry] := by
    have hpiece : pieceOf entry = some (.normal entry) := by
      unfold pieceOf
      rw [if_neg hf.1, if_neg hf.2.2.1, if_neg hf.2.2.2]
    unfold componentsOf
    rw [splitSlash_piece entry hf.2.1, habs]
    simp [hpiece, hf.2.2.1]
  unfold resolveEntryPath at hp
  rw [if_neg (by rw [habs]; decide), hcomp] at hp
  simp only [List.mapM_cons, List.mapM_nil, resolveComponent, hs, ne_eq, not_true_eq_false,
    if_false] at hp
  have hp : (checkInside env.fs [] [.normal entry] >>= fun _ =>
      (pure [.normal entry] : Res Path)) = .ok p := hp
  unfold checkInside at hp
  rw [hx, hempty] at hp
  cases hp

/-- The sample: the working directory `/w` with a table of contents `t` naming the section `s`. -/
private def located : Path → Option Path
  | [] => none
  | .curDir :: rest => some (.rootDir :: .normal ['w'] :: rest)
  | .normal name :: rest => some (.rootDir :: .normal ['w'] :: .normal name :: rest)
  | p => some p

private def toc : Path := [.rootDir, .normal ['w'], .normal ['t']]
private def sec : Path := [.rootDir, .normal ['w'], .normal ['s']]

private def working : FileSystem where
  pathExists p := decide (located p = some toc) || decide (located p = some sec)
  isFile p := decide (located p = some toc) || decide (located p = some sec)
  canonicalize := located
  readDir _ := none
  read p :=
    if located p = some toc then some (tocFile [(1, ['s'])])
    else if located p = some sec then some (emptySectionFile none)
    else none

private def workingEnv : Env := ⟨working, id, Order.id, 3⟩

/-- FALSE in general: `./t` opens the notebook with its one section, `t` is an error, although
everything below the two directories `.` and the empty path is the same. -/
theorem C42_refuted : ∃ (env : Env) (a b : Path) (name : Text), SameBelow env.fs a b ∧
    ((parseNotebook env 1 (a ++ [.normal name])).toOption.map fun nb => nb.entries.length) = some 1 ∧
    (parseNotebook env 1 (b ++ [.normal name])).toOption.isNone ∧
    a = [.curDir] ∧ b = [] := by
  have hl : ∀ names : List Text, names ≠ [] →
      located ([.curDir] ++ names.map .normal) = located ([] ++ names.map .normal) := by
    intro names hn
    cases names with
    | nil => exact absurd rfl hn
    | cons n ns => rfl
  refine ⟨workingEnv, [.curDir], [], ['t'], ⟨hl, ?_, ?_, fun _ _ => rfl, ?_⟩, by decide +kernel,
    by decide +kernel, rfl, rfl⟩
  all_goals
    intro names hn
    simp only [workingEnv, working, hl names hn]

/-- The hypotheses of `C42_bare_name_refuted` hold of the sample. -/
example : parseNotebook workingEnv 1 [.normal ['t']] = .error .invalidPath := by
  obtain ⟨store, hs, h1, h2⟩ : ∃ store, readStore Order.id (tocFile [(1, ['s'])]) = .ok store ∧
      store.schema = tocSchema ∧ parseToc 3 store.dataRoot = .ok ([['s']], none) := by
    have key : ((readStore Order.id (tocFile [(1, ['s'])])).toOption.map fun store =>
        (decide (store.schema = tocSchema), (parseToc 3 store.dataRoot).toOption)) =
        some (true, some ([['s']], none)) := by decide +kernel
    cases h : readStore Order.id (tocFile [(1, ['s'])]) with
    | error e => rw [h] at key; cases key
    | ok store =>
      rw [h] at key
      have key := Option.some.inj key
      refine ⟨store, rfl, of_decide_eq_true (congrArg Prod.fst key), ?_⟩
      have k2 : (parseToc 3 store.dataRoot).toOption = some ([['s']], none) :=
        congrArg Prod.snd key
      cases ht : parseToc 3 store.dataRoot with
      | error e => rw [ht] at k2; cases k2
      | ok r => rw [ht] at k2; exact congrArg Except.ok (Option.some.inj k2)
  exact C42_bare_name_refuted workingEnv 0 ['t'] [['s']] none rfl
    ⟨⟨tocFile [(1, ['s'])], store, rfl, hs, h1, h2⟩, rfl⟩ ['s'] (List.mem_cons_self ..)
    ⟨by decide, by decide, by decide, by decide⟩ rfl (by decide +kernel)

/-- The hypothesis of `C42_same_directory_partial` holds of two different spellings in the sample:
`.` and `/w`. -/
example : SameDir working [.curDir] [.rootDir, .normal ['w']] ∧
    ((parseNotebook workingEnv 1 [.rootDir, .normal ['w'], .normal ['t']]).toOption.map
      fun nb => nb.entries.length) = some 1 := by
  have hl : ∀ names : List Text, located ([.curDir] ++ names.map .normal) =
      located ([.rootDir, .normal ['w']] ++ names.map .normal) := fun _ => rfl
  refine ⟨⟨rfl, fun names _ => hl names, ?_, ?_, fun _ _ => rfl, ?_⟩, by decide +kernel⟩
  all_goals
    intro names _
    simp only [working, hl names]

end OneNote

#print axioms OneNote.C42_same_directory_partial
#print axioms OneNote.C42_bare_name_refuted
#print axioms OneNote.C42_refuted
