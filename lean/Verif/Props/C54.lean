/-
C54: The command line program shows the file it is given.
-/
import Verif.Model.Cli
import Verif.Lemmas.Path
import Verif.Lemmas.Terminates
import Verif.Spec.Entries
import Verif.Spec.SampleFile

namespace OneNote

open Spec

private theorem unwrap_iff {α : Type} (r : Res α) (a : α) : unwrap r = .ok a ↔ r = .ok a := by
  unfold unwrap
  split <;> simp

private theorem unwrap_error {α : Type} (r : Res α) (e : Err) (h : unwrap r = .error e) :
    e = .panic ∨ e = .fuel := by
  unfold unwrap at h
  split at h <;> cases h
  · exact .inr rfl
  · exact .inl rfl

/-- The last component of the path is the name of a table of contents. -/
private def NamedToc (path : Path) : Prop := ∃ name, path.getLast? = some (.normal name) ∧ TocName name

private theorem extension_iff (path : Path) : path.extension = some tocExtension ↔ NamedToc path := by
  unfold Path.extension Path.fileName NamedToc
  cases path.getLast? with
  | none => simp
  | some c =>
    cases c with
    | normal name =>
      rw [Option.bind_some, extensionOf_iff name tocExtension (by decide)]
      constructor
      · intro h; exact ⟨name, rfl, h⟩
      · rintro ⟨_, h, hn⟩; cases h; exact hn
    | _ => simp

/-- **Which of the two**: a notebook is shown exactly when the name of the file ends in `.onetoc2` and
the file is parsed as a notebook. -/
theorem C54_notebook_partial (env : Env) (depth : Nat) (program arg : Text) (more : List Text)
    (nb : Notebook) :
    cliMain env depth (program :: arg :: more) = .ok (.notebook nb) ↔
      (∃ name, (componentsOf arg).getLast? = some (.normal name) ∧ TocName name) ∧
      parseNotebook env depth (componentsOf arg) = .ok nb := by
  have hx := extension_iff (componentsOf arg)
  unfold NamedToc at hx
  rw [← hx, ← unwrap_iff (parseNotebook _ _ _)]
  show (if (componentsOf arg).extension = some tocExtension then _ else _) = _ ↔ _
  split
  · rename_i h
    cases unwrap (parseNotebook env depth (componentsOf arg)) <;> simp [h, Functor.map, Except.map]
  · rename_i h
    cases unwrap (parseSectionFile env (componentsOf arg)) <;> simp [h, Functor.map, Except.map]

/-- A section is shown exactly when the name does not end so and the file is parsed as a section. -/
theorem C54_section_partial (env : Env) (depth : Nat) (program arg : Text) (more : List Text)
    (s : Section) :
    cliMain env depth (program :: arg :: more) = .ok (.section s) ↔
      (¬ ∃ name, (componentsOf arg).getLast? = some (.normal name) ∧ TocName name) ∧
      parseSectionFile env (componentsOf arg) = .ok s := by
  have hx := extension_iff (componentsOf arg)
  unfold NamedToc at hx
  rw [← hx, ← unwrap_iff (parseSectionFile _ _)]
  show (if (componentsOf arg).extension = some tocExtension then _ else _) = _ ↔ _
  split
  · rename_i h
    cases unwrap (parseNotebook env depth (componentsOf arg)) <;> simp [h, Functor.map, Except.map]
  · rename_i h
    cases unwrap (parseSectionFile env (componentsOf arg)) <;> simp [h, Functor.map, Except.map]

/-- It never ends quietly with nothing shown: it shows a document or panics. -/
theorem C54_shows_or_panics (env : Env) (depth : Nat) (args : List Text) :
    (∃ out, cliMain env depth args = .ok out) ∨ cliMain env depth args = .error .panic ∨
      cliMain env depth args = .error .fuel := by
  cases h : cliMain env depth args with
  | ok out => exact .inl ⟨out, rfl⟩
  | error e =>
    suffices e = .panic ∨ e = .fuel by
      rcases this with rfl | rfl
      · exact .inr (.inl rfl)
      · exact .inr (.inr rfl)
    unfold cliMain orErr at h
    cases ha : args[1]? with
    | none =>
      rw [ha] at h
      cases h
      exact .inl rfl
    | some arg =>
      rw [ha] at h
      change (if (componentsOf arg).extension = some tocExtension then _ else _) = _ at h
      split at h
      · cases hu : unwrap (parseNotebook env depth (componentsOf arg)) with
        | ok _ => rw [hu] at h; cases h
        | error e' => rw [hu] at h; cases h; exact unwrap_error _ _ hu
      · cases hu : unwrap (parseSectionFile env (componentsOf arg)) with
        | ok _ => rw [hu] at h; cases h
        | error e' => rw [hu] at h; cases h; exact unwrap_error _ _ hu

/-- Further arguments are ignored. -/
theorem C54_one_argument (env : Env) (depth : Nat) (program arg : Text) (more : List Text) :
    cliMain env depth (program :: arg :: more) = cliMain env depth [[], arg] := rfl

/-! ### A table of contents under another name -/

private def files : FileSystem where
  pathExists _ := false
  isFile _ := true
  canonicalize := some
  readDir _ := none
  read p := if p = [.rootDir, .normal ['s']] then some (emptySectionFile none)
    else some (tocFile [])

/-- **Refuted**: a file that the library opens as a notebook makes the program panic, as its name ends
in `.ONETOC2`. -/
theorem C54_any_notebook_refuted : ∃ env depth arg nb, arg = "/T.ONETOC2".toList ∧
    parseNotebook env depth (componentsOf arg) = .ok nb ∧
    cliMain env depth [[], arg] = .error .panic := by
  have h : (parseNotebook ⟨files, id, Order.id, 2⟩ 2 (componentsOf "/T.ONETOC2".toList)).toOption.map
      (fun nb => nb.entries.length) = some 0 := by
    decide +kernel
  obtain ⟨nb, hn, _⟩ := Option.map_eq_some_iff.1 h
  refine ⟨_, _, _, nb, rfl, toOption_some hn, ?_⟩
  rcases C54_shows_or_panics ⟨files, id, Order.id, 2⟩ 2 [[], "/T.ONETOC2".toList] with ⟨out, ho⟩ | h | h
  · exfalso
    have : (cliMain ⟨files, id, Order.id, 2⟩ 2 [[], "/T.ONETOC2".toList]).toOption.isSome = false := by
      decide +kernel
    rw [ho] at this
    cases this
  · exact h
  · exfalso
    have : (match cliMain ⟨files, id, Order.id, 2⟩ 2 [[], "/T.ONETOC2".toList] with
      | .error .fuel => true
      | _ => false) = false := by decide +kernel
    rw [h] at this
    cases this

/-- Both are shown. -/
example : ∃ env depth nb s, cliMain env depth [[], "/t.onetoc2".toList] = .ok (.notebook nb) ∧
    cliMain env depth [[], "/s".toList] = .ok (.section s) := by
  have h1 : (parseNotebook ⟨files, id, Order.id, 2⟩ 2 (componentsOf "/t.onetoc2".toList)).toOption.map
      (fun nb => nb.entries.length) = some 0 := by
    decide +kernel
  have h2 : (parseSectionFile ⟨files, id, Order.id, 2⟩ (componentsOf "/s".toList)).toOption.map
      (fun s => s.displayName) = some ['s'] := by
    decide +kernel
  obtain ⟨nb, hn, _⟩ := Option.map_eq_some_iff.1 h1
  obtain ⟨s, hs, _⟩ := Option.map_eq_some_iff.1 h2
  refine ⟨⟨files, id, Order.id, 2⟩, 2, nb, s, (C54_notebook_partial _ _ _ _ _ _).2
      ⟨⟨"t.onetoc2".toList, by decide, ['t'], by decide, by decide⟩, toOption_some hn⟩,
    (C54_section_partial _ _ _ _ _ _).2 ⟨?_, toOption_some hs⟩⟩
  rintro ⟨name, hl, stem, hne, rfl⟩
  have : (componentsOf "/s".toList).getLast? = some (.normal ['s']) := by decide
  rw [this] at hl
  have := congrArg List.length (Component.normal.inj (Option.some.inj hl))
  simp at this

#print axioms C54_notebook_partial
#print axioms C54_section_partial
#print axioms C54_shows_or_panics
#print axioms C54_one_argument
#print axioms C54_any_notebook_refuted

end OneNote
