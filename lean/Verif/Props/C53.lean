/-
C53: A section is looked for under the name it was listed under.
-/
import Verif.Spec.FileName
import Verif.Spec.SampleFile
import Verif.Props.C31
import Verif.Lemmas.Terminates
import Verif.Model.Notebook
import Verif.Lemmas.Objects

namespace OneNote

open Spec

private theorem stored_head (c : Char) (hc : c = 'M' ∨ c = 'J') (s : List Char) :
    (∃ r, storedName s = c :: r) ↔ ∃ r, s = c :: r := by
  cases s with
  | nil => simp [storedName]
  | cons d s =>
    unfold storedName
    rw [List.flatMap_cons]
    split
    · rename_i h
      subst h
      rcases hc with rfl | rfl <;> simp
    · split
      · rename_i h
        subst h
        rcases hc with rfl | rfl <;> simp
      · simp

private theorem looks_cons (c : Char) (s : List Char) :
    LooksEscaped (c :: s) ↔ (c = '^' ∧ ((∃ r, s = 'M' :: r) ∨ ∃ r, s = 'J' :: r)) ∨ LooksEscaped s := by
  unfold LooksEscaped
  rw [List.infix_cons_iff, List.infix_cons_iff, List.cons_prefix_cons, List.cons_prefix_cons]
  have h : ∀ x : Char, [x] <+: s ↔ ∃ r, s = x :: r := fun x => by
    cases s with
    | nil => simp
    | cons d s => simp [List.cons_prefix_cons, eq_comm]
  rw [h, h]
  constructor
  · rintro ((⟨h1, h2⟩ | h) | (⟨h1, h2⟩ | h))
    · exact .inl ⟨h1.symm, .inl h2⟩
    · exact .inr (.inl h)
    · exact .inl ⟨h1.symm, .inr h2⟩
    · exact .inr (.inr h)
  · rintro (⟨h1, h2 | h2⟩ | (h | h))
    · exact .inl (.inl ⟨h1.symm, h2⟩)
    · exact .inr (.inl ⟨h1.symm, h2⟩)
    · exact .inl (.inr h)
    · exact .inr (.inr h)

/-- **A name comes back as it was stored exactly when it does not look escaped itself.** -/
theorem C53_name_comes_back (name : List Char) :
    unescapeFilename (storedName name) = name ↔ ¬ LooksEscaped name := by
  induction name with
  | nil => simp [storedName, unescapeFilename, replacePair, LooksEscaped]
  | cons c s ih =>
    rw [looks_cons]
    by_cases hp : c = '+'
    · subst hp
      have : storedName ('+' :: s) = '^' :: 'M' :: storedName s := rfl
      rw [this, unescape_plus]
      simpa using ih
    by_cases hc : c = ','
    · subst hc
      have : storedName (',' :: s) = '^' :: 'J' :: storedName s := rfl
      rw [this, unescape_comma]
      simpa using ih
    have hs : storedName (c :: s) = c :: storedName s := by
      unfold storedName
      rw [List.flatMap_cons, if_neg hp, if_neg hc]
      rfl
    rw [hs]
    by_cases h : c = '^' ∧ ∃ r, storedName s = 'M' :: r ∨ storedName s = 'J' :: r
    · have hl : c = '^' ∧ ((∃ r, s = 'M' :: r) ∨ ∃ r, s = 'J' :: r) := by
        obtain ⟨h1, r, h | h⟩ := h
        · exact ⟨h1, .inl ((stored_head 'M' (.inl rfl) s).1 ⟨r, h⟩)⟩
        · exact ⟨h1, .inr ((stored_head 'J' (.inr rfl) s).1 ⟨r, h⟩)⟩
      refine iff_of_false ?_ (fun hn => hn (.inl hl))
      obtain ⟨rfl, r, h | h⟩ := h
      · rw [h, unescape_plus]; simp
      · rw [h, unescape_comma]; simp
    · rw [unescape_step _ _ h]
      have hl : ¬ (c = '^' ∧ ((∃ r, s = 'M' :: r) ∨ ∃ r, s = 'J' :: r)) := by
        rintro ⟨h1, h2 | h2⟩
        · obtain ⟨r, hr⟩ := (stored_head 'M' (.inl rfl) s).2 h2
          exact h ⟨h1, r, .inl hr⟩
        · obtain ⟨r, hr⟩ := (stored_head 'J' (.inr rfl) s).2 h2
          exact h ⟨h1, r, .inr hr⟩
      simp only [List.cons.injEq, true_and, hl, false_or]
      exact ih

/-- **What holds**: an entry listed under a name that does not look escaped is read with that name. -/
theorem C53_entry_name_partial (o : Object) (t : TocContainer) (name : Text) (tail : Bytes)
    (h : TocContainer.parse o = .ok t)
    (hs : o.props.get .folderChildFilename = some (.vec (utf16 (storedName name) ++ tail)))
    (ht : EndsText tail) (hz : nul ∉ name) (hn : ¬ LooksEscaped name) : t.filename = some name := by
  have hz' : nul ∉ storedName name := by
    intro hm
    obtain ⟨c, hc, hm⟩ := List.mem_flatMap.1 hm
    split at hm
    · exact absurd hm (by decide)
    · split at hm
      · exact absurd hm (by decide)
      · rw [List.mem_singleton] at hm
        exact hz (hm ▸ hc)
  have hk := ((C31_string_property .folderChildFilename o _ hs).1 (storedName name)).2
    ⟨hz', tail, rfl, ht⟩
  unfold TocContainer.parse at h
  obtain ⟨_, _, h⟩ := Res.bind_ok h
  obtain ⟨_, _, h⟩ := Res.bind_ok h
  obtain ⟨f, hf, h⟩ := Res.bind_ok h
  obtain ⟨_, _, h⟩ := Res.bind_ok h
  obtain ⟨_, _, h⟩ := Res.bind_ok h
  rw [hk] at hf
  cases hf
  cases h
  exact congrArg some ((C53_name_comes_back name).2 hn)

/-! ### A name that looks escaped -/

/-- The section `^M`, listed in the table of contents `t`. Names are stored as OneNote does. -/
private def one : FileSystem where
  pathExists p := decide (p ∈ [[.rootDir, .normal ['t']], [.rootDir, .normal ['^', 'M']]])
  isFile _ := true
  canonicalize := some
  readDir _ := none
  read p :=
    if p = [.rootDir, .normal ['t']] then some (tocFile [(1, storedName ['^', 'M'])])
    else if p = [.rootDir, .normal ['^', 'M']] then some (emptySectionFile none)
    else none

/-- The section `+` is there too. -/
private def two : FileSystem where
  pathExists p := decide (p ∈ [[.rootDir, .normal ['t']], [.rootDir, .normal ['^', 'M']],
    [.rootDir, .normal ['+']]])
  isFile _ := true
  canonicalize := some
  readDir _ := none
  read p :=
    if p = [.rootDir, .normal ['t']] then
      some (tocFile [(1, storedName ['^', 'M']), (2, storedName ['+'])])
    else some (emptySectionFile none)

private def names (nb : Notebook) : List Text :=
  nb.entries.map fun
    | .section s => s.displayName
    | .sectionGroup g => g.displayName

/-- **Refuted**: the section file `^M` is there and listed in the table of contents, but the notebook
is shown without it and without an error. -/
theorem C53_missing_refuted : ∃ fs name nb, name = ['^', 'M'] ∧
    fs.read [.rootDir, .normal ['t']] = some (tocFile [(1, storedName name)]) ∧
    fs.pathExists [.rootDir, .normal name] = true ∧
    (parseSectionFile ⟨fs, id, Order.id, 2⟩ [.rootDir, .normal name]).toOption.isSome = true ∧
    parseNotebook ⟨fs, id, Order.id, 2⟩ 2 [.rootDir, .normal ['t']] = .ok nb ∧ nb.entries = [] := by
  have h : (parseNotebook ⟨one, id, Order.id, 2⟩ 2 [.rootDir, .normal ['t']]).toOption.map names =
      some [] := by
    decide +kernel
  obtain ⟨nb, hn, he⟩ := Option.map_eq_some_iff.1 h
  exact ⟨one, _, nb, rfl, rfl, by decide, by decide +kernel, toOption_some hn,
    List.map_eq_nil_iff.1 he⟩

/-- **Refuted**: of the two listed sections `^M` and `+`, only the second is shown. -/
theorem C53_confused_refuted : ∃ fs nb,
    fs.read [.rootDir, .normal ['t']] =
      some (tocFile [(1, storedName ['^', 'M']), (2, storedName ['+'])]) ∧
    parseNotebook ⟨fs, id, Order.id, 2⟩ 2 [.rootDir, .normal ['t']] = .ok nb ∧
    names nb = [['+']] := by
  have h : (parseNotebook ⟨two, id, Order.id, 2⟩ 2 [.rootDir, .normal ['t']]).toOption.map names =
      some [['+']] := by
    decide +kernel
  obtain ⟨nb, hn, he⟩ := Option.map_eq_some_iff.1 h
  exact ⟨two, nb, rfl, toOption_some hn, he⟩

/-- A name with a plus sign, a comma and a hat. -/
example : ∃ o t tail, TocContainer.parse o = .ok t ∧
    o.props.get .folderChildFilename = some (.vec (utf16 (storedName "a+b,^c".toList) ++ tail)) ∧
    EndsText tail ∧ nul ∉ "a+b,^c".toList ∧ ¬ LooksEscaped "a+b,^c".toList := by
  let o := sampleObject PropertySetId.tocContainer.asJcid
    [(.folderChildFilename, .vec (utf16 (storedName "a+b,^c".toList) ++ [0, 0]))]
  obtain ⟨t, ht⟩ : ∃ t, TocContainer.parse o = .ok t :=
    ⟨_, toOption_some (a := ⟨[], some "a+b,^c".toList, none, none⟩) (by decide +kernel)⟩
  exact ⟨o, t, [0, 0], ht, rfl, .inr ⟨[], rfl⟩, by decide +kernel,
    (C53_name_comes_back _).1 (by decide +kernel)⟩

#print axioms C53_name_comes_back
#print axioms C53_entry_name_partial
#print axioms C53_missing_refuted
#print axioms C53_confused_refuted

end OneNote
