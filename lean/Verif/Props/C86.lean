/-
C86: Errors name the file that is at fault.
-/
import Verif.Model.Messages
import Verif.Spec.Named
import Verif.Props.C84

namespace OneNote

open Spec Messages

/-! ### Leaving out the names gives the rest of the model -/

/-- The result without the name. -/
private def erase {α : Type} : ResM α → Res α
  | .ok a => .ok a
  | .error f => .error f.kind

private theorem erase_bind {α β : Type} (x : ResM α) (f : α → ResM β) :
    erase (x >>= f) = erase x >>= fun a => erase (f a) := by
  cases x <;> rfl

private theorem erase_plain {α : Type} (x : Res α) : erase (plain x) = x := by
  cases x <;> rfl

private theorem erase_map {α β : Type} (x : ResM α) (f : α → β) : erase (f <$> x) = f <$> erase x := by
  cases x <;> rfl

private theorem erase_mapM {α β : Type} (f : α → ResM β) (l : List α) :
    erase (l.mapM f) = l.mapM fun a => erase (f a) := by
  induction l with
  | nil => rfl
  | cons a l ih =>
    rw [List.mapM_cons, List.mapM_cons, erase_bind]
    refine congrArg _ (funext fun b => ?_)
    rw [erase_bind, ih]
    rfl

private theorem erase_if {α : Type} {c : Prop} [Decidable c] (x y : ResM α) :
    erase (if c then x else y) = if c then erase x else erase y := by
  split <;> rfl

private theorem erase_section (env : Env) (path : Path) :
    erase (Messages.parseSectionFile env path) = parseSectionFile env path := by
  unfold Messages.parseSectionFile parseSectionFile
  simp only [erase_bind, erase_plain, erase_if]
  rfl

private theorem erase_findToc (dir : Path) (names : List (Option Text)) :
    erase (Messages.findToc dir names) = findToc dir names := by
  induction names with
  | nil => rfl
  | cons x names ih =>
    cases x with
    | none => rfl
    | some name =>
      unfold Messages.findToc findToc
      simp only [erase_if, ih]
      rfl

private theorem erase_group {notebook : Path → ResM Notebook} {notebook' : Path → Res Notebook}
    (h : ∀ p, erase (notebook p) = notebook' p) (env : Env) (path : Path) :
    erase (Messages.parseSectionGroup notebook env path) = parseSectionGroup notebook' env path := by
  unfold Messages.parseSectionGroup parseSectionGroup
  simp only [erase_bind, erase_plain, erase_findToc, h]
  rfl

private theorem erase_entry {notebook : Path → ResM Notebook} {notebook' : Path → Res Notebook}
    (h : ∀ p, erase (notebook p) = notebook' p) (env : Env) (path : Path) :
    erase (Messages.parseEntry notebook env path) = parseEntry notebook' env path := by
  unfold Messages.parseEntry parseEntry
  simp only [erase_if, erase_map, erase_section, erase_group h]

private theorem erase_notebook (env : Env) (n : Nat) (path : Path) :
    erase (Messages.parseNotebook env n path) = parseNotebook env n path := by
  induction n generalizing path with
  | zero => rfl
  | succ n ih =>
    unfold Messages.parseNotebook parseNotebook
    simp only [erase_bind, erase_plain, erase_if, erase_mapM, erase_entry ih]
    rfl

/-! ### What is named is at fault -/

private theorem bind_fault {α β : Type} {x : ResM α} {f : α → ResM β} {e : Fault}
    (h : x >>= f = .error e) : x = .error e ∨ ∃ a, x = .ok a ∧ f a = .error e := by
  cases x with
  | error e' => cases h; exact .inl rfl
  | ok a => exact .inr ⟨a, rfl, h⟩

private theorem map_fault {α β : Type} {x : ResM α} {f : α → β} {e : Fault}
    (h : f <$> x = .error e) : x = .error e := by
  cases x with
  | error e' => cases h; rfl
  | ok a => cases h

private theorem mapM_fault {α β : Type} {f : α → ResM β} {l : List α} {e : Fault}
    (h : l.mapM f = .error e) : ∃ a ∈ l, f a = .error e := by
  induction l with
  | nil => cases h
  | cons a l ih =>
    rw [List.mapM_cons] at h
    rcases bind_fault h with h | ⟨b, _, h⟩
    · exact ⟨a, List.mem_cons_self .., h⟩
    · rcases bind_fault h with h | ⟨_, _, h⟩
      · obtain ⟨x, hx, h⟩ := ih h
        exact ⟨x, List.mem_cons_of_mem _ hx, h⟩
      · cases h

private theorem plain_fault {α : Type} {x : Res α} {e : Fault} (h : plain x = .error e) :
    x = .error e.kind ∧ e.file = none := by
  cases x with
  | error e' => cases h; exact ⟨rfl, rfl⟩
  | ok a => cases h

private theorem plain_ok {α : Type} {x : Res α} {a : α} (h : plain x = .ok a) : x = .ok a := by
  cases x with
  | error e' => cases h
  | ok a => cases h; rfl

/-- The error names a file exactly if its kind is one that does. -/
private def Fits (f : Fault) : Prop := f.file.isSome = namesFile f.kind

private theorem plain_fits {α : Type} {x : Res α} {f : Fault} (h : plain x = .error f)
    (hx : ∀ e, x = .error e → namesFile e = false) : Fits f ∧ f.file = none := by
  obtain ⟨h1, h2⟩ := plain_fault h
  exact ⟨by rw [Fits, h2, hx _ h1]; rfl, h2⟩

private theorem damaged_unnamed {e : Err} (h : damaged e = true) : namesFile e = false := by
  cases e <;> first | rfl | cases h

private theorem malformed_unnamed {e : Err} (h : malformed e = true) : namesFile e = false := by
  cases e <;> first | rfl | cases h

private theorem orErr_unnamed {α : Type} {e e' : Err} {x : Option α} (h : orErr e x = .error e')
    (he : namesFile e = false) : namesFile e' = false := by
  cases x with
  | none => cases h; exact he
  | some a => cases h

private theorem section_fault {env : Env} {path : Path} {f : Fault}
    (h : Messages.parseSectionFile env path = .error f) : Fits f ∧ ∀ p, f.file = some p →
      p = path ∧ f.kind = .notASectionFile ∧ OtherFile env sectionSchema path := by
  have none_of {f : Fault} (h : Fits f ∧ f.file = none) : Fits f ∧ ∀ p, f.file = some p →
      p = path ∧ f.kind = .notASectionFile ∧ OtherFile env sectionSchema path :=
    ⟨h.1, fun p hp => by rw [h.2] at hp; cases hp⟩
  unfold Messages.parseSectionFile at h
  rcases bind_fault h with h | ⟨data, hd, h⟩
  · exact none_of (plain_fits h fun e he => orErr_unnamed he rfl)
  rcases bind_fault h with h | ⟨store, hs, h⟩
  · exact none_of (plain_fits h fun e he => damaged_unnamed (C84_container _ data e he))
  split at h
  · rename_i hc
    cases h
    exact ⟨rfl, fun p hp => by
      cases hp; exact ⟨rfl, rfl, data, store, orErr_some (plain_ok hd), plain_ok hs, hc⟩⟩
  · rcases bind_fault h with h | ⟨name, hn, h⟩
    · exact none_of (plain_fits h fun e he => orErr_unnamed he rfl)
    · exact none_of (plain_fits h fun e he => malformed_unnamed (Only.only _ he))

private theorem findToc_fault {dir : Path} {names : List (Option Text)} {f : Fault}
    (h : Messages.findToc dir names = .error f) : Fits f ∧ ∀ p, f.file = some p →
      p = dir ∧ f.kind = .tocFileMissing ∧ NoToc names := by
  induction names with
  | nil => cases h; exact ⟨rfl, fun p hp => by cases hp; exact ⟨rfl, rfl, fun x hx => by cases hx⟩⟩
  | cons x names ih =>
    cases x with
    | none => cases h; exact ⟨rfl, fun p hp => by cases hp⟩
    | some name =>
      unfold Messages.findToc at h
      dsimp only at h
      split at h
      · cases h
      · rename_i hc
        refine ⟨(ih h).1, fun p hp => ?_⟩
        obtain ⟨h1, h2, h3⟩ := (ih h).2 p hp
        refine ⟨h1, h2, fun x hx => ?_⟩
        rcases List.mem_cons.1 hx with rfl | hx
        · exact ⟨name, rfl, fun ht => hc ((tocExtension_iff dir name).2 ht)⟩
        · exact h3 x hx

private theorem deeper {env : Env} {path base base' p : Path} {toc : Text} {e : Err} (ht : TocName toc)
    (hb : Below base base') (h : AtFault env (base' ++ [.normal toc]) base' p e) :
    AtFault env path base p e := by
  cases h with
  | notSection h1 h2 h3 => exact .notSection (below_trans hb h1) h2 h3
  | missing ns h1 h2 h3 h4 => exact .missing ns (below_trans hb h1) h2 h3 h4
  | notToc h1 h2 =>
    refine .notToc ?_ h2
    rcases h1 with rfl | ⟨dir, toc', h, h', h''⟩
    · exact .inr ⟨base', toc, hb, ht, rfl⟩
    · exact .inr ⟨dir, toc', below_trans hb h, h', h''⟩

private theorem notebook_fault {env : Env} {n : Nat} {path base : Path}
    (hb : Path.parent path = some base) {f : Fault}
    (h : Messages.parseNotebook env n path = .error f) :
    Fits f ∧ ∀ p, f.file = some p → AtFault env path base p f.kind := by
  have none_of {path base : Path} {f : Fault} (h : Fits f ∧ f.file = none) :
      Fits f ∧ ∀ p, f.file = some p → AtFault env path base p f.kind :=
    ⟨h.1, fun p hp => by rw [h.2] at hp; cases hp⟩
  induction n generalizing path base with
  | zero => cases h; exact ⟨rfl, fun p hp => by cases hp⟩
  | succ n ih =>
    unfold Messages.parseNotebook at h
    rcases bind_fault h with h | ⟨data, hd, h⟩
    · exact none_of (plain_fits h fun e he => orErr_unnamed he rfl)
    rcases bind_fault h with h | ⟨store, hs, h⟩
    · exact none_of (plain_fits h fun e he => damaged_unnamed (C84_container _ data e he))
    split at h
    · rename_i hc
      cases h
      exact ⟨rfl, fun p hp => by
        cases hp
        exact .notToc (.inl rfl) ⟨data, store, orErr_some (plain_ok hd), plain_ok hs, hc⟩⟩
    rcases bind_fault h with h | ⟨base', hb', h⟩
    · exact none_of (plain_fits h fun e he => orErr_unnamed he rfl)
    rcases bind_fault h with h | ⟨⟨names, color⟩, ht, h⟩
    · exact none_of (plain_fits h fun e he => malformed_unnamed (Only.only _ he))
    rcases bind_fault h with h | ⟨paths, hp, h⟩
    · refine none_of (plain_fits h fun e he => ?_)
      obtain ⟨_, x, _, _, _, _, hx⟩ := mapM_error.1 he
      rw [resolveEntryPath_error hx]
      rfl
    rcases bind_fault h with h | ⟨_, _, h⟩
    · have e : base' = base := by
        have := orErr_some (plain_ok hb')
        rw [hb] at this
        cases this
        rfl
      subst e
      obtain ⟨p, hpm, h⟩ := mapM_fault h
      obtain ⟨name, -, hr⟩ := each_mem (mapM_each.1 (plain_ok hp)) (List.mem_filter.1 hpm).1
      obtain ⟨⟨ns, hne, hok, hpe⟩, -⟩ := resolveEntryPath_ok hr
      have hbel : Below base' p := ⟨ns, hne, fun x hx => (hok x hx).1, hpe⟩
      unfold Messages.parseEntry at h
      split at h
      · rename_i hf
        obtain ⟨h1, h2⟩ := section_fault (map_fault h)
        refine ⟨h1, fun q hq => ?_⟩
        obtain ⟨rfl, h3, h4⟩ := h2 q hq
        rw [h3]
        exact .notSection hbel hf h4
      · rename_i hf
        replace h := map_fault h
        unfold Messages.parseSectionGroup at h
        rcases bind_fault h with h | ⟨_, _, h⟩
        · exact none_of (plain_fits h fun e he => orErr_unnamed he rfl)
        rcases bind_fault h with h | ⟨ns, hns, h⟩
        · exact none_of (plain_fits h fun e he => orErr_unnamed he rfl)
        rcases bind_fault h with h | ⟨toc, htoc, h⟩
        · obtain ⟨h1, h2⟩ := findToc_fault h
          refine ⟨h1, fun q hq => ?_⟩
          obtain ⟨rfl, h3, h4⟩ := h2 q hq
          rw [h3]
          exact .missing ns hbel (by simpa using hf) (orErr_some (plain_ok hns)) h4
        rcases bind_fault h with h | ⟨_, _, h⟩
        · have htoc : findToc p ns = .ok toc := by rw [← erase_findToc, htoc]; rfl
          obtain ⟨stem, hst, rfl, -⟩ := findToc_ok htoc
          obtain ⟨h1, h2⟩ := ih (parent_join p _) h
          exact ⟨h1, fun q hq => deeper ⟨stem, hst, rfl⟩ hbel (h2 q hq)⟩
        · cases h
    · cases h

/-! ### The property -/

/-- The errors are those of the rest of the model, with the file they name. -/
theorem C86_same_errors (env : Env) (n : Nat) (path : Path) :
    (∀ nb, Messages.parseNotebook env n path = .ok nb ↔ parseNotebook env n path = .ok nb) ∧
    (∀ e, parseNotebook env n path = .error e ↔
      ∃ f, Messages.parseNotebook env n path = .error f ∧ f.kind = e) ∧
    (∀ s, Messages.parseSectionFile env path = .ok s ↔ parseSectionFile env path = .ok s) ∧
    ∀ e, parseSectionFile env path = .error e ↔
      ∃ f, Messages.parseSectionFile env path = .error f ∧ f.kind = e := by
  rw [← erase_notebook, ← erase_section]
  have key {α : Type} (x : ResM α) : (∀ a, x = .ok a ↔ erase x = .ok a) ∧
      ∀ e, erase x = .error e ↔ ∃ f, x = .error f ∧ f.kind = e := by
    cases x with
    | ok a =>
      exact ⟨fun b => ⟨fun h => by cases h; rfl, fun h => by cases h; rfl⟩,
        fun e => ⟨fun h => (nomatch h), fun ⟨f, h, _⟩ => (nomatch h)⟩⟩
    | error f =>
      exact ⟨fun b => ⟨fun h => (nomatch h), fun h => (nomatch h)⟩,
        fun e => ⟨fun h => ⟨f, rfl, by cases h; rfl⟩, fun ⟨g, h, h'⟩ => by cases h; cases h'; rfl⟩⟩
  exact ⟨(key _).1, (key _).2, (key _).1, (key _).2⟩

/-- **The file that is named is at fault**: an error of `parse_notebook` names a file or directory exactly if
it is of one of three kinds, it is one of the notebook, and what the kind says is true of it. -/
theorem C86_notebook_partial (env : Env) (n : Nat) (path base : Path)
    (hb : Path.parent path = some base) (f : Fault)
    (h : Messages.parseNotebook env n path = .error f) :
    f.file.isSome = namesFile f.kind ∧ ∀ p, f.file = some p → AtFault env path base p f.kind :=
  notebook_fault hb h

/-- The same for `parse_section`: only the kind for files that are no sections names a file, the one that
was to be opened. -/
theorem C86_section_partial (env : Env) (path : Path) (f : Fault) :
    (Messages.parseSectionFile env path = .error f → f.file.isSome = namesFile f.kind) ∧
    ∀ p, (Messages.parseSectionFile env path = .error f ∧ f.file = some p ↔
      f = ⟨.notASectionFile, some path⟩ ∧ p = path ∧ OtherFile env sectionSchema path) := by
  refine ⟨fun h => (section_fault h).1, fun p => ⟨fun ⟨h, hp⟩ => ?_, ?_⟩⟩
  · obtain ⟨rfl, h1, h2⟩ := (section_fault h).2 p hp
    cases f
    cases hp
    cases h1
    exact ⟨rfl, rfl, h2⟩
  · rintro ⟨rfl, rfl, data, store, h1, h2, h3⟩
    refine ⟨?_, rfl⟩
    unfold Messages.parseSectionFile
    rw [h1]
    show (plain (readStore env.ord data) >>= _) = _
    rw [h2]
    exact if_pos h3

/-- The same for `parse_section_buffer`, which names the file name it is given. -/
theorem C86_buffer_partial (fuel : Nat) (ord : Order) (data : Bytes) (fileName : Path) (name : Text)
    (f : Fault) (h : Messages.parseSectionBuffer fuel ord data fileName name = .error f) :
    parseSectionBuffer fuel ord data name = .error f.kind ∧
    f.file = if f.kind = .notASectionFile then some fileName else none := by
  have none_of {f : Fault} (h : Fits f ∧ f.file = none) :
      f.file = if f.kind = .notASectionFile then some fileName else none := by
    rw [h.2, if_neg]
    intro e
    have := h.1
    rw [Fits, h.2, e] at this
    cases this
  have e : erase (Messages.parseSectionBuffer fuel ord data fileName name) =
      parseSectionBuffer fuel ord data name := by
    unfold Messages.parseSectionBuffer parseSectionBuffer
    simp only [erase_bind, erase_plain, erase_if]
    rfl
  refine ⟨by rw [← e, h]; rfl, ?_⟩
  unfold Messages.parseSectionBuffer at h
  rcases bind_fault h with h | ⟨store, hs, h⟩
  · exact none_of (plain_fits h fun e he => damaged_unnamed (C84_container _ data e he))
  split at h
  · cases h; rfl
  · exact none_of (plain_fits h fun e he => malformed_unnamed (Only.only _ he))

/-! ### Other errors do not tell the file -/

private def nb (name : Text) : Path := [.rootDir, .normal name]

/-- A notebook of the sections `a` and `b`. -/
private def disk (a b : Bytes) : FileSystem where
  pathExists _ := true
  isFile _ := true
  canonicalize := some
  readDir _ := none
  read p := if p = nb ['t'] then some (tocFile [(1, ['a']), (2, ['b'])])
    else if p = nb ['a'] then some a else if p = nb ['b'] then some b else none

private def env (a b : Bytes) : Env := ⟨disk a b, id, Order.id, 3⟩

private def whole : Bytes := emptySectionFile (some ['1'])
private def cut : Bytes := whole.take 60

private theorem withFile_a (a b c : Bytes) : withFile (env a b) (nb ['a']) c = env c b := by
  unfold withFile env disk
  simp only [Env.mk.injEq, FileSystem.mk.injEq, and_true, true_and]
  funext q
  by_cases h : q = nb ['a']
  · subst h; rfl
  · simp only [if_neg h]

private theorem withFile_b (a b c : Bytes) : withFile (env a b) (nb ['b']) c = env a c := by
  unfold withFile env disk
  simp only [Env.mk.injEq, FileSystem.mk.injEq, and_true, true_and]
  funext q
  by_cases h : q = nb ['b']
  · subst h; rfl
  · simp only [if_neg h]

private theorem ok_of {α : Type} {r : Res α} (h : r.toOption.isSome = true) : ∃ a, r = .ok a := by
  cases r with
  | error e => cases h
  | ok a => exact ⟨a, rfl⟩

private theorem fault_of {α : Type} {r : ResM α} {f : Fault}
    (h : (match r with | .error f => some f | .ok _ => none) = some f) : r = .error f := by
  cases r with
  | error e => cases h; rfl
  | ok a => cases h

/-- **The property is false**: which of two sections is cut off cannot be told from the error. -/
theorem C86_refuted : ∃ (env env' : Env) (n : Nat) (path p p' : Path) (f : Fault), p ≠ p' ∧
    OnlyFault env n path p ∧ OnlyFault env' n path p' ∧
    Messages.parseNotebook env n path = .error f ∧ Messages.parseNotebook env' n path = .error f := by
  have h1 : Messages.parseNotebook (env cut whole) 2 (nb ['t']) = .error ⟨.eof, none⟩ :=
    fault_of (by decide +kernel)
  have h2 : Messages.parseNotebook (env whole cut) 2 (nb ['t']) = .error ⟨.eof, none⟩ :=
    fault_of (by decide +kernel)
  obtain ⟨b, h3⟩ : ∃ b, parseNotebook (env whole whole) 2 (nb ['t']) = .ok b :=
    ok_of (by decide +kernel)
  refine ⟨env cut whole, env whole cut, 2, nb ['t'], nb ['a'], nb ['b'], _, by decide,
    ⟨⟨.eof, (C86_same_errors _ _ _).2.1 _ |>.2 ⟨_, h1, rfl⟩⟩, whole, b, ?_⟩,
    ⟨⟨.eof, (C86_same_errors _ _ _).2.1 _ |>.2 ⟨_, h2, rfl⟩⟩, whole, b, ?_⟩, h1, h2⟩
  · rw [withFile_a]; exact h3
  · rw [withFile_b]; exact h3

/-- A table of contents in the place of a section is named. -/
example : Messages.parseNotebook (env whole (tocFile [])) 2 (nb ['t']) =
    .error ⟨.notASectionFile, some (nb ['b'])⟩ := fault_of (by decide +kernel)

#print axioms C86_same_errors
#print axioms C86_notebook_partial
#print axioms C86_section_partial
#print axioms C86_buffer_partial
#print axioms C86_refuted

end OneNote
