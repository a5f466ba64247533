/-
C72: It does not matter where a section file is, and its name only matters for the display name.
-/
import Verif.Props.C35
import Verif.Lemmas.Terminates
import Verif.Lemmas.TrimEnd
import Verif.Spec.Document
import Verif.Spec.SampleFile
import Verif.Spec.Sections

namespace OneNote

open Spec Spec.Document

private theorem stripped_trim (name : Text) : Stripped name (trimEndMatches dotOne name) := by
  obtain ⟨k, hk, hno⟩ := trimEndMatches_spec dotOne name (by decide)
  exact ⟨⟨k, hk⟩, hno⟩

/-- **The name a section is read under changes nothing but its display name**: with any other name the
section has the same pages and color, and the display name is either the same for all names (the one
stored in the file) or the name that is given, without `.one`. -/
theorem C72_name (fuel : Nat) (ord : Order) (data : Bytes) (name : Text) (s : Section)
    (h : parseSectionBuffer fuel ord data name = .ok s) :
    ∃ shown : Text → Text, ((∃ d, ∀ n, shown n = d) ∨ ∀ n, Stripped n (shown n)) ∧
      ∀ n, parseSectionBuffer fuel ord data n = .ok { s with displayName := shown n } := by
  unfold parseSectionBuffer at h ⊢
  obtain ⟨store, hst, h⟩ := Res.bind_ok h
  split at h
  · cases h
  rename_i hs
  unfold parseSectionStore at h
  obtain ⟨m, hm, h⟩ := Res.bind_ok h
  obtain ⟨c, hc, h⟩ := Res.bind_ok h
  obtain ⟨ps, hps, h⟩ := Res.bind_ok h
  cases h
  refine ⟨fun n => trimEndMatches dotOne (m.displayName.getD n), ?_, fun n => ?_⟩
  · cases m.displayName with
    | some d => exact .inl ⟨trimEndMatches dotOne d, fun _ => rfl⟩
    | none => exact .inr stripped_trim
  · rw [hst]
    show (if store.schema ≠ sectionSchema then _ else _) = _
    rw [if_neg hs]
    unfold parseSectionStore
    rw [hm]
    show (parseSectionContent store.dataRoot >>= _) = _
    rw [hc]
    show ((c.pageSeries.mapM (parsePageSeries fuel store) : Res _) >>= _) = _
    rw [hps]
    rfl

/-- **Whether a file is rejected, and with which error, does not depend on the name.** -/
theorem C72_error (fuel : Nat) (ord : Order) (data : Bytes) (name name' : Text) (e : Err) :
    parseSectionBuffer fuel ord data name = .error e ↔
      parseSectionBuffer fuel ord data name' = .error e := by
  have key : ∀ a b, parseSectionBuffer fuel ord data a = .error e →
      parseSectionBuffer fuel ord data b = .error e := by
    intro a b h
    cases hb : parseSectionBuffer fuel ord data b with
    | ok s =>
      obtain ⟨_, _, h'⟩ := C72_name fuel ord data b s hb
      rw [h' a] at h
      cases h
    | error e' =>
      have : ∀ n, parseSectionBuffer fuel ord data n = (do
          let store ← readStore ord data
          if store.schema ≠ sectionSchema then .error .notASectionFile else
          parseSectionStore fuel store n) := fun _ => rfl
      rw [this] at h hb
      cases hst : readStore ord data with
      | error x => rw [hst] at h hb; exact hb.symm.trans h
      | ok store =>
        rw [hst] at h hb
        change (if store.schema ≠ sectionSchema then _ else _) = _ at h hb
        split at h
        · rename_i hs; rw [if_pos hs] at hb; exact hb.symm.trans h
        · rename_i hs
          rw [if_neg hs] at hb
          unfold parseSectionStore at h hb
          cases hm : parseSectionMetadata store.dataRoot with
          | error x => rw [hm] at h hb; exact hb.symm.trans h
          | ok m =>
            rw [hm] at h hb
            change (parseSectionContent store.dataRoot >>= _) = _ at h hb
            cases hc : parseSectionContent store.dataRoot with
            | error x => rw [hc] at h hb; exact hb.symm.trans h
            | ok c =>
              rw [hc] at h hb
              change ((c.pageSeries.mapM (parsePageSeries fuel store) : Res _) >>= _) = _ at h hb
              cases hp : c.pageSeries.mapM (parsePageSeries fuel store) with
              | error x => rw [hp] at h hb; exact hb.symm.trans h
              | ok ps => rw [hp] at h; cases h
  exact ⟨key _ _, key _ _⟩

/-- **A section read from a path is the section in the bytes of the file**, with the last component of
the path as its name. -/
theorem C72_path (env : Env) (path : Path) (s : Section) :
    parseSectionFile env path = .ok s ↔ ∃ data name, env.fs.read path = some data ∧
      path.fileName = some name ∧ parseSectionBuffer env.fuel env.ord data name = .ok s := by
  unfold parseSectionFile parseSectionBuffer
  constructor
  · intro h
    obtain ⟨data, hd, h⟩ := Res.bind_ok h
    obtain ⟨store, hs, h⟩ := Res.bind_ok h
    split at h
    · cases h
    rename_i hsch
    obtain ⟨name, hn, h⟩ := Res.bind_ok h
    refine ⟨data, name, orErr_some hd, orErr_some hn, ?_⟩
    rw [hs]
    exact (if_neg hsch).trans h
  · rintro ⟨data, name, hd, hn, h⟩
    obtain ⟨store, hs, h⟩ := Res.bind_ok h
    split at h
    · cases h
    rename_i hsch
    rw [hd, hn]
    show (readStore env.ord data >>= _) = _
    rw [hs]
    exact (if_neg hsch).trans h

/-- A file that cannot be read is an input/output error, and the error of a file that can be read is that
of its bytes, under any name, or the path has no file name. -/
theorem C72_path_error (env : Env) (path : Path) (e : Err) (h : parseSectionFile env path = .error e) :
    (env.fs.read path = none ∧ e = .io) ∨
    (path.fileName = none ∧ e = .invalidPath) ∨
    ∃ data, env.fs.read path = some data ∧
      ∀ name, parseSectionBuffer env.fuel env.ord data name = .error e := by
  have key : ∀ data name, env.fs.read path = some data →
      parseSectionBuffer env.fuel env.ord data name = .error e →
      ∃ data, env.fs.read path = some data ∧
        ∀ name, parseSectionBuffer env.fuel env.ord data name = .error e :=
    fun data name hd h => ⟨data, hd, fun name' => (C72_error _ _ _ _ _ _).1 h⟩
  unfold parseSectionFile at h
  cases hd : env.fs.read path with
  | none => rw [hd] at h; cases h; exact .inl ⟨rfl, rfl⟩
  | some data =>
    rw [hd] at h
    change (readStore env.ord data >>= _) = _ at h
    cases hs : readStore env.ord data with
    | error x =>
      rw [hs] at h
      refine .inr (.inr (hd ▸ key data [] hd ?_))
      unfold parseSectionBuffer
      rw [hs]
      exact h
    | ok store =>
      rw [hs] at h
      change (if store.schema ≠ sectionSchema then _ else _) = _ at h
      by_cases hsch : store.schema ≠ sectionSchema
      · rw [if_pos hsch] at h
        refine .inr (.inr (hd ▸ key data [] hd ?_))
        unfold parseSectionBuffer
        rw [hs]
        exact (if_pos hsch).trans h
      · rw [if_neg hsch] at h
        cases hn : path.fileName with
        | none => rw [hn] at h; cases h; exact .inr (.inl ⟨rfl, rfl⟩)
        | some name =>
          rw [hn] at h
          refine .inr (.inr (hd ▸ key data name hd ?_))
          unfold parseSectionBuffer
          rw [hs]
          exact (if_neg hsch).trans h

/-- **Every section of a notebook, however deep in section groups, is the section that is read from its
file alone.** -/
theorem C72_notebook (env : Env) (n : Nat) (path : Path) (nb : Notebook)
    (h : parseNotebook env n path = .ok nb) (s : Section) (hs : Among s nb.entries) :
    ∃ p data name, parseSectionFile env p = .ok s ∧ env.fs.read p = some data ∧
      p.fileName = some name ∧ parseSectionBuffer env.fuel env.ord data name = .ok s := by
  have key : ∃ p, parseSectionFile env p = .ok s := by
    generalize he : nb.entries = es at hs
    induction hs generalizing path nb n with
    | entry hm =>
      cases n with
      | zero => cases h
      | succ n =>
        obtain ⟨_, _, _, _, _, _, _, hes⟩ := (C35_entries env n path nb).1 h
        subst he
        obtain ⟨p, _, hp⟩ := each_mem hes hm
        cases hp with
        | file _ _ h => exact ⟨p, h⟩
    | group hm _ ih =>
      cases n with
      | zero => cases h
      | succ n =>
        obtain ⟨_, _, _, _, _, _, _, hes⟩ := (C35_entries env n path nb).1 h
        subst he
        obtain ⟨p, _, hp⟩ := each_mem hes hm
        cases hp with
        | directory _ _ _ _ _ _ _ _ _ _ h => exact ih _ _ _ h rfl
  obtain ⟨p, hp⟩ := key
  obtain ⟨data, name, h1, h2, h3⟩ := (C72_path env p s).1 hp
  exact ⟨p, data, name, hp, h1, h2, h3⟩

/-- The result does depend on the name if none is stored, and does not if one is. -/
example :
    (parseSectionBuffer 0 Order.id (emptySectionFile none) ['a']).toOption.map (·.displayName) =
      some ['a'] ∧
    (parseSectionBuffer 0 Order.id (emptySectionFile none) ['b', '.', 'o', 'n', 'e']).toOption.map
      (·.displayName) = some ['b'] ∧
    (parseSectionBuffer 0 Order.id (emptySectionFile (some ['N'])) ['b']).toOption.map
      (·.displayName) = some ['N'] := by
  decide +kernel

/-- A file that is rejected under every name. -/
example : parseSectionBuffer 0 Order.id [1, 2, 3] ['a'] = .error .eof :=
  (C72_error 0 Order.id [1, 2, 3] [] ['a'] .eof).1 rfl

/-- A directory with a table of contents that lists the section file `s`. -/
private def twoFiles : Env :=
  let toc : Path := [.normal ['d'], .normal ['t']]
  let file : Path := [.normal ['d'], .normal ['s']]
  { fs := { pathExists := fun p => p == file, isFile := fun p => p == file
            canonicalize := some, readDir := fun _ => none
            read := fun p => if p = toc then some (tocFile [(1, ['s'])])
              else if p = file then some (emptySectionFile none) else none }
    sanitise := id, ord := Order.id, fuel := 3 }

/-- It has a section, which gets its name from the file. -/
example : ∃ nb s, parseNotebook twoFiles 3 [.normal ['d'], .normal ['t']] = .ok nb ∧
    Among s nb.entries ∧ s.displayName = ['s'] := by
  have h : (parseNotebook twoFiles 3 [.normal ['d'], .normal ['t']]).toOption.bind
      (fun nb => match nb.entries with
        | [.section s] => some s.displayName
        | _ => none) = some ['s'] := by decide +kernel
  obtain ⟨nb, hn, h⟩ := Option.bind_eq_some_iff.1 h
  split at h
  · rename_i s he
    exact ⟨nb, s, toOption_some hn, .entry (by rw [he]; exact List.mem_singleton.2 rfl),
      Option.some.inj h⟩
  · cases h

end OneNote

#print axioms OneNote.C72_name
#print axioms OneNote.C72_error
#print axioms OneNote.C72_path
#print axioms OneNote.C72_path_error
#print axioms OneNote.C72_notebook
