/-
C25: Section and notebook files are never confused.
-/
import Verif.Lemmas.Determinism
import Verif.Lemmas.Node
import Verif.Model.Notebook
import Verif.Spec.SampleFile

namespace OneNote

open Spec

private theorem readStore_schema {ord : Order} {data : Bytes} {store : Store}
    (h : readStore ord data = .ok store) : HasSchema data store.schema := by
  unfold readStore at h
  obtain ⟨p, hp, h⟩ := Res.bind_ok h
  unfold Store.parse at h
  obtain ⟨si, _, h⟩ := Res.bind_ok h
  obtain ⟨m, hm, h⟩ := Res.bind_ok h
  obtain ⟨_, _, h⟩ := Res.bind_ok h
  obtain ⟨_, _, h⟩ := Res.bind_ok h
  obtain ⟨_, _, h⟩ := Res.bind_ok h
  obtain ⟨_, _, h⟩ := Res.bind_ok h
  obtain ⟨_, _, h⟩ := Res.bind_ok h
  obtain ⟨_, _, h⟩ := Res.bind_ok h
  obtain ⟨_, _, h⟩ := Res.bind_ok h
  obtain ⟨_, _, h⟩ := Res.bind_ok h
  cases h
  have hm' : p.package.findStorageManifest ord = some m := by
    unfold orErr at hm
    split at hm
    · cases hm; assumption
    · cases hm
  obtain ⟨key, hk⟩ := mem_head_values hm'
  unfold P.run at hp
  split at hp
  · rename_i q rest hq
    cases hp
    exact ⟨_, rest, key, m, hq, hk, rfl⟩
  · cases hp

/-- A section is returned only for a file with the section schema. -/
theorem C25_section (fuel : Nat) (ord : Order) (data : Bytes) (name : Text) (s : Section)
    (h : parseSectionBuffer fuel ord data name = .ok s) :
    HasSchema data sectionGuid ∧ ∃ store, readStore ord data = .ok store ∧
      store.schema = sectionGuid := by
  unfold parseSectionBuffer at h
  obtain ⟨store, hst, h⟩ := Res.bind_ok h
  split at h
  · cases h
  · rename_i hs
    have hs : store.schema = sectionGuid := Classical.not_not.1 hs
    exact ⟨hs ▸ readStore_schema hst, store, hst, hs⟩

/-- The same for a section read from a file. -/
theorem C25_section_file (env : Env) (path : Path) (s : Section)
    (h : parseSectionFile env path = .ok s) :
    ∃ data store, env.fs.read path = some data ∧ HasSchema data sectionGuid ∧
      readStore env.ord data = .ok store ∧ store.schema = sectionGuid := by
  unfold parseSectionFile at h
  obtain ⟨data, hd, h⟩ := Res.bind_ok h
  obtain ⟨store, hst, h⟩ := Res.bind_ok h
  split at h
  · cases h
  · rename_i hs
    have hs : store.schema = sectionGuid := Classical.not_not.1 hs
    refine ⟨data, store, ?_, hs ▸ readStore_schema hst, hst, hs⟩
    unfold orErr at hd
    split at hd
    · cases hd; assumption
    · cases hd

/-- A notebook is returned only for a file with the table-of-contents schema. -/
theorem C25_notebook (env : Env) (n : Nat) (path : Path) (nb : Notebook)
    (h : parseNotebook env n path = .ok nb) :
    ∃ data store, env.fs.read path = some data ∧ HasSchema data tocGuid ∧
      readStore env.ord data = .ok store ∧ store.schema = tocGuid := by
  cases n with
  | zero => cases h
  | succ n =>
    unfold parseNotebook at h
    obtain ⟨data, hd, h⟩ := Res.bind_ok h
    obtain ⟨store, hst, h⟩ := Res.bind_ok h
    split at h
    · cases h
    · rename_i hs
      have hs : store.schema = tocGuid := Classical.not_not.1 hs
      refine ⟨data, store, ?_, hs ▸ readStore_schema hst, hst, hs⟩
      unfold orErr at hd
      split at hd
      · cases hd; assumption
      · cases hd

/-- A readable file of another schema is reported as not being a section. -/
theorem C25_not_a_section (fuel : Nat) (ord : Order) (data : Bytes) (name : Text) (store : Store)
    (h : readStore ord data = .ok store) (hs : store.schema ≠ sectionGuid) :
    parseSectionBuffer fuel ord data name = .error .notASectionFile := by
  unfold parseSectionBuffer
  rw [h]
  show (if store.schema ≠ sectionSchema then _ else _) = _
  exact if_pos hs

/-- A readable file of another schema is reported as not being a section (or a table of contents)
when it is read from the file system. -/
theorem C25_not_the_right_file (env : Env) (n : Nat) (path : Path) (data : Bytes) (store : Store)
    (hd : env.fs.read path = some data) (h : readStore env.ord data = .ok store) :
    (store.schema ≠ sectionGuid → parseSectionFile env path = .error .notASectionFile) ∧
    (store.schema ≠ tocGuid → parseNotebook env (n + 1) path = .error .notATocFile) := by
  constructor
  · intro hs
    unfold parseSectionFile
    rw [hd]
    show (readStore env.ord data >>= _) = _
    rw [h]
    show (if store.schema ≠ sectionSchema then _ else _) = _
    exact if_pos hs
  · intro hs
    unfold parseNotebook
    rw [hd]
    show (readStore env.ord data >>= _) = _
    rw [h]
    show (if store.schema ≠ tocSchema then _ else _) = _
    exact if_pos hs

/-- No file is both: a file whose storage manifests all have the same schema is not read as a section
and as a notebook. -/
theorem C25_never_both (fuel : Nat) (ord : Order) (data : Bytes) (name : Text) (s : Section)
    (hone : ∀ a b, HasSchema data a → HasSchema data b → a = b) (env : Env) (n : Nat) (path : Path)
    (hd : env.fs.read path = some data) (nb : Notebook)
    (h : parseSectionBuffer fuel ord data name = .ok s) : parseNotebook env n path ≠ .ok nb := by
  intro hn
  obtain ⟨data', _, hd', hs, _⟩ := C25_notebook env n path nb hn
  rw [hd] at hd'
  cases hd'
  exact absurd (hone _ _ hs (C25_section fuel ord data name s h).1) (by decide)

/-- A section file is read as a section and not as a notebook, a table of contents the other way
round. -/
example : (parseSectionBuffer 0 Order.id (emptySectionFile none) ['a']).isOk = true ∧
    parseSectionBuffer 0 Order.id (tocFile [(1, ['a'])]) ['a'] = .error .notASectionFile := by
  constructor
  · decide +kernel
  · have key : (readStore Order.id (tocFile [(1, ['a'])])).toOption.map (·.schema) = some tocGuid := by
      decide +kernel
    cases h : readStore Order.id (tocFile [(1, ['a'])]) with
    | error e => rw [h] at key; cases key
    | ok store =>
      rw [h] at key
      refine C25_not_a_section 0 _ _ _ store h ?_
      rw [show store.schema = tocGuid from Option.some.inj key]
      decide

#print axioms C25_section
#print axioms C25_section_file
#print axioms C25_notebook
#print axioms C25_not_a_section
#print axioms C25_not_the_right_file
#print axioms C25_never_both

end OneNote
