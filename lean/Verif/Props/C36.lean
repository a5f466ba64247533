/-
C36: Section display name. FALSE of the code when the name ends in `.one` more than once: all of the
repeated extensions are removed.
-/
import Verif.Lemmas.Node
import Verif.Lemmas.Toc
import Verif.Lemmas.TrimEnd
import Verif.Spec.SampleFile
import Verif.Spec.SectionName
import Verif.Model.Notebook

namespace OneNote

open Spec

/-- What holds for every section that is read: the display name is the name without `.one` at the
end, however often that is repeated. So a name that does not end in `.one` is unchanged, and of a
name with one such extension just that is removed. -/
theorem C36_display_name_partial (fuel : Nat) (store : Store) (filename : Text) (s : Section)
    (h : parseSectionStore fuel store filename = .ok s) :
    ∃ name, Named store filename name ∧
      (∃ k, name = s.displayName ++ (List.replicate k ['.', 'o', 'n', 'e']).flatten ∧
        ¬ ∃ b, s.displayName = b ++ ['.', 'o', 'n', 'e']) ∧
      ((¬ ∃ b, name = b ++ ['.', 'o', 'n', 'e']) → s.displayName = name) ∧
      (∀ b, name = b ++ ['.', 'o', 'n', 'e'] → (¬ ∃ c, b = c ++ ['.', 'o', 'n', 'e']) →
        s.displayName = b) := by
  unfold parseSectionStore at h
  obtain ⟨m, hm, h⟩ := Res.bind_ok h
  obtain ⟨_, _, h⟩ := Res.bind_ok h
  obtain ⟨_, _, h⟩ := Res.bind_ok h
  cases h
  refine ⟨m.displayName.getD filename, ?_, ?_⟩
  · unfold parseSectionMetadata ObjectSpace.metadataObject at hm
    obtain ⟨o, ho, hm⟩ := Res.bind_ok hm
    obtain ⟨id, hid, ho⟩ := Res.bind_ok ho
    refine ⟨id, o, ?_, ObjectSpace.object_ok.1 ho, ?_⟩
    · unfold orErr at hid
      split at hid
      · cases hid; assumption
      · cases hid
    · unfold SectionMetadata.parse at hm
      obtain ⟨_, _, hm⟩ := Res.bind_ok hm
      obtain ⟨_, _, hm⟩ := Res.bind_ok hm
      obtain ⟨_, _, hm⟩ := Res.bind_ok hm
      obtain ⟨_, _, hm⟩ := Res.bind_ok hm
      obtain ⟨_, _, hm⟩ := Res.bind_ok hm
      obtain ⟨d, hd, hm⟩ := Res.bind_ok hm
      obtain ⟨_, _, hm⟩ := Res.bind_ok hm
      cases hm
      cases d with
      | some t => exact .inr hd
      | none =>
        refine .inl ⟨?_, rfl⟩
        unfold Simple.parseString at hd
        obtain ⟨v, hv, hd⟩ := Res.bind_ok hd
        cases v with
        | none =>
          rcases propAs_ok hv with ⟨h, _⟩ | ⟨a, b, _, _, he⟩
          · exact h
          · cases he
        | some data =>
          simp only at hd
          split at hd
          · cases hd
          · cases hd
  · obtain ⟨k, hk, hno⟩ := trimEndMatches_spec dotOne (m.displayName.getD filename) (by decide)
    refine ⟨⟨k, hk, hno⟩, fun hn => ?_, fun b hb hc => ?_⟩
    · exact (trimmed_unique dotOne _ _ hn hno 0 k (by simpa using hk)).symm
    · exact (trimmed_unique dotOne b _ hc hno 1 k (by rw [← hk, hb]; simp [dotOne])).symm

/-- A section file with the stored name `a.one.one` is listed as `a`. -/
private theorem sample_name :
    (parseSectionBuffer 0 Order.id (emptySectionFile (some "a.one.one".toList)) []).toOption.map
      (·.displayName) = some ['a'] := by
  decide +kernel

/-- The property itself is false: more than the extension is removed. -/
theorem C36_refuted :
    ¬ ∀ (fuel : Nat) (ord : Order) (data : Bytes) (filename : Text) (s : Section) (b : Text),
      parseSectionBuffer fuel ord data filename = .ok s →
      (∀ store name, readStore ord data = .ok store → Named store filename name →
        name = b ++ ['.', 'o', 'n', 'e']) →
      s.displayName = b := by
  intro h
  have hs := sample_name
  cases hp : parseSectionBuffer 0 Order.id (emptySectionFile (some "a.one.one".toList)) [] with
  | error e => rw [hp] at hs; cases hs
  | ok s =>
    rw [hp] at hs
    have hn : s.displayName = ['a'] := Option.some.inj hs
    have := h 0 Order.id _ [] s "a.one".toList hp fun store name hst ⟨id, o, hid, ho, hor⟩ => by
      have key : (readStore Order.id (emptySectionFile (some "a.one.one".toList))).toOption.map
          (fun store => ((store.dataRoot.roots.get? .metadata).bind fun id =>
            (store.dataRoot.getObject id).bind fun o =>
              (Simple.parseString .sectionDisplayName o).toOption)) =
          some (some (some "a.one.one".toList)) := by
        decide +kernel
      rw [hst] at key
      simp only [Except.toOption, Option.map_some, hid, ho, Option.bind_some] at key
      rcases hor with ⟨hnone, _⟩ | hsome
      · simp [Simple.parseString, propAs, hnone, bind, Except.bind, pure, Except.pure] at key
      · rw [hsome] at key
        exact Option.some.inj (Option.some.inj (Option.some.inj key))
    rw [hn] at this
    exact absurd this (by decide)

/-- A section read from a file, for every file system: the name it falls back to is the last
component of the path, and it is the section that the bytes of the file give with that name. -/
theorem C36_file_partial (env : Env) (path : Path) (s : Section)
    (h : parseSectionFile env path = .ok s) :
    ∃ data dir filename store name, env.fs.read path = some data ∧
      path = dir ++ [.normal filename] ∧ readStore env.ord data = .ok store ∧
      parseSectionBuffer env.fuel env.ord data filename = .ok s ∧ Named store filename name ∧
      (∃ k, name = s.displayName ++ (List.replicate k ['.', 'o', 'n', 'e']).flatten ∧
        ¬ ∃ b, s.displayName = b ++ ['.', 'o', 'n', 'e']) := by
  unfold parseSectionFile at h
  obtain ⟨data, hd, h⟩ := Res.bind_ok h
  obtain ⟨store, hst, h⟩ := Res.bind_ok h
  split at h
  · cases h
  · rename_i hsch
    obtain ⟨filename, hf, h⟩ := Res.bind_ok h
    obtain ⟨name, hn, hk, -⟩ := C36_display_name_partial _ _ _ _ h
    have hd : env.fs.read path = some data := by
      cases hx : env.fs.read path with
      | none => rw [hx] at hd; cases hd
      | some x => rw [hx] at hd; cases hd; rfl
    have hf : path.fileName = some filename := by
      cases hx : path.fileName with
      | none => rw [hx] at hf; cases hf
      | some x => rw [hx] at hf; cases hf; rfl
    have hp : ∃ dir, path = dir ++ [.normal filename] := by
      unfold Path.fileName at hf
      split at hf
      · rename_i heq
        cases hf
        obtain ⟨dir, hdir⟩ := List.getLast?_eq_some_iff.1 heq
        exact ⟨dir, hdir⟩
      · cases hf
    obtain ⟨dir, hp⟩ := hp
    refine ⟨data, dir, filename, store, name, hd, hp, hst, ?_, hn, hk⟩
    unfold parseSectionBuffer
    rw [hst]
    show (if store.schema ≠ sectionSchema then _ else _) = _
    rw [if_neg hsch]
    exact h

/-- Files with a stored name with one extension, without one, and with none stored. -/
example : (parseSectionBuffer 0 Order.id (emptySectionFile (some "a.one".toList)) []).toOption.map
      (·.displayName) = some ['a'] ∧
    (parseSectionBuffer 0 Order.id (emptySectionFile (some "a.on".toList)) []).toOption.map
      (·.displayName) = some "a.on".toList ∧
    (parseSectionBuffer 0 Order.id (emptySectionFile none) "b.one".toList).toOption.map
      (·.displayName) = some ['b'] := by
  decide +kernel

#print axioms C36_display_name_partial
#print axioms C36_refuted
#print axioms C36_file_partial

end OneNote
