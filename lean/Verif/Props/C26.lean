/-
C26: No input makes the section parser panic.

False: two kinds of objects make it panic (`C26_number_list_refuted`, `C26_ink_refuted`). Nothing else
does: `C26_buffer_partial`, `C26_notebook_partial`.
-/
import Verif.Lemmas.StorePanic
import Verif.Lemmas.Fuel
import Verif.Lemmas.Terminates
import Verif.Spec.SampleFile
import Verif.Lemmas.AnyOrder

namespace OneNote

open Spec

/-- Reading the store of a file, that is everything up to the objects and their properties, never
panics. -/
theorem C26_store (ord : Order) (data : Bytes) : readStore ord data ≠ .error .panic :=
  readStore_noPanic ord data

/-- Some object of a page of the store is of one of the two shapes that make the parser panic. -/
private theorem section_panic {fuel : Nat} {store : Store} {name : Text}
    (h : parseSectionStore fuel store name = .error .panic) :
    ∃ cell space id o, store.objectSpace cell = some space ∧ space.getObject id = some o ∧
      (EmptyFormat o ∨ MissingInk space o) := by
  refine Classical.byContradiction fun hn => ?_
  refine avoids_section (e := .panic) (.inr rfl) name (fun cell space hc id => ?_) h
  refine (recAt_noPanic (fun id o ho => ⟨fun h => hn ?_, fun h => hn ?_⟩) fuel id).1
  · exact ⟨cell, space, id, o, hc, ho, .inl h⟩
  · exact ⟨cell, space, id, o, hc, ho, .inr h⟩

/-- `parse_section_buffer` only panics if a page of the file has a number list with an empty format, or
a text with fewer references to ink than ink runs. Missing from the full statement: files with such
an object, for which it is false. -/
theorem C26_buffer_partial (fuel : Nat) (ord : Order) (data : Bytes) (name : Text)
    (h : parseSectionBuffer fuel ord data name = .error .panic) :
    ∃ store cell space id o, readStore ord data = .ok store ∧
      store.objectSpace cell = some space ∧ space.getObject id = some o ∧
      (EmptyFormat o ∨ MissingInk space o) := by
  cases hs : readStore ord data with
  | error e =>
    unfold parseSectionBuffer at h
    rw [hs] at h
    cases h
    exact absurd hs (readStore_noPanic ord data)
  | ok store =>
    unfold parseSectionBuffer at h
    rw [bind_of_ok hs] at h
    split at h
    · cases h
    · obtain ⟨cell, space, id, o, h⟩ := section_panic h
      exact ⟨store, cell, space, id, o, rfl, h⟩

/-- The same for a section file. -/
theorem C26_section_file_partial (env : Env) (path : Path)
    (h : parseSectionFile env path = .error .panic) :
    ∃ data store cell space id o, env.fs.read path = some data ∧
      readStore env.ord data = .ok store ∧ store.objectSpace cell = some space ∧
      space.getObject id = some o ∧ (EmptyFormat o ∨ MissingInk space o) := by
  unfold parseSectionFile at h
  cases hd : env.fs.read path with
  | none => rw [hd] at h; cases h
  | some data =>
    rw [hd] at h
    change (readStore env.ord data >>= _) = _ at h
    cases hs : readStore env.ord data with
    | error e =>
      rw [hs] at h
      cases h
      exact absurd hs (readStore_noPanic env.ord data)
    | ok store =>
      rw [bind_of_ok hs] at h
      split at h
      · cases h
      · cases hf : Path.fileName path with
        | none => rw [hf] at h; cases h
        | some name =>
          rw [hf] at h
          obtain ⟨cell, space, id, o, h⟩ := section_panic h
          exact ⟨data, store, cell, space, id, o, rfl, hs, h⟩

private theorem toc_noPanic (fuel : Nat) (space : ObjectSpace) :
    Avoids .panic (parseToc fuel space) := by
  refine Avoids.bind (Avoids.fine (.inr rfl) (Fine.orErr (by simp) (by simp))) fun id _ => ?_
  exact Avoids.bind (tocEntry_noPanic _ _) fun _ _ => Avoids.ok _

/-- `parse_notebook` only panics on a section file with such an object. -/
theorem C26_notebook_partial (env : Env) (n : Nat) (path : Path)
    (h : parseNotebook env n path = .error .panic) :
    ∃ file data store cell space id o, env.fs.read file = some data ∧
      readStore env.ord data = .ok store ∧ store.objectSpace cell = some space ∧
      space.getObject id = some o ∧ (EmptyFormat o ∨ MissingInk space o) := by
  refine Classical.byContradiction fun hn => ?_
  have hfile : ∀ p, Avoids .panic (parseSectionFile env p) := fun p hp =>
    hn ⟨p, C26_section_file_partial env p hp⟩
  have opt : ∀ {α : Type} {e : Err} {o : Option α}, e ≠ .panic → Avoids .panic (orErr e o) := by
    intro α e o he
    cases o with
    | none => simpa [orErr, Avoids] using he
    | some a => exact Avoids.ok _
  have key : ∀ n path, Avoids .panic (parseNotebook env n path) := by
    intro n
    induction n with
    | zero => intro path h; cases h
    | succ n ih =>
      intro path
      unfold parseNotebook
      refine Avoids.bind (opt (by simp)) fun data _ => ?_
      refine Avoids.bind (readStore_noPanic _ _) fun store _ => ?_
      split
      · exact Avoids.error (.inr rfl) (by simp) (by simp)
      · refine Avoids.bind (opt (by simp)) fun base _ => ?_
        refine Avoids.bind (toc_noPanic _ _) fun x _ => ?_
        refine Avoids.bind (Avoids.mapM _ fun e _ =>
          Avoids.fine (.inr rfl) (Fine.resolveEntryPath _ _ _ e)) fun paths _ => ?_
        refine Avoids.bind (Avoids.mapM _ fun p _ => ?_) fun _ _ => Avoids.ok _
        unfold parseEntry
        split
        · exact Avoids.map (hfile p)
        · refine Avoids.map ?_
          refine Avoids.bind (opt (by simp)) fun _ _ => Avoids.bind (opt (by simp)) fun l _ => ?_
          refine Avoids.bind (Avoids.fine (.inr rfl) (Fine.findToc _ _)) fun toc _ => ?_
          exact Avoids.bind (ih toc) fun _ _ => Avoids.ok _
  exact key n path h

/-- A page with an outline element in a list, whose number list has an empty format. -/
private def emptyFormatFile : Bytes :=
  sectionFile none [3001] [outlineW 3001 [3002], outlineElementW 3002 [] [] [3003],
    objectW 3003 .numberListNode [(.lastModifiedTime, .u32 0), (.numberListFormat, .vec [])]]

private def isPanic {α : Type} : Res α → Bool
  | .error .panic => true
  | _ => false

private theorem isPanic_eq {α : Type} {r : Res α} (h : isPanic r = true) : r = .error .panic := by
  unfold isPanic at h
  split at h
  · rfl
  · cases h

private theorem always {data : Bytes} {name : Text} (hu : PlainFile data)
    (h : isPanic (parseSectionBuffer 1 Order.id data name) = true) (ord : Order) (fuel : Nat)
    (hf : 1 ≤ fuel) : parseSectionBuffer fuel ord data name = .error .panic := by
  have h := isPanic_eq h
  obtain ⟨store, hs⟩ : ∃ store, readStore Order.id data = .ok store := by
    cases hr : readStore Order.id data with
    | ok store => exact ⟨store, rfl⟩
    | error e =>
      unfold parseSectionBuffer at h
      rw [hr] at h
      cases h
      exact absurd hr (C26_store _ _)
  rw [any_order hu hs]
  rcases refines_buffer hf Order.id data name with h' | h'
  · rw [h] at h'; cases h'
  · rw [← h', h]

/-- The property in full is false: a file with an empty list format makes the parser panic, with every
hash order. -/
theorem C26_number_list_refuted :
    ∃ data, ∀ ord fuel, 1 ≤ fuel → parseSectionBuffer fuel ord data ['s'] = .error .panic :=
  ⟨emptyFormatFile, always
    (sectionFile_plain (by decide +kernel) (PlainSamples.package_unambiguous (by decide +kernel)
      (by decide +kernel) (by decide +kernel))) (by decide +kernel)⟩

/-- A page with a text of two ink runs, but one reference to ink. -/
private def missingInkFile : Bytes :=
  sectionFile none [3001] [outlineW 3001 [3002], outlineElementW 3002 [] [3003] [],
    objectW 3003 .richTextNode
      [(.lastModifiedTime, .u32 0), (.textRunFormatting, .objectIds 2),
       (.textRunDataObject, .objectIds 1), (.paragraphStyle, .objectId),
       (.textRunData, .propertyValues 0x44000001 [[], []])] [3004, 3004, 3005, 3004],
    objectW 3004 .paragraphStyleObject [(.textRunIsEmbeddedObject, .bool true)],
    objectW 3005 .inkDataNode [(.inkStrokes, .objectIds 0)]]

/-- Another file that makes the parser panic: a text with fewer references to ink than ink runs. -/
theorem C26_ink_refuted :
    ∃ data, ∀ ord fuel, 1 ≤ fuel → parseSectionBuffer fuel ord data ['s'] = .error .panic :=
  ⟨missingInkFile, always
    (sectionFile_plain (by decide +kernel) (PlainSamples.package_unambiguous (by decide +kernel)
      (by decide +kernel) (by decide +kernel))) (by decide +kernel)⟩

/-- With enough references the same text is parsed. -/
example : (parseSectionBuffer 1 Order.id (sectionFile none [3001]
    [outlineW 3001 [3002], outlineElementW 3002 [] [3003] [],
      objectW 3003 .richTextNode
        [(.lastModifiedTime, .u32 0), (.textRunFormatting, .objectIds 2),
         (.textRunDataObject, .objectIds 2), (.paragraphStyle, .objectId),
         (.textRunData, .propertyValues 0x44000001 [[], []])] [3004, 3004, 3005, 3005, 3004],
      objectW 3004 .paragraphStyleObject [(.textRunIsEmbeddedObject, .bool true)],
      objectW 3005 .inkDataNode [(.inkStrokes, .objectIds 0)]]) ['s']).toOption.isSome = true := by
  decide +kernel

/-- The store of `missingInkFile` can be read, and it has pages. -/
example : (readStore Order.id missingInkFile).toOption.map (fun s => s.objectSpaces.length) =
    some 1 := by
  decide +kernel

end OneNote

#print axioms OneNote.C26_store
#print axioms OneNote.C26_buffer_partial
#print axioms OneNote.C26_section_file_partial
#print axioms OneNote.C26_notebook_partial
#print axioms OneNote.C26_number_list_refuted
#print axioms OneNote.C26_ink_refuted
