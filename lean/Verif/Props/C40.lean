/-
C40: Page and content order is preserved.

True of the references that resolve. A stored reference for which the object records no identifier is
dropped without an error: see `C40_dropped_refuted`.
-/
import Verif.Lemmas.Tree
import Verif.Props.C17
import Verif.Model.Notebook
import Verif.Spec.SampleFile

namespace OneNote

open Spec

/-- A section parsed from bytes: its page series, their pages, the contents of the pages, and so on
down to table cells, ink strokes and text run formats, are those of the references of the objects of
the file, one for one and in their order. -/
theorem C40_section (fuel : Nat) (ord : Order) (data : Bytes) (name : Text) (s : Section)
    (h : parseSectionBuffer fuel ord data name = .ok s) :
    ∃ store, readStore ord data = .ok store ∧ SectionIn store s := by
  unfold parseSectionBuffer at h
  obtain ⟨store, hs, h⟩ := Res.bind_ok h
  split at h
  · cases h
  · exact ⟨store, hs, parseSectionStore_in h⟩

/-- The same for a section file on disk. -/
theorem C40_section_file (env : Env) (path : Path) (s : Section)
    (h : parseSectionFile env path = .ok s) :
    ∃ data store, env.fs.read path = some data ∧ readStore env.ord data = .ok store ∧
      SectionIn store s := by
  unfold parseSectionFile at h
  obtain ⟨data, hd, h⟩ := Res.bind_ok h
  obtain ⟨store, hs, h⟩ := Res.bind_ok h
  split at h
  · cases h
  · obtain ⟨_, _, h⟩ := Res.bind_ok h
    exact ⟨data, store, orErr_some hd, hs, parseSectionStore_in h⟩

/-- The references of a property are the identifiers recorded in the file at the property's
positions, when an identifier is recorded for every one of the object's references. -/
theorem C40_all_references_partial (id ctx sid : ExGuid) (objects : GroupMap) (pkg : Package)
    (o : Object) (refs : List ExGuid) (cells : List CellId) (data : Bytes)
    (oids osids ctxs : List CompactId) (t : PropertyType)
    (pre post : List (Nat × PropertyValue)) (n : Nat)
    (ho : Object.parse id ctx sid objects pkg = .ok o)
    (hg : objects.get? (id, 1) = some (.object refs cells data))
    (hb : ObjectPropSetEnc oids osids ctxs (pre ++ (t.code % 2 ^ 26, .objectIds n) :: post) data)
    (h1 : oids.length < 2 ^ 24 ∧ ∀ c ∈ oids, CompactIdOk c)
    (h2 : osids.length < 2 ^ 24 ∧ ∀ c ∈ osids, CompactIdOk c)
    (h3 : ctxs.length < 2 ^ 24 ∧ ∀ c ∈ ctxs, CompactIdOk c)
    (hl : refs.length = oids.length)
    (hd : DistinctIds (pre ++ (t.code % 2 ^ 26, .objectIds n) :: post))
    (hf : ∀ e ∈ pre, SingleSetsFree .objects e.2)
    (hn : idsUsedBy .objects pre + n ≤ oids.length)
    (ids : List ExGuid) (h : References o t ids) :
    ids = (refs.drop (idsUsedBy .objects pre)).take n ∧ ids.length = n := by
  have key := C17_from_file_partial id ctx sid objects pkg o refs cells data oids osids ctxs t pre
    post n ho hg hb h1 h2 h3 hl hd hf
  have hids : ids = (refs.drop (idsUsedBy .objects pre)).take n := by
    rcases h with h | ⟨h, rfl⟩
    · rw [key] at h
      cases h
      rfl
    · unfold ObjectReference.parseVec at key
      rw [h] at key
      cases key
  refine ⟨hids, ?_⟩
  rw [hids, List.length_take, List.length_drop]
  omega

/-- An outline with two references, only the first of which is recorded for the object. -/
private def shortOutline : SampleObject :=
  { id := 3001, jcid := PropertySetId.outlineNode.asJcid, refs := [sx 3002], cells := [],
    props := propsW 2 0 [(.lastModifiedTime, .u32 0), (.elementChildNodes, .objectIds 2),
      (.outlineElementChildLevel, .u8 1), (.rgOutlineIndentDistance, .vec [0, 0, 0, 0])] }

private def shortFile : Bytes := sectionFile none [3001] [shortOutline, outlineElementW 3002 [] [] []]

/-- The number of references stored in a property. -/
private def storedCount (o : Object) (t : PropertyType) : Option Nat :=
  match o.props.get t with
  | some (.objectIds n) => some n
  | _ => none

/-- The property in full is false: a file whose outline stores two references is parsed to an outline
with one item. -/
theorem C40_dropped_refuted :
    ¬ ∀ (fuel : Nat) (ord : Order) (data : Bytes) (name : Text) (s : Section) (store : Store)
      (cell : CellId) (space : ObjectSpace) (id : ExGuid) (o : Object) (n : Nat) (outline : Outline),
      parseSectionBuffer fuel ord data name = .ok s → readStore ord data = .ok store →
      store.objectSpace cell = some space → space.getObject id = some o →
      o.props.get .elementChildNodes = some (.objectIds n) →
      parseOutline fuel space id = .ok outline → outline.items.length = n := by
  intro h
  have h1 : (parseSectionBuffer 3 Order.id shortFile ['s']).toOption.isSome = true := by
    decide +kernel
  have h2 : ((readStore Order.id shortFile).toOption.bind fun store =>
      (store.objectSpace pageCell).bind fun space => (space.getObject (sx 3001)).bind fun o =>
        (storedCount o .elementChildNodes).bind fun n =>
          (parseOutline 3 space (sx 3001)).toOption.map fun outline =>
            (n, outline.items.length)) = some (2, 1) := by
    decide +kernel
  cases hs : parseSectionBuffer 3 Order.id shortFile ['s'] with
  | error e => rw [hs] at h1; cases h1
  | ok s =>
    cases hr : readStore Order.id shortFile with
    | error e => rw [hr] at h2; cases h2
    | ok store =>
      rw [hr] at h2
      change ((store.objectSpace pageCell).bind _) = _ at h2
      cases hsp : store.objectSpace pageCell with
      | none => rw [hsp] at h2; cases h2
      | some space =>
        rw [hsp, Option.bind_some] at h2
        cases ho : space.getObject (sx 3001) with
        | none => rw [ho] at h2; cases h2
        | some o =>
          rw [ho, Option.bind_some] at h2
          cases hn : storedCount o .elementChildNodes with
          | none => rw [hn] at h2; cases h2
          | some n =>
            rw [hn, Option.bind_some] at h2
            cases hp : parseOutline 3 space (sx 3001) with
            | error e => rw [hp] at h2; cases h2
            | ok outline =>
              rw [hp] at h2
              have h2 : (n, outline.items.length) = (2, 1) := Option.some.inj h2
              have hget : o.props.get .elementChildNodes = some (.objectIds n) := by
                unfold storedCount at hn
                split at hn
                · rename_i m hm
                  cases hn
                  exact hm
                · cases hn
              have := h 3 Order.id shortFile ['s'] s store pageCell space (sx 3001) o n outline hs hr
                hsp ho hget hp
              rw [(Prod.mk.inj h2).1, (Prod.mk.inj h2).2] at this
              exact absurd this (by decide)

/-- The shape of the outline elements of a section: for each outline, the numbers of children and
contents of its items. -/
private def itemSizes (s : Section) : List (List (Nat × Nat)) :=
  s.pageSeries.flatMap fun p => p.pages.flatMap fun page => page.contents.filterMap fun c =>
    c.outline?.map fun o => o.items.filterMap fun i =>
      i.element?.map fun e => (e.children.length, e.contents.length)

/-- A section whose page refers to the same outline twice; the outline refers to one element twice and
to another one between: two contents with three items each. -/
example : ((parseSectionBuffer 3 Order.id (sectionFile none [3001, 3001]
      [outlineW 3001 [3002, 3003, 3002], outlineElementW 3002 [3003] [] [],
       outlineElementW 3003 [] [] []]) ['s']).toOption.map itemSizes) =
    some [[(1, 0), (0, 0), (1, 0)], [(1, 0), (0, 0), (1, 0)]] := by
  decide +kernel

end OneNote

#print axioms OneNote.C40_section
#print axioms OneNote.C40_section_file
#print axioms OneNote.C40_all_references_partial
#print axioms OneNote.C40_dropped_refuted
