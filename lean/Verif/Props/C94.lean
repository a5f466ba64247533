/-
C94: Properties can be moved and added together with their references.
-/
import Verif.Props.C75
import Verif.Lemmas.PlainSamples

namespace OneNote

open Spec Spec.StoreContents Spec.Document

/-- The two files have the same data elements, except that the stored properties of objects may be in
another order, each with its references, and that there may be other properties among them, with
references of their own, that the library does not read. `K` is asked of the properties of the objects
that differ. -/
def MovedFile (K : List CompactId → List Carried → Prop) (data data' : Bytes) : Prop :=
  ∃ (si : ExGuid) (es es' : List LaxElement),
    HoldsElements data si es ∧ HoldsElements data' si es' ∧ Each (MovedElement K) es es'

theorem moved_same {data data' : Bytes} (h : MovedFile Countable data data') :
    SaysTheSame data data' := by
  obtain ⟨si, es, es', h1, h2, h3⟩ := h
  refine ⟨si, es, es', h1, h2, each_mono h3 fun e e' _ h => ?_⟩
  rcases h with h | ⟨ds, os, ds', os', a, b, c, d, f⟩
  · exact .inl h
  · refine .inr ⟨ds, os, ds', os', a, b, c, d, each_mono f fun x x' _ hx => ⟨hx.1, ?_⟩⟩
    rcases hx.2 with hx | ⟨h1, h2⟩
    · exact .inl hx
    · exact .inr ⟨h1, .inr h2⟩

/-- **Properties can be moved and added together with their references** (the part that holds): a file
in which the properties of objects are stored in any other order, each with its references to objects,
and with any further properties that are not among the 162 that are read, also with references, shows
the same section, or no section. Missing: the references in single nested property sets, and identifiers
that are used in nested property sets and elsewhere in the object, see below. -/
theorem C94_section_partial (data data' : Bytes) (h : MovedFile Countable data data')
    (hu : PlainFile data) (ord ord' : Order) (name : Text) (s : Section) :
    (∃ fuel, parseSectionBuffer fuel ord data name = .ok s) ↔
      ∃ fuel, parseSectionBuffer fuel ord' data' name = .ok s :=
  C75_section data data' (moved_same h) hu ord ord' name s

/-- The same for the files of a notebook. -/
theorem C94_notebook_partial (fs : FileSystem) (files : Path → Option Bytes) (sanitise : Text → Text)
    (path : Path) (hu : PlainFiles fs)
    (hf : ∀ p, (fs.read p).isSome = (files p).isSome ∧ ∀ d d', fs.read p = some d →
      files p = some d' → d = d' ∨ MovedFile Countable d d')
    (ord ord' : Order) (nb : Notebook) :
    (∃ n fuel, parseNotebook ⟨fs, sanitise, ord, fuel⟩ n path = .ok nb) ↔
      ∃ n fuel, parseNotebook ⟨{ fs with read := files }, sanitise, ord', fuel⟩ n path = .ok nb := by
  refine C75_notebook fs files sanitise path hu (fun p => ⟨(hf p).1, fun d d' h h' => ?_⟩) ord ord' nb
  exact ((hf p).2 d d' h h').imp_right moved_same

/-! ### A paragraph with a note tag -/

/-- A property as it is stored: key, type, value, bytes of the value, references. -/
private structure Item where
  key : Nat
  type : Nat
  value : PropertyValue
  bytes : Bytes
  refs : List (CompactId × ExGuid) := []

private def Item.carried (i : Item) : Carried := ⟨i.key, i.value, i.refs⟩

private def streams (is : List Item) : Bytes :=
  streamHeader (idsIn (is.map Item.carried)).length 0 false true ++
    (compactIds (idsIn (is.map Item.carried)) ++ (leBytes 2 (entriesIn (is.map Item.carried)).length ++
      ((is.flatMap fun i => leBytes 4 (idWord i.key i.type false)) ++ is.flatMap (·.bytes))))

private theorem streams_enc {is : List Item} (hl : is.length < 2 ^ 16)
    (h : ∀ i ∈ is, i.key < 2 ^ 26 ∧ ValueEnc i.type false i.value i.bytes) :
    ObjectPropSetEnc (idsIn (is.map Item.carried)) [] [] (entriesIn (is.map Item.carried))
      (streams is) := by
  refine .oids 0 false _ _ (by decide) (.mk _ _ _ (by simpa [entriesIn] using hl) ?_)
  clear hl
  induction is with
  | nil => exact .nil
  | cons i is ih =>
    obtain ⟨h1, h2⟩ := h i (.head _)
    rw [List.flatMap_cons, List.flatMap_cons]
    exact .cons _ _ _ _ _ _ _ _ h1 h2 (ih fun i hi => h i (.tail _ hi))

private def tag : List (Nat × PropertyValue) :=
  [(Word.noteTagDefinitionOid % 2 ^ 26, .objectId), (Word.noteTagCreated % 2 ^ 26, .u32 0),
   (Word.actionItemStatus % 2 ^ 26, .u16 0)]

private def tagBytes : Bytes :=
  leBytes 2 3 ++ ((leBytes 4 (idWord (Word.noteTagDefinitionOid % 2 ^ 26) 8 false) ++
    (leBytes 4 (idWord (Word.noteTagCreated % 2 ^ 26) 5 false) ++
    (leBytes 4 (idWord (Word.actionItemStatus % 2 ^ 26) 4 false) ++ []))) ++
    ([] ++ (leBytes 4 0 ++ (leBytes 2 0 ++ []))))

private def time : Item := ⟨Word.lastModifiedTime % 2 ^ 26, 5, .u32 0, leBytes 4 0, []⟩
private def style : Item :=
  ⟨Word.paragraphStyle % 2 ^ 26, 8, .objectId, [], [(⟨0, 0⟩, sx 3004)]⟩
private def tags : Item :=
  ⟨Word.noteTags % 2 ^ 26, 0x10, .propertyValues 0x44003489 [setOf tag],
    leBytes 4 1 ++ (leBytes 4 0x44003489 ++ (tagBytes ++ [])), [(⟨1, 0⟩, sx 3011)]⟩

/-- A property that the library does not know, with a reference. -/
private def unknown (id : CompactId) : Item := ⟨0x3ABCDEF, 8, .objectId, [], [(id, sx 3011)]⟩

/-- The same inside a single nested property set. -/
private def unknownSet : Item :=
  ⟨0x3ABCDEF, 0x11, .propertySet (setOf [(5, .objectId)]),
    leBytes 2 1 ++ ((leBytes 4 (idWord 5 8 false) ++ []) ++ ([] ++ [])), [(⟨2, 0⟩, sx 3005)]⟩

private theorem time_enc : time.key < 2 ^ 26 ∧ ValueEnc time.type false time.value time.bytes :=
  ⟨by decide, .u32 _ 0 (by decide)⟩
private theorem style_enc : style.key < 2 ^ 26 ∧ ValueEnc style.type false style.value style.bytes :=
  ⟨by decide, .objectId _⟩
private theorem tags_enc : tags.key < 2 ^ 26 ∧ ValueEnc tags.type false tags.value tags.bytes :=
  ⟨by decide, .propertyValues _ _ _ _ (by decide) (by decide) (.cons _ _ _ _ (.mk tag _ _ (by decide)
    (.cons _ _ _ _ _ _ _ _ (by decide) (.objectId _) (.cons _ _ _ _ _ _ _ _ (by decide)
      (.u32 _ 0 (by decide)) (.cons _ _ _ _ _ _ _ _ (by decide) (.u16 _ 0 (by decide)) .nil)))) .nil)⟩
private theorem unknown_enc (id : CompactId) : (unknown id).key < 2 ^ 26 ∧
    ValueEnc (unknown id).type false (unknown id).value (unknown id).bytes :=
  ⟨by show 0x3ABCDEF < 2 ^ 26; decide, .objectId _⟩
private theorem unknownSet_enc : unknownSet.key < 2 ^ 26 ∧
    ValueEnc unknownSet.type false unknownSet.value unknownSet.bytes :=
  ⟨by decide, .propertySet _ _ _ (.mk [(5, .objectId)] _ _ (by decide)
    (.cons _ _ _ _ _ _ _ _ (by decide) (.objectId _) .nil))⟩

/-! ### The file -/

private def others : List SampleObject :=
  [objectW 3004 .paragraphStyleObject [], objectW 3005 .paragraphStyleObject [(.bold, .bool true)],
   objectW 3011 .noteTagSharedDefinitionContainer
    [(.noteTagLabel, stringW ['a']), (.noteTagPropertyStatus, .u32 0), (.noteTagShape, .u16 0),
     (.actionItemType, .u16 0)]]

private def earlier : List SampleObject :=
  pageObjects [3001] [outlineW 3001 [3002], outlineElementW 3002 [] [3003] []]

/-- The paragraph with these references and properties. -/
private def paragraph (refs : List ExGuid) (props : Bytes) : SampleObject :=
  ⟨3003, PropertySetId.richTextNode.asJcid, refs, [], props⟩

private def elements (refs : List ExGuid) (props : Bytes) : List Element :=
  ⟨sx 4, manifestOf sectionGuid⟩ ::
    storeElements [.root contentRole (sx 1000), .root metadataRole (sx 1001)] (sectionObjects none 1)
      [(pageCell, 5, [.root contentRole (sx 2002), .root metadataRole (sx 2001)],
        earlier ++ paragraph refs props :: others)]

private def file (is : List Item) : Bytes :=
  fileW (sx 3) sectionGuid (elements (refsIn (is.map Item.carried)) (streams is))

private def pairs (objects : List SampleObject) : List (Declaration × GroupData) :=
  objects.flatMap fun o => [(.object (sx o.id) 4 0 0 0, .object [] [] (leBytes 4 o.jcid)),
    (.object (sx o.id) 1 0 0 0, .object o.refs o.cells o.props)]

private theorem group_pairs (objects : List SampleObject) : ∃ ds os, groupOf objects = .objectGroup ds os ∧
    ds.length = os.length ∧ ds.zip os = pairs objects := by
  refine ⟨_, _, rfl, ?_, ?_⟩
  · induction objects with
    | nil => rfl
    | cons o objects ih =>
      rw [List.flatMap_cons, List.flatMap_cons, List.length_append, List.length_append, ih]
      rfl
  · induction objects with
    | nil => rfl
    | cons o objects ih =>
      show _ :: _ :: _ = _ :: _ :: pairs objects
      rw [← ih]
      rfl

private theorem each_eq {α : Type} {P : α → α → Prop} (h : ∀ a, P a a) (l : List α) : Each P l l := by
  induction l with
  | nil => exact .nil
  | cons a l ih => exact .cons (h a) ih

private theorem each_app {α : Type} {P : α → α → Prop} {a b a' b' : List α} (h : Each P a a')
    (h' : Each P b b') : Each P (a ++ b) (a' ++ b') := by
  induction h with
  | nil => exact h'
  | cons h1 _ ih => exact .cons h1 ih

private theorem group_moved {K : List CompactId → List Carried → Prop} {refs refs' : List ExGuid}
    {b b' : Bytes} (h : MovedProperties K refs b refs' b') (id : ExGuid) (pre post : List SampleObject) :
    MovedElement K (ordinary ⟨id, groupOf (pre ++ paragraph refs b :: post)⟩)
      (ordinary ⟨id, groupOf (pre ++ paragraph refs' b' :: post)⟩) := by
  obtain ⟨ds, os, h1, h2, h3⟩ := group_pairs (pre ++ paragraph refs b :: post)
  obtain ⟨ds', os', h1', h2', h3'⟩ := group_pairs (pre ++ paragraph refs' b' :: post)
  rw [h1, h1']
  refine .inr ⟨ds, os, ds', os', rfl, rfl, h2, h2', ?_⟩
  rw [h3, h3']
  unfold pairs
  rw [List.flatMap_append, List.flatMap_append, List.flatMap_cons, List.flatMap_cons]
  refine each_app (each_eq (fun a => ⟨rfl, .inl rfl⟩) _) (each_app ?_ (each_eq (fun a => ⟨rfl, .inl rfl⟩) _))
  exact .cons ⟨rfl, .inl rfl⟩ (.cons ⟨rfl, .inr ⟨rfl, _, _, _, _, _, rfl, rfl, h⟩⟩ .nil)

private theorem elements_moved {K : List CompactId → List Carried → Prop} {refs refs' : List ExGuid}
    {b b' : Bytes} (h : MovedProperties K refs b refs' b') :
    Each (MovedElement K) ((elements refs b).map ordinary) ((elements refs' b').map ordinary) := by
  have e : ∃ l : List Element, ∀ (refs : List ExGuid) (b : Bytes),
      elements refs b = l ++ [⟨sx 405, groupOf (earlier ++ paragraph refs b :: others)⟩] :=
    ⟨⟨sx 4, manifestOf sectionGuid⟩ :: [⟨sx 3, .storageIndex ([.cell headerCell (sx 101) ⟨sampleGuid, 1⟩,
      .cell dataCell (sx 102) ⟨sampleGuid, 2⟩] ++ [.cell pageCell (sx 105) ⟨sampleGuid, 5⟩])⟩] ++
      cellOf 1 [] (.objectGroup [.object (sx 900) 1 0 0 0] [.object [] [] headerProps]) ++
      cellOf 2 [.root contentRole (sx 1000), .root metadataRole (sx 1001)]
        (groupOf (sectionObjects none 1)) ++
      [⟨sx 105, .cellManifest (sx 205)⟩,
       ⟨sx 205, .revisionManifest (sx 205) ExGuid.nil ([.root contentRole (sx 2002),
        .root metadataRole (sx 2001)] ++ [.group (sx 405)])⟩], fun _ _ => rfl⟩
  obtain ⟨l, e⟩ := e
  rw [e, e, List.map_append, List.map_append]
  exact each_app (each_eq (fun a => .inl rfl) _) (.cons (group_moved h _ _ _) .nil)


/-- Whether the paragraph is bold and whether its tag has a definition. -/
private def shown (s : Section) : List (Bool × List Bool) :=
  s.pageSeries.flatMap fun series => series.pages.flatMap fun p => p.contents.flatMap fun
    | .outline o => o.items.flatMap fun
      | .element e => e.contents.flatMap fun
        | .richText t => [(t.paragraphStyle.bold, t.noteTags.map (·.definition.isSome))]
        | _ => []
      | _ => []
    | _ => []

private def result (is : List Item) : Option (List (Bool × List Bool)) :=
  (parseSectionBuffer 9 Order.id (file is) []).toOption.map shown

private def usual : List Item := [time, style, tags]
private def swapped : List Item := [unknown ⟨2, 0⟩, tags, time, style]
private def withSet : List Item := [time, tags, unknownSet, style]
private def withRepeated : List Item := [time, style, tags, unknown ⟨1, 0⟩]

private theorem items_enc : ∀ is ∈ [usual, swapped, withSet, withRepeated], ∀ i ∈ is,
    i.key < 2 ^ 26 ∧ ValueEnc i.type false i.value i.bytes := by
  intro is his
  simp only [List.mem_cons, List.not_mem_nil, or_false] at his
  rcases his with rfl | rfl | rfl | rfl <;> intro i hi <;>
    simp only [usual, swapped, withSet, withRepeated, List.mem_cons, List.not_mem_nil, or_false] at hi
  · rcases hi with rfl | rfl | rfl
    · exact time_enc
    · exact style_enc
    · exact tags_enc
  · rcases hi with rfl | rfl | rfl | rfl
    · exact unknown_enc _
    · exact tags_enc
    · exact time_enc
    · exact style_enc
  · rcases hi with rfl | rfl | rfl | rfl
    · exact time_enc
    · exact tags_enc
    · exact unknownSet_enc
    · exact style_enc
  · rcases hi with rfl | rfl | rfl | rfl
    · exact time_enc
    · exact style_enc
    · exact tags_enc
    · exact unknown_enc _

private theorem items_all : ∀ is ∈ [usual, swapped, withSet, withRepeated],
    CarriesAll (is.map Item.carried) := by
  intro is his
  simp only [List.mem_cons, List.not_mem_nil, or_false] at his
  rcases his with rfl | rfl | rfl | rfl <;>
    exact ⟨by unfold DistinctIds; decide +kernel, by decide +kernel⟩

private theorem items_fit : ∀ is ∈ [usual, swapped, withSet, withRepeated],
    StreamFits (idsIn (is.map Item.carried)) ∧ is.length < 2 ^ 16 ∧
      (entriesIn (is.map Item.carried)).filter (fun e => decide (Fields.idsCounted .spaces e.2 ≠ 0)) = [] ∧
      ∀ e ∈ elements (refsIn (is.map Item.carried)) (streams is), ElementFits e := by
  intro is his
  simp only [List.mem_cons, List.not_mem_nil, or_false] at his
  rcases his with rfl | rfl | rfl | rfl <;>
    exact ⟨⟨by decide, by unfold CompactIdOk; decide⟩, by decide, rfl, by decide +kernel⟩

/-- The lists have the same properties but for the one that is not read. -/
private theorem items_same : ∀ is ∈ [usual, swapped, withSet, withRepeated],
    KeepsRead (usual.map Item.carried) (is.map Item.carried) ∧
      KeepsRead (is.map Item.carried) (usual.map Item.carried) := by
  have key : ∀ is is' : List Item, (∀ i ∈ is, i.key ∈ readKeys → i = time ∨ i = style ∨ i = tags) →
      (time ∈ is' ∧ style ∈ is' ∧ tags ∈ is') →
      KeepsRead (is.map Item.carried) (is'.map Item.carried) := by
    intro is is' h h' c hc hk
    obtain ⟨i, hi, rfl⟩ := List.mem_map.1 hc
    refine ⟨_, List.mem_map.2 ⟨i, ?_, rfl⟩, rfl, .inl rfl, rfl⟩
    rcases h i hi hk with rfl | rfl | rfl
    · exact h'.1
    · exact h'.2.1
    · exact h'.2.2
  have un : ∀ id, (unknown id).key ∉ readKeys := by
    intro id
    show 0x3ABCDEF ∉ readKeys
    decide +kernel
  have us : unknownSet.key ∉ readKeys := by decide +kernel
  intro is his
  simp only [List.mem_cons, List.not_mem_nil, or_false] at his
  refine ⟨key _ _ (fun i hi _ => by simpa [usual] using hi) ?_, key _ _ (fun i hi hk => ?_)
    (by simp [usual])⟩
  · rcases his with rfl | rfl | rfl | rfl <;> simp [usual, swapped, withSet, withRepeated]
  · rcases his with rfl | rfl | rfl | rfl <;>
      simp only [usual, swapped, withSet, withRepeated, List.mem_cons, List.not_mem_nil, or_false] at hi
    · exact hi
    · rcases hi with rfl | rfl | rfl | rfl
      · exact absurd hk (un _)
      all_goals simp
    · rcases hi with rfl | rfl | rfl | rfl
      · simp
      · simp
      · exact absurd hk us
      · simp
    · rcases hi with rfl | rfl | rfl | rfl
      · simp
      · simp
      · simp
      · exact absurd hk (un _)

private theorem items_moved {K : List CompactId → List Carried → Prop} {is : List Item}
    (h : is ∈ [usual, swapped, withSet, withRepeated]) (hk : K [] (usual.map Item.carried))
    (hk' : K [] (is.map Item.carried)) : MovedFile K (file usual) (file is) := by
  have fits : StreamFits [] := ⟨by decide, by simp⟩
  have hu : usual ∈ [usual, swapped, withSet, withRepeated] := by simp
  obtain ⟨f1, l1, e1, x1⟩ := items_fit usual hu
  obtain ⟨f2, l2, e2, x2⟩ := items_fit is h
  refine ⟨sx 3, _, _, fileW_holds (by decide) x1, fileW_holds (by decide) x2, elements_moved
    ⟨[], [], _, _, _, _, [], [], streams_enc l1 (items_enc usual hu), streams_enc l2 (items_enc is h),
      ⟨f1, f2, fits, fits⟩, ⟨items_all usual hu, items_all is h⟩, ⟨hk, hk'⟩,
      ⟨(items_same is h).1, (items_same is h).2, e1.trans e2.symm⟩, ⟨rfl, rfl⟩,
      (List.append_nil _).symm, (List.append_nil _).symm⟩⟩

private theorem usual_plain : PlainFile (file usual) :=
  PlainSamples.plain (items_fit usual (by simp)).2.2.2
    (PlainSamples.package_unambiguous (by decide +kernel) (by decide +kernel) (by decide +kernel))

private theorem found {is : List Item} {x : List (Bool × List Bool)} (h : result is = some x) :
    ∃ s, parseSectionBuffer 9 Order.id (file is) [] = .ok s ∧ shown s = x := by
  obtain ⟨s, hs, hx⟩ := Option.map_eq_some_iff.1 h
  exact ⟨s, toOption_some hs, hx⟩

private theorem once_of {is : List Item} (h : is ∈ [usual, swapped, withSet]) :
    ∀ c ∈ is.map Item.carried, c.key ∈ nestedKeys → ∀ r ∈ c.refs,
      (idsIn (is.map Item.carried) ++ []).count r.1 = 1 := by
  simp only [List.mem_cons, List.not_mem_nil, or_false] at h
  rcases h with rfl | rfl | rfl <;> decide +kernel

private theorem free_of {is : List Item} (h : is ∈ [usual, swapped, withRepeated]) :
    ∀ c ∈ is.map Item.carried, SingleSetsFree .objects c.value := by
  have ht : SingleSetsFree .objects tags.value := by
    have e : setOf tag = [(Word.noteTagDefinitionOid % 2 ^ 26, 0, .objectId),
      (Word.noteTagCreated % 2 ^ 26, 1, .u32 0), (Word.actionItemStatus % 2 ^ 26, 2, .u16 0)] := rfl
    show SingleSetsFreeSet .objects (setOf tag) ∧ True
    rw [e]
    exact ⟨⟨trivial, trivial, trivial, trivial⟩, trivial⟩
  intro c hc
  obtain ⟨i, hi, rfl⟩ := List.mem_map.1 hc
  simp only [List.mem_cons, List.not_mem_nil, or_false] at h
  rcases h with rfl | rfl | rfl <;>
    simp only [usual, swapped, withRepeated, List.mem_cons, List.not_mem_nil, or_false] at hi
  · rcases hi with rfl | rfl | rfl
    · trivial
    · trivial
    · exact ht
  · rcases hi with rfl | rfl | rfl | rfl
    · trivial
    · exact ht
    · trivial
    · trivial
  · rcases hi with rfl | rfl | rfl | rfl
    · trivial
    · trivial
    · exact ht
    · trivial

/-- A single nested property set, unknown, with one reference: the paragraph takes its style from the
reference of that set, and is bold. -/
theorem C94_set_refuted : ∃ data data' s s',
    PlainFile data ∧ MovedFile (fun ctx cs => ∀ c ∈ cs, c.key ∈ nestedKeys → ∀ r ∈ c.refs,
      (idsIn cs ++ ctx).count r.1 = 1) data data' ∧
    parseSectionBuffer 9 Order.id data [] = .ok s ∧ shown s = [(false, [true])] ∧
    parseSectionBuffer 9 Order.id data' [] = .ok s' ∧ shown s' = [(true, [true])] := by
  obtain ⟨s, h1, h2⟩ := found (is := usual) (x := [(false, [true])]) (by decide +kernel)
  obtain ⟨s', h3, h4⟩ := found (is := withSet) (x := [(true, [true])]) (by decide +kernel)
  exact ⟨_, _, s, s', usual_plain, items_moved (by simp) (once_of (by simp)) (once_of (by simp)),
    h1, h2, h3, h4⟩

/-- An unknown property that refers to the definition of the paragraph's tag, with the same identifier:
the tag is shown without its definition. -/
theorem C94_tag_refuted : ∃ data data' s s',
    PlainFile data ∧
    MovedFile (fun _ cs => ∀ c ∈ cs, SingleSetsFree .objects c.value) data data' ∧
    parseSectionBuffer 9 Order.id data [] = .ok s ∧ shown s = [(false, [true])] ∧
    parseSectionBuffer 9 Order.id data' [] = .ok s' ∧ shown s' = [(false, [false])] := by
  obtain ⟨s, h1, h2⟩ := found (is := usual) (x := [(false, [true])]) (by decide +kernel)
  obtain ⟨s', h3, h4⟩ := found (is := withRepeated) (x := [(false, [false])]) (by decide +kernel)
  exact ⟨_, _, s, s', usual_plain, items_moved (by simp) (free_of (by simp)) (free_of (by simp)),
    h1, h2, h3, h4⟩

/-- The hypotheses of `C94_section_partial` are met: the tag is stored before the style, and before both
a property with a reference that the library does not know. -/
example : ∃ data data' s, PlainFile data ∧ MovedFile Countable data data' ∧ data ≠ data' ∧
    parseSectionBuffer 9 Order.id data [] = .ok s ∧ shown s = [(false, [true])] := by
  obtain ⟨s, h1, h2⟩ := found (is := usual) (x := [(false, [true])]) (by decide +kernel)
  exact ⟨_, _, s, usual_plain, items_moved (is := swapped) (by simp) ⟨free_of (by simp), once_of (by simp)⟩
    ⟨free_of (by simp), once_of (by simp)⟩, by decide +kernel, h1, h2⟩

#print axioms C94_section_partial
#print axioms C94_notebook_partial
#print axioms C94_set_refuted
#print axioms C94_tag_refuted

end OneNote
