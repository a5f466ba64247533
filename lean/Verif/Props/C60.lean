/-
C60: A note tag shows its own definition.
-/
import Verif.Spec.Tags
import Verif.Spec.Runs
import Verif.Spec.SampleFile
import Verif.Lemmas.Refs
import Verif.Lemmas.Shown
import Verif.Lemmas.Terminates
import Verif.Props.C43
import Verif.Props.C47

namespace OneNote

open Spec Spec.Document Spec.Fields Spec.Objects Spec.Tags Spec.Shown

/-! ### Two tags -/

/-- A section file with a paragraph with two note tags: the first refers to object 3011, which is
called `a`, the second to object 3012, which is called `b`. -/
private def file : Bytes :=
  sectionFile none [3001] [outlineW 3001 [3002], outlineElementW 3002 [] [3003] [],
    objectW 3003 .richTextNode
      [(.lastModifiedTime, .u32 0), (.paragraphStyle, .objectId),
       (.noteTags, .propertyValues PropertyType.noteTag.code [tag, tag])] [3004, 3011, 3012],
    objectW 3004 .paragraphStyleObject [], definition 3011 'a', definition 3012 'b']
where
  tag := nestedW [(.noteTagDefinitionOid, .objectId), (.noteTagCreated, .u32 0),
    (.actionItemStatus, .u16 0)]
  definition (id : Nat) (label : Char) := objectW id .noteTagSharedDefinitionContainer
    [(.noteTagLabel, stringW [label]), (.noteTagPropertyStatus, .u32 0), (.noteTagShape, .u16 0),
     (.actionItemType, .u16 0)]

private def texts (s : Section) : List RichText :=
  s.pageSeries.flatMap fun series => series.pages.flatMap fun p => p.contents.flatMap fun
    | .outline o => o.items.flatMap fun
      | .element e => e.contents.flatMap fun
        | .richText t => [t]
        | _ => []
      | _ => []
    | _ => []

private theorem texts_shown {s : Section} {t : RichText} (h : t ∈ texts s) : TextOf t s := by
  obtain ⟨series, hs, h⟩ := List.mem_flatMap.1 h
  obtain ⟨p, hp, h⟩ := List.mem_flatMap.1 h
  obtain ⟨c, hc, h⟩ := List.mem_flatMap.1 h
  refine ⟨p, ⟨series, hs, hp⟩, ?_⟩
  cases c with
  | outline o =>
    obtain ⟨i, hi, h⟩ := List.mem_flatMap.1 h
    cases i with
    | group g => cases h
    | element e =>
      obtain ⟨x, hx, h⟩ := List.mem_flatMap.1 h
      cases x with
      | richText r =>
        obtain rfl := List.mem_singleton.1 h
        exact ⟨o, .inl hc, _, hi, .element (.here hx)⟩
      | _ => cases h
  | _ => cases h

/-- The reference of the second of two tags to its definition, calculated. -/
private def own (o : Object) (a b : PropertySet) : Option ExGuid := do
  let i ← o.props.properties.index Word.noteTags
  let j ← b.index Word.noteTagDefinitionOid
  let pos := ((o.props.properties.filter fun e => decide (e.2.1 < i)).map fun e =>
    idsUsed .objects e.2.2).sum + idsUsedSet .objects a +
    ((b.filter fun e => decide (e.2.1 < j)).map fun e => idsUsed .objects e.2.2).sum
  let id ← o.props.objectIds[pos]?
  o.mapping.getObject pos id

private theorem own_unique {o : Object} {a b : PropertySet} {x : ExGuid} (h : own o a b = some x)
    {r : Option ExGuid} (hr : OwnDefinition o [a, b] 1 r) : r = some x := by
  unfold own at h
  obtain ⟨i, hi, h⟩ := Option.bind_eq_some_iff.1 h
  obtain ⟨j, hj, h⟩ := Option.bind_eq_some_iff.1 h
  obtain ⟨id, hid, h⟩ := Option.bind_eq_some_iff.1 h
  obtain ⟨set, hs, hr⟩ := hr
  cases hs
  rcases hr with ⟨h0, _⟩ | ⟨start, inside, id', ⟨i', hi', rfl⟩, ⟨j', hj', rfl⟩, hid', rfl⟩
  · unfold PropertySet.get at h0
    unfold PropertySet.index at hj
    rw [Option.map_eq_none_iff] at h0
    rw [h0] at hj
    cases hj
  · rw [hi] at hi'
    cases hi'
    rw [hj] at hj'
    cases hj'
    have hb : before [a, b] 1 = idsUsedSet .objects a := by
      simp [before]
    rw [hb] at hid' ⊢
    rw [hid] at hid'
    cases hid'
    exact h

private theorem own_is {o : Object} {a b : PropertySet} {x : ExGuid} (h : own o a b = some x) :
    OwnDefinition o [a, b] 1 (some x) := by
  unfold own at h
  obtain ⟨i, hi, h⟩ := Option.bind_eq_some_iff.1 h
  obtain ⟨j, hj, h⟩ := Option.bind_eq_some_iff.1 h
  obtain ⟨id, hid, h⟩ := Option.bind_eq_some_iff.1 h
  have hb : before [a, b] 1 = idsUsedSet .objects a := by
    simp [before]
  refine ⟨b, rfl, .inr ⟨_, _, id, ⟨i, hi, rfl⟩, ⟨j, hj, rfl⟩, ?_, ?_⟩⟩
  · rw [hb]
    exact hid
  · rw [hb]
    exact h.symm

/-- The two stored sets. -/
private def two : Option PropertyValue → Option (PropertySet × PropertySet)
  | some (.propertyValues _ [a, b]) => some (a, b)
  | _ => none

private theorem two_some {v : Option PropertyValue} {a b : PropertySet} (h : two v = some (a, b)) :
    ∃ kind, v = some (.propertyValues kind [a, b]) := by
  unfold two at h
  split at h
  · cases h
    exact ⟨_, rfl⟩
  · cases h

private structure Found where
  s : Section
  store : Store
  space : ObjectSpace
  o : Object
  t : RichText
  a : PropertySet
  b : PropertySet
  d : NoteTagDefinition

private def found : Option Found := do
  let s ← (parseSectionBuffer 2 Order.id file []).toOption
  let store ← (readStore Order.id file).toOption
  let space ← store.objectSpace pageCell
  let o ← space.getObject (sx 3003)
  let t ← (parseRichText space (sx 3003)).toOption
  let (a, b) ← two (o.props.properties.get Word.noteTags)
  let d ← (parseNoteTagDefinition space (sx 3012)).toOption
  some ⟨s, store, space, o, t, a, b, d⟩

private theorem found_some : found.map (fun f => (decide (texts f.s = [f.t]), own f.o f.a f.b,
    f.d.label, f.t.noteTags.map fun n => n.definition.map (·.label))) =
    some (true, some (sx 3012), ['b'], [some ['a'], some ['a']]) := by decide +kernel

private theorem found_facts : ∃ s store space o t a b d,
    parseSectionBuffer 2 Order.id file [] = .ok s ∧ texts s = [t] ∧
    readStore Order.id file = .ok store ∧ store.objectSpace pageCell = some space ∧
    space.getObject (sx 3003) = some o ∧ parseRichText space (sx 3003) = .ok t ∧
    two (o.props.properties.get Word.noteTags) = some (a, b) ∧
    parseNoteTagDefinition space (sx 3012) = .ok d ∧ own o a b = some (sx 3012) ∧ d.label = ['b'] ∧
    (t.noteTags.map fun n => n.definition.map (·.label)) = [some ['a'], some ['a']] := by
  obtain ⟨f, hf, h⟩ := Option.map_eq_some_iff.1 found_some
  simp only [Prod.mk.injEq, decide_eq_true_eq] at h
  obtain ⟨h1, h2, h3, h4⟩ := h
  unfold found at hf
  obtain ⟨s, e1, hf⟩ := Option.bind_eq_some_iff.1 hf
  obtain ⟨store, e2, hf⟩ := Option.bind_eq_some_iff.1 hf
  obtain ⟨space, e3, hf⟩ := Option.bind_eq_some_iff.1 hf
  obtain ⟨o, e4, hf⟩ := Option.bind_eq_some_iff.1 hf
  obtain ⟨t, e5, hf⟩ := Option.bind_eq_some_iff.1 hf
  obtain ⟨⟨a, b⟩, e6, hf⟩ := Option.bind_eq_some_iff.1 hf
  obtain ⟨d, e7, hf⟩ := Option.bind_eq_some_iff.1 hf
  injection hf with hf
  subst hf
  exact ⟨s, store, space, o, t, a, b, d, toOption_some e1, h1, toOption_some e2, e3, e4,
    toOption_some e5, e6, toOption_some e7, h2, h3, h4⟩

/-- FALSE in general: the second tag of a paragraph shows the definition of the first. The reader is
given the file above. -/
theorem C60_refuted : ∃ data s t store space o kind a b tag,
    parseSectionBuffer 2 Order.id data [] = .ok s ∧ TextOf t s ∧
    readStore Order.id data = .ok store ∧ StoredIn store space (sx 3003) o ∧
    TextIs space (sx 3003) t ∧
    o.props.properties.get Word.noteTags = some (.propertyValues kind [a, b]) ∧
    t.noteTags[1]? = some tag ∧ (∃ d, DefinitionIs space (sx 3012) d ∧ d.label = ['b']) ∧
    OwnDefinition o [a, b] 1 (some (sx 3012)) ∧ (∃ d, tag.definition = some d ∧ d.label = ['a']) ∧
    ¬ ShowsOwn space o [a, b] 1 tag := by
  obtain ⟨s, store, space, o, t, a, b, d, e1, e2, e3, e4, e5, e6, e7, e8, e9, e10, e11⟩ := found_facts
  obtain ⟨kind, hk⟩ := two_some e7
  have ho : DefinitionIs space (sx 3012) d := definition_iff.1 e8
  obtain ⟨tag, ht, hl⟩ : ∃ tag, t.noteTags[1]? = some tag ∧
      tag.definition.map (·.label) = some ['a'] := by
    have := congrArg (·[1]?) e11
    simp only [List.getElem?_map] at this
    exact Option.map_eq_some_iff.1 this
  obtain ⟨c, hc, hl⟩ := Option.map_eq_some_iff.1 hl
  refine ⟨file, s, t, store, space, o, kind, a, b, tag, e1, texts_shown (by rw [e2]; exact .head _), e3,
    ⟨⟨pageCell, e4⟩, e5⟩, (C43_text _ _ _).1 e6, hk, ht, ⟨d, ho, e10⟩, own_is e9, ⟨c, hc, hl⟩, ?_⟩
  rintro ⟨r, hr, hm⟩
  obtain rfl := own_unique e9 hr
  rcases hm with ⟨h0, _⟩ | ⟨x, y, hx, hy, h⟩
  · cases h0
  · cases hx
    have h := definition_iff.2 h
    rw [e8] at h
    cases h
    rw [hc] at hy
    cases hy
    rw [e10] at hl
    exact absurd hl (by decide)

/-! ### What holds -/

/-- The tags that are shown for the object. -/
private def Tagged (space : ObjectSpace) (o : Object) (tags : List NoteTag) : Prop :=
  ∃ data, (∃ inners, Nested o Word.noteTags inners ∧ Each IsNoteTagData inners data) ∧
    Each (NoteTagIs space) data tags

private theorem counted_used {v : PropertyValue} (h : SingleSetsFree .objects v) :
    idsCounted .objects v = idsUsed .objects v := by
  rw [← references_counted, references_eq _ _ h]

private theorem free_mem {ps : PropertySet} (h : SingleSetsFreeSet .objects ps)
    {e : Nat × Nat × PropertyValue} (he : e ∈ ps) : SingleSetsFree .objects e.2.2 := by
  induction ps with
  | nil => cases he
  | cons x ps ih =>
    rcases List.mem_cons.1 he with rfl | he
    · exact h.1
    · exact ih h.2 he

private theorem free_sets {sets : List PropertySet} (h : SingleSetsFreeSets .objects sets)
    {set : PropertySet} (he : set ∈ sets) : SingleSetsFreeSet .objects set := by
  induction sets with
  | nil => cases he
  | cons x ps ih =>
    rcases List.mem_cons.1 he with rfl | he
    · exact h.1
    · exact ih h.2 he

private theorem true_start {ps : PropertySet} {word pos : Nat} (h : SingleSetsFreeSet .objects ps)
    (hs : StartsAt .objects ps word pos) : TrueStart ps word pos := by
  obtain ⟨i, hi, rfl⟩ := hs
  refine ⟨i, hi, ?_⟩
  congr 1
  exact List.map_congr_left fun e he => counted_used (free_mem h ((List.mem_filter.1 he).1))

private theorem lookup_any {o : Object} (h : Once o) (i j : Nat) (cid : CompactId) :
    o.mapping.getObject i cid = o.mapping.getObject j cid := by
  unfold MappingTable.getObject MappingTable.lookup
  cases hg : o.mapping.objects.get? cid with
  | none => rfl
  | some es =>
    have := h cid es hg
    match es, this with
    | [], _ => rfl
    | [_], _ => rfl

/-- What is shown for the tags of an object. -/
private theorem tagged {space : ObjectSpace} {o : Object} {tags : List NoteTag}
    (h : Tagged space o tags) : TagsShown space o tags := by
  obtain ⟨data, ⟨inners, hn, hi⟩, ht⟩ := h
  rcases hn with ⟨h0, rfl⟩ | ⟨kind, sets, hg, hs⟩
  · cases hi
    cases ht
    exact .inl ⟨h0, rfl⟩
  · refine .inr ⟨kind, sets, hg, ?_, fun k tag set h1 h2 => ?_⟩
    · rw [((each_iff _ _ _).1 hs).1, ((each_iff _ _ _).1 hi).1, ((each_iff _ _ _).1 ht).1]
    · obtain ⟨l1, f1⟩ := (each_iff _ _ _).1 hs
      obtain ⟨l2, f2⟩ := (each_iff _ _ _).1 hi
      obtain ⟨l3, f3⟩ := (each_iff _ _ _).1 ht
      obtain ⟨k3, rfl⟩ := List.getElem?_eq_some_iff.1 h1
      obtain ⟨k0, rfl⟩ := List.getElem?_eq_some_iff.1 h2
      have f1 := f1 k k0 (by omega)
      have f2 := f2 k (by omega) (by omega)
      have f3 := f3 k (by omega) k3
      generalize inners[k]'(by omega) = inner at f1 f2
      generalize data[k]'(by omega) = d at f2 f3
      obtain ⟨pos, pos', hp, -, rfl⟩ := f1
      refine ⟨f3.completedAt ▸ f2.completedAt, f3.itemStatus ▸ f2.itemStatus, fun hf ho hb => ?_⟩
      have hfree : SingleSetsFreeSet .objects sets[k] := by
        obtain ⟨x, hx, he⟩ := Option.map_eq_some_iff.1 hg
        have := free_mem hf (Map.mem_of_get? hx)
        obtain ⟨x, y⟩ := x
        have he : y = _ := he
        subst he
        exact free_sets this (List.getElem_mem _)
      refine ⟨d.definition, ⟨sets[k], h2, ?_⟩, f3.definition⟩
      rcases f2.definition with hd | ⟨inside, id, -, hstart, hid, hr⟩
      · exact .inl hd
      · refine .inr ⟨pos, inside, id, true_start hf hp, true_start hfree hstart, ?_, ?_⟩
        · rw [hb]
          have hid : ((o.props.objectIds.drop pos).take _)[inside]? = some id := hid
          rw [List.getElem?_take] at hid
          split at hid
          · rwa [List.getElem?_drop] at hid
          · cases hid
        · rw [hr]
          exact lookup_any ho _ _ _

/-- The tags of every paragraph that is shown. -/
theorem C60_text_partial (fuel : Nat) (ord : Order) (data : Bytes) (name : Text) (s : Section)
    (h : parseSectionBuffer fuel ord data name = .ok s) (t : RichText) (ht : TextOf t s) :
    ∃ store space id o, readStore ord data = .ok store ∧ StoredIn store space id o ∧
      TextIs space id t ∧ TagsShown space o t.noteTags := by
  obtain ⟨store, hr, -, hs⟩ := (C43_buffer ord data name s).1 ⟨fuel, h⟩
  obtain ⟨p, hp, hc⟩ := ht
  obtain ⟨cell, space, hsp, hpage⟩ := page_space hs hp
  obtain ⟨id, hi⟩ := content_object hpage hc
  cases hi with
  | text hi =>
    obtain ⟨o, n, _, _, _, _, tags, h1, h2, -, -, -, -, -, -, h3, -, -, h4⟩ := _root_.id hi
    refine ⟨store, space, id, o, hr, ⟨⟨cell, hsp⟩, h1⟩, hi, ?_⟩
    rw [h4]
    exact tagged ⟨_, h2.noteTags, h3⟩

/-- The tags of every image that is shown. -/
theorem C60_image_partial (fuel : Nat) (ord : Order) (data : Bytes) (name : Text) (s : Section)
    (h : parseSectionBuffer fuel ord data name = .ok s) (p : Page) (hp : PageOf p s) (i : Image)
    (hi : ImageOn i p) :
    ∃ store space id o, readStore ord data = .ok store ∧ StoredIn store space id o ∧
      ImageIs space id i ∧ TagsShown space o i.noteTags := by
  obtain ⟨store, hr, -, hs⟩ := (C43_buffer ord data name s).1 ⟨fuel, h⟩
  obtain ⟨cell, space, hsp, hpage⟩ := page_space hs hp
  obtain ⟨id, hi⟩ := image_object hpage hi
  obtain ⟨o, n, _, _, tags, h1, h2, -, -, h3, h4⟩ := _root_.id hi
  refine ⟨store, space, id, o, hr, ⟨⟨cell, hsp⟩, h1⟩, hi, ?_⟩
  rw [h4]
  exact tagged ⟨_, h2.noteTags, h3⟩

/-- The tags of every attachment that is shown. -/
theorem C60_file_partial (fuel : Nat) (ord : Order) (data : Bytes) (name : Text) (s : Section)
    (h : parseSectionBuffer fuel ord data name = .ok s) (p : Page) (hp : PageOf p s)
    (f : EmbeddedFile) (hf : FileOn f p) :
    ∃ store space id o, readStore ord data = .ok store ∧ StoredIn store space id o ∧
      FileIs space id f ∧ TagsShown space o f.noteTags := by
  obtain ⟨store, hr, -, hs⟩ := (C43_buffer ord data name s).1 ⟨fuel, h⟩
  obtain ⟨cell, space, hsp, hpage⟩ := page_space hs hp
  obtain ⟨id, hi⟩ := file_object hpage hf
  obtain ⟨o, n, _, _, tags, h1, h2, -, -, h3, h4⟩ := _root_.id hi
  refine ⟨store, space, id, o, hr, ⟨⟨cell, hsp⟩, h1⟩, hi, ?_⟩
  rw [h4]
  exact tagged ⟨_, h2.noteTags, h3⟩

/-- The tags of every table that is shown. -/
theorem C60_table_partial (fuel : Nat) (ord : Order) (data : Bytes) (name : Text) (s : Section)
    (h : parseSectionBuffer fuel ord data name = .ok s) (p : Page) (hp : PageOf p s) (t : Table)
    (ht : ContentOn (.table t) p) :
    ∃ store space id o, readStore ord data = .ok store ∧ StoredIn store space id o ∧
      ContentIs space id (.table t) ∧ TagsShown space o t.noteTags := by
  obtain ⟨store, hr, -, hs⟩ := (C43_buffer ord data name s).1 ⟨fuel, h⟩
  obtain ⟨cell, space, hsp, hpage⟩ := page_space hs hp
  obtain ⟨id, hi⟩ := content_object hpage ht
  cases _root_.id hi with
  | table h1 h2 h3 h4 => exact ⟨store, space, id, _, hr, ⟨⟨cell, hsp⟩, h1⟩, hi, tagged ⟨_, h2.noteTags, h4⟩⟩

/-! ### An object that meets the hypotheses -/

private def plain : PropertyValue → Bool
  | .propertySet _ => false
  | .propertyValues _ _ => false
  | _ => true

private def flat : PropertyValue → Bool
  | .propertySet _ => false
  | .propertyValues _ sets => sets.all fun set => set.all fun e => plain e.2.2
  | _ => true

private theorem plain_free {v : PropertyValue} (h : plain v = true) : SingleSetsFree .objects v := by
  cases v <;> first | trivial | cases h

private theorem set_free {f : PropertyValue → Bool} (hf : ∀ v, f v = true → SingleSetsFree .objects v)
    {ps : PropertySet} (h : (ps.all fun e => f e.2.2) = true) : SingleSetsFreeSet .objects ps := by
  induction ps with
  | nil => trivial
  | cons e ps ih =>
    rw [List.all_cons, Bool.and_eq_true] at h
    exact ⟨hf _ h.1, ih h.2⟩

private theorem sets_free : ∀ {sets : List PropertySet},
    (sets.all fun set => set.all fun e => plain e.2.2) = true → SingleSetsFreeSets .objects sets
  | [], _ => trivial
  | _ :: _, h => by
    rw [List.all_cons, Bool.and_eq_true] at h
    exact ⟨set_free (fun _ => plain_free) h.1, sets_free h.2⟩

private theorem flat_free {v : PropertyValue} (h : flat v = true) : SingleSetsFree .objects v := by
  cases v <;> first | trivial | exact sets_free h | cases h

private theorem found_plain : found.map (fun f => (f.o.mapping.objects.all fun e =>
    decide (e.2.length ≤ 1)) && f.o.props.properties.all fun e => flat e.2.2) = some true := by
  decide +kernel

/-- The paragraph of the file above: its first tag shows its own definition. -/
example : ∃ data store space o, readStore Order.id data = .ok store ∧
    StoredIn store space (sx 3003) o ∧ SingleSetsFreeSet .objects o.props.properties ∧ Once o ∧
    ∀ sets, before sets 0 = 0 := by
  obtain ⟨f, hf, h⟩ := Option.map_eq_some_iff.1 found_plain
  rw [Bool.and_eq_true] at h
  unfold found at hf
  obtain ⟨s, e1, hf⟩ := Option.bind_eq_some_iff.1 hf
  obtain ⟨store, e2, hf⟩ := Option.bind_eq_some_iff.1 hf
  obtain ⟨space, e3, hf⟩ := Option.bind_eq_some_iff.1 hf
  obtain ⟨o, e4, hf⟩ := Option.bind_eq_some_iff.1 hf
  obtain ⟨t, e5, hf⟩ := Option.bind_eq_some_iff.1 hf
  obtain ⟨⟨a, b⟩, e6, hf⟩ := Option.bind_eq_some_iff.1 hf
  obtain ⟨d, e7, hf⟩ := Option.bind_eq_some_iff.1 hf
  injection hf with hf
  subst hf
  refine ⟨file, store, space, o, toOption_some e2, ⟨⟨pageCell, e3⟩, e4⟩, set_free (fun _ => flat_free) h.2,
    fun cid es hg => ?_, fun _ => rfl⟩
  exact of_decide_eq_true (List.all_eq_true.1 h.1 _ (Map.mem_of_get? hg))

#print axioms C60_refuted
#print axioms C60_text_partial
#print axioms C60_image_partial
#print axioms C60_file_partial
#print axioms C60_table_partial

end OneNote
