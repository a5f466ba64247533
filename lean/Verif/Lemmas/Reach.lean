/-
The document parsers look only at objects that can be got to from the roots.
-/
import Verif.Model.Notebook
import Verif.Spec.Reach
import Verif.Lemmas.Objects
import Verif.Lemmas.Leaves

namespace OneNote

open Spec Spec.Reach Spec.Fields Spec.Objects Spec.StoreContents

theorem lookup_refers {o : Object} {i : Nat} {cid : CompactId} {id : ExGuid}
    (h : o.mapping.getObject i cid = some id) : RefersTo o id := by
  unfold MappingTable.getObject MappingTable.lookup at h
  split at h
  · cases h
  · rename_i j x hx
    cases h
    exact ⟨cid, _, hx, by simp⟩
  · rename_i es hes hx
    obtain ⟨e, he, rfl⟩ := Option.map_eq_some_iff.1 h
    exact ⟨cid, _, hx, List.mem_map.2 ⟨e, List.mem_of_find?_eq_some he, rfl⟩⟩

theorem ref_refers {o : Object} {w : Nat} {id : ExGuid} (h : Ref o w (some id)) : RefersTo o id := by
  rcases h with ⟨_, h⟩ | ⟨_, _, _, _, _, h⟩
  · cases h
  · exact lookup_refers h.symm

theorem refList_refers {o : Object} {w : Nat} {ids : List ExGuid} (h : RefList o w ids) {id : ExGuid}
    (hi : id ∈ ids) : RefersTo o id := by
  obtain ⟨n, pos, _, _, rfl⟩ := h
  obtain ⟨j, _, hj⟩ := List.mem_filterMap.1 hi
  obtain ⟨c, _, hc⟩ := Option.bind_eq_some_iff.1 hj
  exact lookup_refers hc

theorem refs_refers {o : Object} {w : Nat} {ids : List ExGuid} (h : Refs o w ids) {id : ExGuid}
    (hi : id ∈ ids) : RefersTo o id := by
  rcases h with ⟨_, rfl⟩ | h
  · cases hi
  · exact refList_refers h hi

theorem inside_mapping {o : Object} {w : Nat} {inners : List Object} (h : Nested o w inners)
    {i : Object} (hi : i ∈ inners) : i.mapping = o.mapping := by
  rcases h with ⟨_, rfl⟩ | ⟨k, sets, _, he⟩
  · cases hi
  · obtain ⟨s, _, hs⟩ := each_mem he hi
    obtain ⟨_, _, _, _, rfl⟩ := hs
    rfl

theorem tags_refer {o : Object} {tags : List NoteTagData}
    (h : ∃ inners, Nested o Word.noteTags inners ∧ Each IsNoteTagData inners tags)
    {t : NoteTagData} (ht : t ∈ tags) {id : ExGuid} (hi : t.definition = some id) :
    RefersTo o id := by
  obtain ⟨inners, hn, he⟩ := h
  obtain ⟨i, hi', h⟩ := each_mem he ht
  have := h.definition
  rw [hi] at this
  have := ref_refers this
  unfold RefersTo at this ⊢
  rwa [inside_mapping hn hi'] at this

theorem optM_congr {α β : Type} {f g : α → Res β} {a : Option α} (h : ∀ x, a = some x → f x = g x) :
    optM f a = optM g a := by
  cases a with
  | none => rfl
  | some x => unfold optM; dsimp only; rw [h x rfl]

/-- The spaces have the same objects in a set that is closed under references. -/
structure AgreeOn (A : ExGuid → Prop) (s s' : ObjectSpace) : Prop where
  same : ∀ id, A id → s.getObject id = s'.getObject id
  closed : ∀ id o next, A id → s.getObject id = some o → RefersTo o next → A next

section

variable {A : ExGuid → Prop} {s s' : ObjectSpace} (h : AgreeOn A s s')
include h

theorem object_reach {id : ExGuid} (ha : A id) : s.object id = s'.object id := by
  unfold ObjectSpace.object
  rw [h.same id ha]

theorem next_reach {id : ExGuid} (ha : A id) {o : Object} (ho : s'.object id = .ok o) {next : ExGuid}
    (hn : RefersTo o next) : A next := by
  rw [← object_reach h ha] at ho
  exact h.closed id o next ha (at_iff.1 ho) hn

theorem propertySetId_reach {id : ExGuid} (ha : A id) : s.propertySetId id = s'.propertySetId id := by
  unfold ObjectSpace.propertySetId
  rw [object_reach h ha]

theorem noteTags_reach {id : ExGuid} (ha : A id) {o : Object} (ho : s'.object id = .ok o)
    {tags : List NoteTagData}
    (ht : ∃ inners, Nested o Word.noteTags inners ∧ Each IsNoteTagData inners tags) :
    parseNoteTags s tags = parseNoteTags s' tags := by
  unfold parseNoteTags
  refine mapM_congr fun t hm => ?_
  unfold parseNoteTag
  rw [optM_congr fun d hd => ?_]
  unfold parseNoteTagDefinition
  rw [object_reach h (next_reach h ha ho (tags_refer ht hm hd))]

theorem image_reach {id : ExGuid} (ha : A id) : parseImage s id = parseImage s' id := by
  unfold parseImage
  rw [object_reach h ha]
  refine bind_congr' fun o ho => bind_congr' fun n hn => ?_
  have hn := ImageNode.parse_iff.1 hn
  have e1 : optM (parseImageContainer s) n.pictureContainer =
      optM (parseImageContainer s') n.pictureContainer := optM_congr fun x hx => by
    unfold parseImageContainer
    rw [object_reach h (next_reach h ha ho (ref_refers (hx ▸ hn.pictureContainer)))]
  have e2 : n.iframe.mapM (parseIFrame s) = n.iframe.mapM (parseIFrame s') := mapM_congr fun x hx => by
    unfold parseIFrame
    rw [object_reach h (next_reach h ha ho (refs_refers hn.iframe hx))]
  rw [e1, e2, noteTags_reach h ha ho hn.noteTags]

theorem embeddedFile_reach {id : ExGuid} (ha : A id) :
    parseEmbeddedFile s id = parseEmbeddedFile s' id := by
  unfold parseEmbeddedFile
  rw [object_reach h ha]
  refine bind_congr' fun o ho => bind_congr' fun n hn => ?_
  have hn := EmbeddedFileNode.parse_iff.1 hn
  rw [object_reach h (next_reach h ha ho (ref_refers hn.embeddedFileContainer)),
    noteTags_reach h ha ho hn.noteTags]

theorem inkStroke_reach (sx sy : Option F32) {id : ExGuid} (ha : A id) :
    parseInkStroke s sx sy id = parseInkStroke s' sx sy id := by
  unfold parseInkStroke
  rw [object_reach h ha]
  refine bind_congr' fun o ho => bind_congr' fun n hn => ?_
  rw [object_reach h (next_reach h ha ho (ref_refers (InkStrokeNode.parse_iff.1 hn).properties))]

theorem inkData_reach {id : ExGuid} (ha : A id) (sx sy : Option F32) :
    parseInkData s id sx sy = parseInkData s' id sx sy := by
  unfold parseInkData
  rw [object_reach h ha]
  refine bind_congr' fun o ho => bind_congr' fun n hn => ?_
  rw [mapM_congr fun x hx => inkStroke_reach h sx sy
    (next_reach h ha ho (refList_refers (InkDataNode.parse_iff.1 hn).strokes hx))]

theorem ink_reach {id : ExGuid} (ha : A id) : parseInk s id = parseInk s' id := by
  unfold parseInk
  rw [object_reach h ha]
  refine bind_congr' fun o ho => bind_congr' fun n hn => ?_
  have hn := (InkContainerNode.parse_iff.1 hn).inkData
  cases hd : n.inkData with
  | none => rfl
  | some d =>
    rw [hd] at hn
    dsimp only
    rw [inkData_reach h (next_reach h ha ho (ref_refers hn))]

theorem list_reach {id : ExGuid} (ha : A id) : parseList s id = parseList s' id := by
  unfold parseList
  rw [object_reach h ha]

theorem styleObject_reach {id : ExGuid} (ha : A id) :
    parseStyleObject s id = parseStyleObject s' id := by
  unfold parseStyleObject
  rw [object_reach h ha]

theorem embeddedObjects_reach {refs : List ExGuid} (hr : ∀ id ∈ refs, A id) (i k : Nat)
    (l : List (Option Nat × EmbeddedInkData)) :
    parseEmbeddedObjects s refs i k l = parseEmbeddedObjects s' refs i k l := by
  induction l generalizing i k with
  | nil => rfl
  | cons x l ih =>
    obtain ⟨_ | ty, d⟩ := x
    · unfold parseEmbeddedObjects
      rw [ih]
      refine congrArg (· >>= _) ?_
      by_cases he : refs.isEmpty
      · rw [if_pos he, if_pos he]
      · rw [if_neg he, if_neg he]
        refine bind_congr' fun id hid => ?_
        have hm : id ∈ refs := by
          unfold index orErr at hid
          cases hg : refs[i - k]? with
          | none => rw [hg] at hid; cases hid
          | some y =>
            rw [hg] at hid
            cases hid
            exact List.mem_of_getElem? hg
        unfold parseEmbeddedInkData
        rw [inkData_reach h (hr id hm)]
    · unfold parseEmbeddedObjects
      rw [ih]

theorem richText_reach {id : ExGuid} (ha : A id) : parseRichText s id = parseRichText s' id := by
  unfold parseRichText
  rw [object_reach h ha]
  refine bind_congr' fun o ho => bind_congr' fun n hn => ?_
  have hn := RichTextNode.parse_iff.1 hn
  rw [styleObject_reach h (next_reach h ha ho (ref_refers hn.paragraphStyle)),
    mapM_congr fun x hx => styleObject_reach h
      (next_reach h ha ho (refs_refers hn.textRunFormatting hx)),
    noteTags_reach h ha ho hn.noteTags]
  simp only [embeddedObjects_reach h fun x hx =>
    next_reach h ha ho (refs_refers hn.textRunDataObject hx)]

/-- The recursive calls agree. -/
def RecAgree (A : ExGuid → Prop) (r r' : Rec) : Prop :=
  ∀ id, A id → r.item id = r'.item id ∧ r.element id = r'.element id

theorem cell_reach {r r' : Rec} (hr : RecAgree A r r') {id : ExGuid} (ha : A id) :
    parseCell r s id = parseCell r' s' id := by
  unfold parseCell
  rw [object_reach h ha]
  refine bind_congr' fun o ho => bind_congr' fun n hn => ?_
  rw [mapM_congr fun x hx => (hr x
    (next_reach h ha ho (refList_refers (TableCellNode.parse_iff.1 hn).contents hx))).2]

theorem row_reach {r r' : Rec} (hr : RecAgree A r r') {id : ExGuid} (ha : A id) :
    parseRow r s id = parseRow r' s' id := by
  unfold parseRow
  rw [object_reach h ha]
  refine bind_congr' fun o ho => bind_congr' fun n hn => ?_
  rw [mapM_congr fun x hx => cell_reach h hr
    (next_reach h ha ho (refList_refers (TableRowNode.parse_iff.1 hn).cells hx))]

theorem table_reach {r r' : Rec} (hr : RecAgree A r r') {id : ExGuid} (ha : A id) :
    parseTable r s id = parseTable r' s' id := by
  unfold parseTable
  rw [object_reach h ha]
  refine bind_congr' fun o ho => bind_congr' fun n hn => ?_
  have hn := TableNode.parse_iff.1 hn
  rw [mapM_congr fun x hx => row_reach h hr
    (next_reach h ha ho (refList_refers hn.rows hx)), noteTags_reach h ha ho hn.noteTags]

theorem content_reach {r r' : Rec} (hr : RecAgree A r r') {id : ExGuid} (ha : A id) :
    parseContent r s id = parseContent r' s' id := by
  unfold parseContent
  rw [propertySetId_reach h ha, image_reach h ha, embeddedFile_reach h ha, richText_reach h ha,
    table_reach h hr ha, ink_reach h ha]

theorem element_reach {r r' : Rec} (hr : RecAgree A r r') {id : ExGuid} (ha : A id) :
    parseElementWith r s id = parseElementWith r' s' id := by
  unfold parseElementWith
  rw [object_reach h ha]
  refine bind_congr' fun o ho => bind_congr' fun n hn => ?_
  have hn := OutlineElementNode.parse_iff.1 hn
  have a := fun x hx => next_reach h ha ho (next := x) (refs_refers hn.children hx)
  rw [mapM_congr fun x hx => (hr x (a x hx)).1,
    mapM_congr fun x hx => content_reach h hr (next_reach h ha ho (refs_refers hn.contents hx)),
    mapM_congr fun x hx => list_reach h (next_reach h ha ho (refs_refers hn.listContents hx))]

theorem outlineGroup_reach {r r' : Rec} (hr : RecAgree A r r') {id : ExGuid} (ha : A id) :
    parseOutlineGroup r s id = parseOutlineGroup r' s' id := by
  unfold parseOutlineGroup
  rw [object_reach h ha]
  refine bind_congr' fun o ho => bind_congr' fun n hn => ?_
  have hn := OutlineGroupNode.parse_iff.1 hn
  rw [mapM_congr fun x hx => (hr x (next_reach h ha ho (refs_refers hn.children hx))).1]

theorem item_reach {r r' : Rec} (hr : RecAgree A r r') {id : ExGuid} (ha : A id) :
    parseItemWith r s id = parseItemWith r' s' id := by
  unfold parseItemWith
  rw [propertySetId_reach h ha, outlineGroup_reach h hr ha, element_reach h hr ha]

theorem rec_reach (n : Nat) : RecAgree A (recAt s n) (recAt s' n) := by
  induction n with
  | zero => exact fun _ _ => ⟨rfl, rfl⟩
  | succ n ih => exact fun id ha => ⟨item_reach h ih ha, element_reach h ih ha⟩

theorem outline_reach (fuel : Nat) {id : ExGuid} (ha : A id) :
    parseOutline fuel s id = parseOutline fuel s' id := by
  unfold parseOutline
  rw [object_reach h ha]
  refine bind_congr' fun o ho => bind_congr' fun n hn => ?_
  have hn := OutlineNode.parse_iff.1 hn
  rw [mapM_congr fun x hx =>
    (rec_reach h fuel x (next_reach h ha ho (refs_refers hn.children hx))).1]

theorem title_reach (fuel : Nat) {id : ExGuid} (ha : A id) :
    parseTitle fuel s id = parseTitle fuel s' id := by
  unfold parseTitle
  rw [object_reach h ha]
  refine bind_congr' fun o ho => bind_congr' fun n hn => ?_
  have hn := TitleNode.parse_iff.1 hn
  rw [mapM_congr fun x hx => outline_reach h fuel
    (next_reach h ha ho (refList_refers hn.children hx))]

theorem pageContent_reach (fuel : Nat) {id : ExGuid} (ha : A id) :
    parsePageContent fuel s id = parsePageContent fuel s' id := by
  unfold parsePageContent
  rw [propertySetId_reach h ha, image_reach h ha, embeddedFile_reach h ha, outline_reach h fuel ha,
    ink_reach h ha]

theorem pageData_reach (fuel : Nat) {id : ExGuid} (ha : A id) (f : PageNode → List PageContent →
    Option Title → Res α) :
    (parsePageData s id >>= fun d => optM (parseTitle fuel s) d.title >>= fun t =>
      d.content.mapM (parsePageContent fuel s) >>= fun c => f d c t) =
    (parsePageData s' id >>= fun d => optM (parseTitle fuel s') d.title >>= fun t =>
      d.content.mapM (parsePageContent fuel s') >>= fun c => f d c t) := by
  unfold parsePageData
  rw [object_reach h ha, bind_assoc, bind_assoc]
  refine bind_congr' fun o ho => bind_congr' fun n hn => ?_
  have hn := PageNode.parse_iff.1 hn
  have e : optM (parseTitle fuel s) n.title = optM (parseTitle fuel s') n.title :=
    optM_congr fun x hx => by
      obtain ⟨ids, hr, hh⟩ := hn.title
      rw [hx] at hh
      exact title_reach h fuel
        (next_reach h ha ho (refs_refers hr (List.mem_of_head? hh.symm)))
  rw [e, mapM_congr fun x hx => pageContent_reach h fuel
    (next_reach h ha ho (refs_refers hn.content hx))]

theorem tocEntry_reach (n : Nat) {id : ExGuid} (ha : A id) :
    parseTocEntry s n id = parseTocEntry s' n id := by
  induction n generalizing id with
  | zero => rfl
  | succ n ih =>
    unfold parseTocEntry
    rw [object_reach h ha]
    refine bind_congr' fun o ho => bind_congr' fun t ht => ?_
    cases t.filename with
    | some name => rfl
    | none =>
      dsimp only
      rw [mapM_congr fun x hx => ih
        (next_reach h ha ho (refs_refers (TocContainer.parse_iff.1 ht).children hx))]

end

/-! ### From the roots -/

theorem agree_reachable {s s' : ObjectSpace} (h : SameReachable s s') :
    AgreeOn (Reachable s) s s' := ⟨h.objects, fun _ _ _ hi ho hr => .step hi ho hr⟩

section

variable {s s' : ObjectSpace} (h : SameReachable s s')
include h

theorem contentObject_reach : s.contentObject = s'.contentObject := by
  unfold ObjectSpace.contentObject ObjectSpace.contentRoot
  rw [← h.roots]
  cases hr : s.roots.get? .defaultContent with
  | none => rfl
  | some id => exact object_reach (agree_reachable h) (.root hr)

theorem metadataObject_reach : s.metadataObject = s'.metadataObject := by
  unfold ObjectSpace.metadataObject ObjectSpace.metadataRoot
  rw [← h.roots]
  cases hr : s.roots.get? .metadata with
  | none => rfl
  | some id => exact object_reach (agree_reachable h) (.root hr)

omit h in
theorem contentObject_next {o : Object} (ho : s.contentObject = .ok o) {next : ExGuid}
    (hn : RefersTo o next) : Reachable s next := by
  unfold ObjectSpace.contentObject ObjectSpace.contentRoot at ho
  cases hr : s.roots.get? .defaultContent with
  | none => rw [hr] at ho; cases ho
  | some id =>
    rw [hr] at ho
    exact .step (.root hr) (at_iff.1 ho) hn

theorem page_reach (fuel : Nat) : parsePage fuel s = parsePage fuel s' := by
  unfold parsePage parsePageMetadata
  rw [metadataObject_reach h]
  refine bind_congr' fun _ _ => ?_
  unfold parsePageManifest
  rw [← contentObject_reach h, bind_assoc, bind_assoc]
  refine bind_congr' fun o ho => bind_congr' fun page hp => ?_
  obtain ⟨ids, hr, hh⟩ := (PageManifestNode.parse_iff.1 hp).page
  exact pageData_reach (agree_reachable h) fuel
    (contentObject_next ho (refList_refers hr (List.mem_of_head? hh))) _

theorem toc_reach (n : Nat) : parseToc n s = parseToc n s' := by
  unfold parseToc ObjectSpace.contentRoot
  rw [← h.roots]
  refine bind_congr' fun id hid => ?_
  have hr : s.roots.get? .defaultContent = some id := by
    cases hr : s.roots.get? .defaultContent with
    | none => rw [hr] at hid; cases hid
    | some x => rw [hr] at hid; cases hid; rfl
  rw [tocEntry_reach (agree_reachable h) n (.root hr)]

end

theorem section_reach {s s' : Store} (h : SameReachableStore s s') (fuel : Nat) (name : Text) :
    parseSectionStore fuel s name = parseSectionStore fuel s' name := by
  have hp : parsePageSpace fuel s = parsePageSpace fuel s' := by
    funext c
    unfold parsePageSpace Store.objectSpace
    have := h.spaces c
    generalize s.objectSpaces.get? c = a at *
    generalize s'.objectSpaces.get? c = b at *
    cases a <;> cases b
    · rfl
    · exact this.elim
    · exact this.elim
    · exact page_reach this fuel
  unfold parseSectionStore parseSectionMetadata
  rw [metadataObject_reach h.dataRoot]
  refine bind_congr' fun _ _ => ?_
  unfold parseSectionContent
  rw [← contentObject_reach h.dataRoot, bind_assoc, bind_assoc]
  refine bind_congr' fun o ho => bind_congr' fun n hn => ?_
  have hn := SectionNode.parse_iff.1 hn
  rw [mapM_congr fun x hx => ?_]
  unfold parsePageSeries
  rw [object_reach (agree_reachable h.dataRoot)
    (contentObject_next ho (refs_refers hn.pageSeries hx)), hp]

end OneNote
