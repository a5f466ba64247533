/-
What is read back from the objects of written documents.
-/
import Verif.Lemmas.WriteFields

namespace OneNote.Writer

open Spec Spec.Writer Spec.Storable Spec.Fields Spec.Document Spec.Objects

variable {space : ObjectSpace} {id : ExGuid}

/-! ### Note tags -/

theorem definition_is {d : NoteTagDefinition} (ok : DefinitionOk d)
    (h : Stored space id (definitionTree d)) : DefinitionIs space id d := by
  obtain ⟨o, hat, h⟩ := node_written h (by words) (by simp)
  exact ⟨o, hat,
    { kind := h.kind
      label := req (h.val _ _ (by field)) (reads_text ok.label)
      status := req (h.val _ _ (by field)) (reads_status _)
      shape := req (h.val _ _ (by field)) (reads_shape _)
      highlightColor := opt (h.val _ _ (by field)) reads_colorRef ok.highlightColor
      textColor := opt (h.val _ _ (by field)) reads_colorRef ok.textColor
      actionItemType := req (h.val _ _ (by field)) (reads_itemType ok.actionItemType) }⟩

theorem tagSet_counted (skip : Nat) (t : NoteTag) (s : Stream) :
    idsCountedSet s (setValue (tagSet skip t)) =
    if s = .objects then t.definition.toList.length + (if t.definition.isSome then skip else 0) else 0 := by
  unfold tagSet
  rw [counted_inner (by words)]
  simp only [List.map_cons, List.map_nil, List.sum_cons, List.sum_nil]
  cases t.definition <;> cases t.completedAt <;> cases s <;> simp [idsCounted, Val.value, Scalar.val, Scalar.itemStatus] <;>
    omega

theorem tagSets_counted (tags : List NoteTag) (s : Stream) (skip : Nat) :
    idsCountedSets s ((tagSets skip tags).map setValue) =
    if s = .objects then (tags.filterMap (·.definition)).length + skipped skip tags else 0 := by
  induction tags generalizing skip with
  | nil => cases s <;> rfl
  | cons t tags ih =>
    rw [tagSets, List.map_cons, idsCountedSets, tagSet_counted, ih, skipped, List.filterMap_cons]
    cases s
    · cases t.definition with
      | none => simp
      | some d => simp; omega
    · rfl

theorem tags_ok (tags : List NoteTag) : FieldOk (tagsField tags) := by
  unfold tagsField FieldOk
  simp only
  rw [tagSets_counted, tagSets_counted, List.length_append, List.length_map, List.length_replicate]
  exact ⟨rfl, rfl⟩

/-- What is read from the sets of the note tags. -/
def tagData (ids : List ExGuid) (skip : Nat) : List NoteTag → List NoteTagData
  | [] => []
  | t :: ts => ⟨t.definition.bind fun _ => ids[skip]?, 0, t.completedAt, t.itemStatus⟩ ::
      tagData ids (skip + t.definition.toList.length) ts

theorem tagSet_is {t : NoteTag} {skip : Nat} {inner o : Object} {ids : List ExGuid}
    {rest : List CompactId} (completed : Opt (Bits 32) t.completedAt)
    (hres : t.definition.isSome → ∃ id c, ids[skip]? = some id ∧ rest[skip]? = some c ∧
      ∀ pos, o.mapping.getObject pos c = some id)
    (hmap : inner.mapping = o.mapping) (hps : inner.props.properties = setValue (tagSet skip t))
    (hobj : inner.props.objectIds = List.take (idsCountedSet .objects (setValue (tagSet skip t))) rest) :
    IsNoteTagData inner ⟨t.definition.bind fun _ => ids[skip]?, 0, t.completedAt, t.itemStatus⟩ := by
  refine ⟨?_, ?_, ?_, ?_⟩
  · cases hd : t.definition with
    | none =>
      refine .inl ⟨?_, rfl⟩
      rw [hps]
      exact (get_inner (by words) (w := Word.noteTagDefinitionOid) (v := none) (by rw [hd]; field)).trans rfl
    | some d =>
      obtain ⟨id, c, hid, hc, hg⟩ := hres (by rw [hd]; rfl)
      have hlist : ∃ post, (tagSet skip t).map (fun e => (Spec.Writer.key e.1, e.2.value)) =
          [(Spec.Writer.key Word.contentChildNodes, .objectIds skip)] ++
            (Spec.Writer.key Word.noteTagDefinitionOid, .objectId) :: post := by
        unfold tagSet Spec.Writer.inner
        rw [List.filterMap_cons, hd]
        exact ⟨_, rfl⟩
      obtain ⟨post, hlist⟩ := hlist
      refine .inr ⟨skip, c, ?_, ?_, ?_, ?_⟩
      · rw [hps]
        exact (get_inner (by words) (w := Word.noteTagDefinitionOid) (v := some .ref)
          (by rw [hd]; field)).trans rfl
      · rw [hps]
        unfold setValue
        rw [hlist]
        refine startsAt (s := .objects) (pre := [(Spec.Writer.key Word.contentChildNodes, .objectIds skip)]) ?_
        rw [← hlist, set_keys]
        unfold tagSet
        exact inner_keys.nodup (by words)
      · rw [hobj, tagSet_counted, if_pos rfl, hd]
        show (List.take (1 + skip) rest)[skip]? = _
        rw [List.getElem?_take_of_lt (by omega)]
        exact hc
      · rw [hmap, hg]
        exact hid
  · refine ⟨_, ?_, rfl⟩
    rw [hps]
    exact (get_inner (by words) (v := some (Scalar.u32 0).val) (by field)).trans rfl
  · rw [hps]
    have := get_inner (fields := _) (by words) (show (Word.noteTagCompleted,
      t.completedAt.map fun n => (Scalar.u32 n).val) ∈ [(Word.contentChildNodes, t.definition.map fun _ => .refs skip),
     (Word.noteTagDefinitionOid, t.definition.map fun _ => .ref),
     (Word.noteTagCreated, some (Scalar.u32 0).val),
     (Word.noteTagCompleted, t.completedAt.map fun n => (Scalar.u32 n).val),
     (Word.actionItemStatus, some (Scalar.itemStatus t.itemStatus).val)] by field)
    refine opt (enc := .u32) ?_ reads_u32 completed
    exact this.trans (by rw [Option.map_map, Option.map_map]; rfl)
  · refine ⟨_, ?_, reads_itemStatus _⟩
    rw [hps]
    exact (get_inner (by words) (v := some (Scalar.itemStatus t.itemStatus).val) (by field)).trans rfl

theorem tags_are {tags : List NoteTag} (ok : TagsOk tags) {o : Object} {kind w : Nat}
    {blob : Option Bytes} {fields : List (Nat × Field)} (h : NodeIs space o kind blob fields)
    (hm : (w, tagsField tags) ∈ fields) :
    ∃ ns, (∃ inners, Nested o w inners ∧ Each IsNoteTagData inners ns) ∧
      Each (NoteTagIs space) ns tags := by
  obtain ⟨ids, rest, inners, hids, hnest, hres, hin⟩ := h.sets _ _ _ _ hm
  -- the definitions of the tags, from place `skip` on
  have key : ∀ (ts : List NoteTag) (skip : Nat), TagsOk ts →
      (∃ tail, Each (Stored space) (ids.drop skip) ((ts.filterMap (·.definition)).map definitionTree ++ tail)) →
      ∀ inners, Each (fun (s : List (Nat × Val)) (inner : Object) => inner.jcId = 0x00120001 ∧
          inner.mapping = o.mapping ∧ inner.props.properties = setValue s ∧
          inner.props.objectIds = List.take (idsCountedSet .objects (setValue s)) rest)
          (tagSets skip ts) inners →
      Each IsNoteTagData inners (tagData ids skip ts) ∧ Each (NoteTagIs space) (tagData ids skip ts) ts := by
    intro ts
    induction ts with
    | nil => intro skip _ _ inners h; cases h; exact ⟨.nil, .nil⟩
    | cons t ts ih =>
      intro skip ok ⟨tail, hids⟩ inners h
      have okt : TagsOk ts := ⟨fun t ht => ok.completedAt t (List.mem_cons_of_mem _ ht),
        fun t ht => ok.definition t (List.mem_cons_of_mem _ ht)⟩
      rw [tagSets] at h
      cases h with
      | cons h1 h2 =>
      obtain ⟨_, hmap, hps, hobj⟩ := h1
      cases hd : t.definition with
      | none =>
        rw [List.filterMap_cons, hd] at hids
        have hz : t.definition.toList.length = 0 := by rw [hd]; rfl
        rw [hz] at h2
        obtain ⟨i1, i2⟩ := ih (skip + 0) okt ⟨tail, hids⟩ _ h2
        rw [tagData, hz]
        refine ⟨.cons ?_ i1, .cons ⟨rfl, rfl, ?_⟩ i2⟩
        · refine tagSet_is (ok.completedAt t List.mem_cons_self) ?_ hmap hps hobj
          rw [hd]
          intro h
          cases h
        · rw [hd]
          exact .inl ⟨rfl, rfl⟩
      | some d =>
        rw [List.filterMap_cons, hd] at hids
        have hz : t.definition.toList.length = 1 := by rw [hd]; rfl
        rw [hz] at h2
        generalize hdrop : ids.drop skip = l at hids
        cases hids with
        | @cons id _ _ _ hs hids =>
        have hid : ids[skip]? = some id := by
          have := List.getElem?_drop (xs := ids) (i := skip) (j := 0)
          rw [hdrop] at this
          exact this.symm
        rename_i l'
        have hd1 : ids.drop (skip + 1) = l' := by
          rw [← List.drop_drop, hdrop]
          rfl
        obtain ⟨i1, i2⟩ := ih (skip + 1) okt ⟨tail, hd1 ▸ hids⟩ _ h2
        rw [tagData, hz]
        refine ⟨.cons ?_ i1, .cons ⟨rfl, rfl, ?_⟩ i2⟩
        · refine tagSet_is (ok.completedAt t List.mem_cons_self) ?_ hmap hps hobj
          intro _
          obtain ⟨c, hc, hg⟩ := hres skip _ hid
          exact ⟨id, c, hid, hc, hg⟩
        · rw [hd]
          exact .inr ⟨id, d, hid, rfl, definition_is (ok.definition t List.mem_cons_self d hd) hs⟩
  obtain ⟨h1, h2⟩ := key tags 0 ok ⟨_, hids⟩ inners hin
  exact ⟨_, ⟨inners, hnest, h1⟩, h2⟩

/-! ### Images and files -/

theorem iframe_is {f : IFrame} (ok : IFrameOk f) (h : Stored space id (iframeTree f)) :
    IFrameIs space id f := by
  obtain ⟨o, hat, h⟩ := node_written h (by words) (by simp)
  exact ⟨o, hat,
    { kind := h.kind
      embedType := opt (h.val _ _ (by field)) reads_u32 ok.embedType
      sourceUrl := req (h.val _ _ (by field)) (reads_text ok.sourceUrl) }⟩

theorem picture_is {data : Bytes} {extension : Option Text} (ok : Opt Plain extension)
    (h : Stored space id (pictureTree data extension)) : PictureIs space id ⟨data, extension⟩ := by
  obtain ⟨o, hat, h⟩ := node_written h (by words) (by simp)
  exact ⟨o, hat,
    { kind := .inl h.kind
      data := .inl h.blob
      extension := opt (h.val _ _ (by field)) reads_text ok }⟩

/-- Stored one by one. -/
theorem each_is {α : Type} {P : α → Prop} {R : ExGuid → α → Prop} {tree : α → Tree}
    (hR : ∀ id a, P a → Stored space id (tree a) → R id a) {as : List α} (ok : ∀ a ∈ as, P a)
    {ids : List ExGuid} (h : Each (Stored space) ids (as.map tree)) : Each R ids as := by
  induction as generalizing ids with
  | nil => cases h; exact .nil
  | cons a as ih =>
    cases h with
    | cons h1 h2 =>
      exact .cons (hR _ a (ok a List.mem_cons_self) h1) (ih (fun b hb => ok b (List.mem_cons_of_mem _ hb)) h2)

theorem maybe_is {α : Type} {P : α → Prop} {R : ExGuid → α → Prop} {tree : α → Tree}
    (hR : ∀ id a, P a → Stored space id (tree a) → R id a) {a : Option α} (ok : Opt P a)
    {r : Option ExGuid} (h : Maybe (Stored space) r (a.map tree)) : Maybe R r a := by
  rcases h with ⟨rfl, h⟩ | ⟨x, y, rfl, h, hs⟩
  · exact .inl ⟨rfl, Option.map_eq_none_iff.1 h⟩
  · obtain ⟨b, hb, rfl⟩ := Option.map_eq_some_iff.1 h
    exact .inr ⟨x, b, rfl, hb, hR x b (ok b hb) hs⟩

theorem image_is {i : Image} (ok : ImageOk i) (h : Stored space id (imageTree i)) :
    ImageIs space id i := by
  obtain ⟨o, hat, h⟩ := node_written h (by words) (by simp [tags_ok])
  obtain ⟨r, hr, hpic⟩ := h.one Word.pictureContainer _ (by field)
  obtain ⟨frames, hframes, hiframes⟩ := h.many Word.contentChildNodes _ (by field)
  obtain ⟨ns, hns, htags⟩ := tags_are ok.noteTags h (w := Word.noteTags) (by field)
  refine ⟨o, ⟨none, r, i.layoutMaxWidth, i.layoutMaxHeight, false, none, i.altText,
    i.layoutAlignmentInParent, i.layoutAlignmentSelf, i.imageFilename, i.displayedPageNumber, i.text,
    i.textLanguageCode, i.pictureWidth, i.pictureHeight, i.hyperlinkUrl, ns, i.offsetHorizontal,
    i.offsetVertical, i.isBackground, frames⟩, i.data.map fun d => ⟨d, i.extension⟩, i.embeds, i.noteTags,
    hat, ?_, ?_, each_is (fun _ _ => iframe_is) ok.embeds hiframes, htags, ?_⟩
  · exact
    { kind := h.kind
      lastModified := gone (h.absent _ (by words))
      pictureContainer := hr
      layoutMaxWidth := opt (h.val _ _ (by field)) reads_f32 ok.layoutMaxWidth
      layoutMaxHeight := opt (h.val _ _ (by field)) reads_f32 ok.layoutMaxHeight
      isLayoutSizeSetByUser := gone' (h.absent _ (by words))
      languageCode := gone (h.absent _ (by words))
      altText := opt (h.val _ _ (by field)) reads_text ok.altText
      layoutAlignmentInParent := layout_field (h.val _ _ (by field))
      layoutAlignmentSelf := layout_field (h.val _ _ (by field))
      imageFilename := opt (h.val _ _ (by field)) reads_text ok.imageFilename
      displayedPageNumber := opt (h.val _ _ (by field)) reads_u32 ok.displayedPageNumber
      text := opt (h.val _ _ (by field)) reads_text ok.text
      textLanguageCode := opt (h.val _ _ (by field)) reads_u16 ok.textLanguageCode
      pictureWidth := opt (h.val _ _ (by field)) reads_f32 ok.pictureWidth
      pictureHeight := opt (h.val _ _ (by field)) reads_f32 ok.pictureHeight
      hyperlinkUrl := opt (h.val _ _ (by field)) reads_text ok.hyperlinkUrl
      noteTags := hns
      offsetFromParentHoriz := opt (h.val _ _ (by field)) reads_f32 ok.offsetHorizontal
      offsetFromParentVert := opt (h.val _ _ (by field)) reads_f32 ok.offsetVertical
      isBackground := dflt (h.val _ _ (by field)) (reads_bool _)
      iframe := .inr hframes }
  · rcases hpic with ⟨rfl, hd⟩ | ⟨x, y, rfl, hd, hs⟩
    · exact .inl ⟨rfl, by rw [Option.map_eq_none_iff.1 hd]; rfl⟩
    · obtain ⟨d, hi, rfl⟩ := Option.map_eq_some_iff.1 hd
      exact .inr ⟨x, ⟨d, i.extension⟩, rfl, by rw [hi]; rfl, picture_is ok.extension hs⟩
  · cases hd : i.data with
    | none =>
      have := ok.data hd
      cases i
      simp only at hd this
      subst hd this
      rfl
    | some d =>
      cases i
      simp only at hd
      subst hd
      rfl

theorem file_is' {f : EmbeddedFile} (ok : FileOk f) (h : Stored space id (fileTree f)) :
    FileIs space id f := by
  obtain ⟨o, hat, h⟩ := node_written h (by words) (by simp [tags_ok])
  obtain ⟨r, hr, hcont⟩ := h.one Word.embeddedFileContainer _ (by field)
  obtain ⟨ns, hns, htags⟩ := tags_are ok.noteTags h (w := Word.noteTags) (by field)
  rcases hcont with ⟨_, hd⟩ | ⟨x, y, rfl, hd, hs⟩
  · cases hd
  cases hd
  obtain ⟨c, hcat, hc⟩ := node_written hs (by words) (by simp)
  refine ⟨o, ⟨0, none, f.layoutMaxWidth, f.layoutMaxHeight, false, none, none, none, none, x,
    f.filename, none, f.fileType, none, none, ns, f.offsetHorizontal, f.offsetVertical⟩, c, f.data,
    f.noteTags, hat, ?_, hcat, ⟨hc.kind, hc.blob⟩, htags, rfl⟩
  exact
    { kind := h.kind
      lastModified := req (h.val _ _ (by field)) (reads_u32 zero32)
      pictureContainer := .inl ⟨h.absent _ (by words), rfl⟩
      layoutMaxWidth := opt (h.val _ _ (by field)) reads_f32 ok.layoutMaxWidth
      layoutMaxHeight := opt (h.val _ _ (by field)) reads_f32 ok.layoutMaxHeight
      isLayoutSizeSetByUser := gone' (h.absent _ (by words))
      text := gone (h.absent _ (by words))
      textLanguageCode := gone (h.absent _ (by words))
      layoutAlignmentInParent := gone' (h.absent _ (by words))
      layoutAlignmentSelf := gone' (h.absent _ (by words))
      embeddedFileContainer := hr
      embeddedFileName := req (h.val _ _ (by field)) (reads_text ok.filename)
      sourcePath := gone (h.absent _ (by words))
      fileType := reads_fileType (h.val _ _ (by field))
      pictureWidth := gone (h.absent _ (by words))
      pictureHeight := gone (h.absent _ (by words))
      noteTags := hns
      offsetFromParentHoriz := opt (h.val _ _ (by field)) reads_f32 ok.offsetHorizontal
      offsetFromParentVert := opt (h.val _ _ (by field)) reads_f32 ok.offsetVertical }

end OneNote.Writer
