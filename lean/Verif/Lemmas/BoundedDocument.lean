/-
What the objects of a file show can be stored.
-/
import Verif.Lemmas.Bounded
import Verif.Lemmas.MapM

namespace OneNote.Bounded

open Spec Spec.Storable Spec.Fields Spec.Document Spec.Objects

variable {space : ObjectSpace}

theorem maybe_ok {α β : Type} {R : α → β → Prop} {P : β → Prop} (hR : ∀ a b, R a b → P b)
    {a : Option α} {b : Option β} (h : Maybe R a b) : Opt P b := by
  rcases h with ⟨_, rfl⟩ | ⟨x, y, _, rfl, hr⟩
  · exact fun _ h => (nomatch h)
  · intro b hb
    cases hb
    exact hR _ _ hr

theorem each_ok {α β : Type} {R : α → β → Prop} {P : β → Prop} (hR : ∀ a b, R a b → P b)
    {as : List α} {bs : List β} (h : Each R as bs) : ∀ b ∈ bs, P b := by
  intro b hb
  obtain ⟨a, _, hr⟩ := each_mem h hb
  exact hR a b hr

/-! ### Note tags -/

theorem definition_ok (hs : SpaceFits space) (id : ExGuid) (d : NoteTagDefinition)
    (h : DefinitionIs space id d) : DefinitionOk d := by
  obtain ⟨o, hat, h⟩ := h
  have hf := object_flat (hs id o hat)
  exact
    { label := req hf h.label text
      highlightColor := opt hf h.highlightColor colorRef
      textColor := opt hf h.textColor colorRef
      actionItemType := req hf h.actionItemType itemType }

theorem tags_ok (hs : SpaceFits space) {o : Object} (ho : ObjectFits o) {w : Nat} {ns : List NoteTagData}
    {tags : List NoteTag} (hn : ∃ inners, Nested o w inners ∧ Each IsNoteTagData inners ns)
    (h : Each (NoteTagIs space) ns tags) : TagsOk tags := by
  obtain ⟨inners, hn, hi⟩ := hn
  have hflat := nested_flat ho hn
  refine ⟨fun t ht => ?_, fun t ht => ?_⟩
  · obtain ⟨n, hm, hr⟩ := each_mem h ht
    obtain ⟨i, hmi, hri⟩ := each_mem hi hm
    rw [hr.completedAt]
    exact opt (hflat i hmi) hri.completedAt u32
  · obtain ⟨n, hm, hr⟩ := each_mem h ht
    exact maybe_ok (definition_ok hs) hr.definition

/-! ### Images and files -/

theorem iframe_ok (hs : SpaceFits space) (id : ExGuid) (f : IFrame) (h : IFrameIs space id f) : IFrameOk f := by
  obtain ⟨o, hat, h⟩ := h
  have hf := object_flat (hs id o hat)
  exact { embedType := opt hf h.embedType u32, sourceUrl := req hf h.sourceUrl text }

theorem picture_ok (hs : SpaceFits space) (id : ExGuid) (p : PictureContainer) (h : PictureIs space id p) :
    Opt Plain p.extension := by
  obtain ⟨o, hat, h⟩ := h
  exact opt (object_flat (hs id o hat)) h.extension text

theorem image_ok (hs : SpaceFits space) {id : ExGuid} {i : Image} (h : ImageIs space id i) : ImageOk i := by
  obtain ⟨o, n, picture, embeds, tags, hat, h, hp, he, ht, rfl⟩ := h
  have hf := object_flat (hs id o hat)
  exact
    { extension := by
        intro t ht
        obtain ⟨p, rfl, hpt⟩ := Option.bind_eq_some_iff.1 ht
        exact maybe_ok (picture_ok hs) hp p rfl t hpt
      data := by
        intro hn
        rw [Option.map_eq_none_iff] at hn
        show Option.bind picture _ = none
        rw [hn]
        rfl
      layoutMaxWidth := opt hf h.layoutMaxWidth f32
      layoutMaxHeight := opt hf h.layoutMaxHeight f32
      altText := opt hf h.altText text
      imageFilename := opt hf h.imageFilename text
      displayedPageNumber := opt hf h.displayedPageNumber u32
      text := opt hf h.text text
      textLanguageCode := opt hf h.textLanguageCode u16
      pictureWidth := opt hf h.pictureWidth f32
      pictureHeight := opt hf h.pictureHeight f32
      hyperlinkUrl := opt hf h.hyperlinkUrl text
      offsetHorizontal := opt hf h.offsetFromParentHoriz f32
      offsetVertical := opt hf h.offsetFromParentVert f32
      noteTags := tags_ok hs (hs id o hat) h.noteTags ht
      embeds := each_ok (iframe_ok hs) he }

theorem file_ok (hs : SpaceFits space) {id : ExGuid} {f : EmbeddedFile} (h : FileIs space id f) : FileOk f := by
  obtain ⟨o, n, container, data, tags, hat, h, _, _, ht, rfl⟩ := h
  have hf := object_flat (hs id o hat)
  exact
    { filename := req hf h.embeddedFileName text
      layoutMaxWidth := opt hf h.layoutMaxWidth f32
      layoutMaxHeight := opt hf h.layoutMaxHeight f32
      offsetHorizontal := opt hf h.offsetFromParentHoriz f32
      offsetVertical := opt hf h.offsetFromParentVert f32
      noteTags := tags_ok hs (hs id o hat) h.noteTags ht }

/-! ### Ink -/

theorem points_ok {numbers : List Int} {dims : List InkDimension} {s : Option F32} {points : List InkPoint}
    (hn : numbers.length < 2 ^ 32 ∧ ∀ i ∈ numbers, i.natAbs < 2 ^ 63)
    (h : PointsAre numbers dims s s points) :
    (∀ p ∈ points, PointOk (s.getD 0x3F800000) p) ∧ points.length < 2 ^ 32 := by
  obtain ⟨i, j, _, _, hl, h⟩ := h
  refine ⟨fun p hp => ?_, ?_⟩
  · obtain ⟨k, hk, he⟩ := List.getElem_of_mem hp
    obtain ⟨x, y, hx, hy, hp⟩ := h k (hl ▸ hk)
    rw [List.getElem?_eq_getElem hk] at hp
    refine ⟨x, y, hn.2 x (List.mem_of_getElem? hx), hn.2 y (List.mem_of_getElem? hy), ?_⟩
    rw [← he]
    exact Option.some.inj hp
  · rw [hl]
    exact Nat.lt_of_le_of_lt (Nat.div_le_self _ _) hn.1

theorem stroke_ok (hs : SpaceFits space) {s : Option F32} (id : ExGuid) (k : InkStroke)
    (h : StrokeIs space s s id k) : StrokeOk (s.getD 0x3F800000) k := by
  obtain ⟨o, n, properties, p, points, hat, h, hat', hp, hpoints, rfl⟩ := h
  have hf := object_flat (hs id o hat)
  have hf' := object_flat (hs _ _ hat')
  obtain ⟨h1, h2⟩ := points_ok (req (P := fun is : List Int => is.length < 2 ^ 32 ∧ ∀ i ∈ is, i.natAbs < 2 ^ 63) hf h.path path) hpoints
  exact
    { points := h1
      length := h2
      penTip := opt hf' hp.penTip u8
      transparency := opt hf' hp.transparency u8
      height := req hf' hp.inkHeight f32
      width := req hf' hp.inkWidth f32
      color := opt hf' hp.color u32 }

theorem inkData_ok (hs : SpaceFits space) {s : Option F32} {id : ExGuid} {strokes : List InkStroke}
    {bounds : Option InkBoundingBox} (h : InkDataIs space id s s strokes bounds) :
    (∀ k ∈ strokes, StrokeOk (s.getD 0x3F800000) k) ∧ Opt (BoxOk (s.getD 0x3F800000)) bounds := by
  obtain ⟨o, n, hat, h, hk, rfl⟩ := h
  refine ⟨each_ok (stroke_ok hs) hk, fun b hb => ?_⟩
  obtain ⟨⟨l, t, r, m⟩, hl, rfl⟩ := Option.map_eq_some_iff.1 hb
  obtain ⟨h1, h2, h3, h4⟩ := dflt (P := fun x : Option (Nat × Nat × Nat × Nat) =>
    Opt (fun b => Bits 32 b.1 ∧ Bits 32 b.2.1 ∧ Bits 32 b.2.2.1 ∧ Bits 32 b.2.2.2) x)
    (object_flat (hs id o hat)) h.boundingBox (fun _ h => (nomatch h)) box _ hl
  exact ⟨l, t, r, m, h1, h2, h3, h4, rfl⟩

theorem scale_bits {s : Option F32} (h : Opt (Bits 32) s) : Bits 32 (s.getD 0x3F800000) := by
  cases s with
  | none => exact (by decide : (0x3F800000 : Nat) < 2 ^ 32)
  | some n => exact h n rfl

theorem ink_ok (hs : SpaceFits space) {id : ExGuid} {i : Ink} (h : InkIs space id i) : InkOk i := by
  obtain ⟨o, n, hat, h, ho, hv, hd⟩ := h
  have hf := object_flat (hs id o hat)
  have hoh : Opt (Bits 32) i.offsetHorizontal := by rw [ho]; exact opt hf h.offsetFromParentHoriz f32
  have hov : Opt (Bits 32) i.offsetVertical := by rw [hv]; exact opt hf h.offsetFromParentVert f32
  have hsx : Opt (Bits 32) n.inkScalingX := opt hf h.inkScalingX f32
  have same : n.inkScalingY = n.inkScalingX := by
    rcases h.inkScalingX with ⟨h1, h2⟩ | ⟨v, a, h1, h2, h3⟩ <;>
      rcases h.inkScalingY with ⟨h4, h5⟩ | ⟨v', a', h4, h5, h6⟩
    · rw [h2, h5]
    · rw [h1] at h4; cases h4
    · rw [h1] at h4; cases h4
    · rw [h1] at h4
      cases h4
      rw [h3, h6]
      cases h2
      cases h5
      rfl
  refine ⟨n.inkScalingX.getD 0x3F800000, ?_⟩
  rcases hd with ⟨_, h1, h2⟩ | ⟨data, _, hd⟩
  · exact ⟨scale_bits hsx, by rw [h1]; exact fun _ h => (nomatch h), by rw [h2]; exact fun _ h => (nomatch h), hoh, hov⟩
  · rw [same] at hd
    obtain ⟨h1, h2⟩ := inkData_ok hs hd
    exact ⟨scale_bits hsx, h1, h2, hoh, hov⟩

/-! ### Lists -/

theorem list_ok (hs : SpaceFits space) (id : ExGuid) (l : ListFormat) (h : ListIs space id l) : ListOk l := by
  obtain ⟨o, n, hat, h, rfl⟩ := h
  have hf := object_flat (hs id o hat)
  exact
    { listFont := opt hf h.listFont text
      listRestart := opt hf h.listRestart i32
      font := opt hf h.font text
      fontSize := opt hf h.fontSize u16
      fontColor := opt hf h.fontColor colorRef }

/-! ### Rich text -/

theorem style_ok (hs : SpaceFits space) (id : ExGuid) (n : ParagraphStyleObject) (h : StyleIs space id n) :
    StyleOk (shown n) := by
  obtain ⟨o, hat, h⟩ := h
  have hf := object_flat (hs id o hat)
  exact
    { font := opt hf h.font text
      fontSize := opt hf h.fontSize u16
      fontColor := opt hf h.fontColor colorRef
      highlight := opt hf h.highlight colorRef
      nextStyle := opt hf h.nextStyle text
      styleId := opt hf h.styleId text
      paragraphSpaceBefore := opt hf h.paragraphSpaceBefore f32
      paragraphSpaceAfter := opt hf h.paragraphSpaceAfter f32
      paragraphLineSpacingExact := opt hf h.paragraphLineSpacingExact f32
      languageCode := opt hf h.languageCode u32 }

theorem math_ok {o : Object} (hf : SetFlat o.props.properties) {m : MathInlineObject} (h : MathIs o m) : MathOk m := by
  obtain ⟨n, h, _, h1, h2, h3, h4, h5, h6⟩ := h
  refine ⟨?_, ?_, ?_, ?_, ?_, ?_⟩
  · rw [h1]
    have : Opt (Bits 32) n.argCount := opt hf h.argCount u32
    cases hn : n.argCount with
    | none => exact (by decide : (0 : Nat) < 2 ^ 32)
    | some k => exact this k hn
  · rw [h2]; exact opt hf h.column u8
  · rw [h3]; exact opt hf h.align u8
  · rw [h4]; exact opt hf h.char unit
  · rw [h5]; exact opt hf h.char1 unit
  · rw [h6]; exact opt hf h.char2 unit

theorem formulas_ok {runs : List (Object × ParagraphStyleObject)} {ms : List MathInlineObject}
    (hf : ∀ r ∈ runs, SetFlat r.1.props.properties) (h : Formulas runs ms) :
    (∀ m ∈ ms, MathOk m) ∧ runs.countP (·.2.mathFormatting) = ms.length := by
  induction h with
  | nil => exact ⟨fun _ h => (nomatch h), rfl⟩
  | formula hm ho _ ih =>
    obtain ⟨i1, i2⟩ := ih fun r hr => hf r (List.mem_cons_of_mem _ hr)
    refine ⟨List.forall_mem_cons.2 ⟨math_ok (hf _ List.mem_cons_self) ho, i1⟩, ?_⟩
    rw [List.countP_cons, i2, List.length_cons, if_pos hm]
  | other hm _ ih =>
    obtain ⟨i1, i2⟩ := ih fun r hr => hf r (List.mem_cons_of_mem _ hr)
    refine ⟨i1, ?_⟩
    rw [List.countP_cons, i2, if_neg (by simp [hm])]
    rfl

/-- Where an embedded object is placed: the numbers fit. -/
structure DataFits (d : EmbeddedInkData) : Prop where
  spaceWidth : Opt (Bits 32) d.spaceWidth
  spaceHeight : Opt (Bits 32) d.spaceHeight
  startX : Opt (Bits 32) d.startX
  startY : Opt (Bits 32) d.startY
  height : Opt (Bits 32) d.height
  width : Opt (Bits 32) d.width
  offsetHoriz : Opt (Bits 32) d.offsetHoriz
  offsetVert : Opt (Bits 32) d.offsetVert

theorem embedded_ok {runs : List (Object × ParagraphStyleObject)} {ds : List (Option Nat × EmbeddedInkData)}
    (hf : ∀ r ∈ runs, SetFlat r.1.props.properties) (h : Embedded runs ds) :
    (∀ d ∈ ds, DataFits d.2) ∧ ds.length ≤ runs.length := by
  induction h with
  | nil => exact ⟨fun _ h => (nomatch h), Nat.le_refl _⟩
  | object _ ho _ ih =>
    obtain ⟨i1, i2⟩ := ih fun r hr => hf r (List.mem_cons_of_mem _ hr)
    have hf := hf _ List.mem_cons_self
    refine ⟨List.forall_mem_cons.2 ⟨?_, i1⟩, Nat.succ_le_succ i2⟩
    exact ⟨opt hf ho.spaceWidth f32, opt hf ho.spaceHeight f32, opt hf ho.startX f32, opt hf ho.startY f32,
      opt hf ho.height f32, opt hf ho.width f32, opt hf ho.offsetHoriz f32, opt hf ho.offsetVert f32⟩
  | other _ _ ih =>
    obtain ⟨i1, i2⟩ := ih fun r hr => hf r (List.mem_cons_of_mem _ hr)
    exact ⟨i1, Nat.le_succ_of_le i2⟩

theorem objects_ok (hs : SpaceFits space) {all left : List ExGuid} {ds : List (Option Nat × EmbeddedInkData)}
    {es : List EmbeddedObject} (hf : ∀ d ∈ ds, DataFits d.2) (h : EmbeddedAre space all left ds es) :
    (∀ e ∈ es, EmbeddedOk e) ∧ es.length ≤ ds.length := by
  induction h with
  | nil => exact ⟨fun _ h => (nomatch h), Nat.le_refl _⟩
  | lineBreak _ ih =>
    obtain ⟨i1, i2⟩ := ih fun d hd => hf d (List.mem_cons_of_mem _ hd)
    exact ⟨List.forall_mem_cons.2 ⟨trivial, i1⟩, Nat.succ_le_succ i2⟩
  | space hw hh _ ih =>
    obtain ⟨i1, i2⟩ := ih fun d hd => hf d (List.mem_cons_of_mem _ hd)
    have hd := hf _ List.mem_cons_self
    exact ⟨List.forall_mem_cons.2 ⟨⟨hd.spaceHeight _ hh, hd.spaceWidth _ hw⟩, i1⟩, Nat.succ_le_succ i2⟩
  | ink hi hb _ ih =>
    obtain ⟨i1, i2⟩ := ih fun d hd => hf d (List.mem_cons_of_mem _ hd)
    have hd := hf _ List.mem_cons_self
    obtain ⟨h1, h2⟩ := inkData_ok hs hi
    refine ⟨List.forall_mem_cons.2 ⟨⟨⟨scale_bits (s := none) (fun _ h => (nomatch h)), h1, h2,
      hd.offsetHoriz, hd.offsetVert⟩, ?_⟩, i1⟩, Nat.succ_le_succ i2⟩
    rcases hb with ⟨x, y, h, w, hx, hy, hh, hw, rfl⟩ | ⟨_, rfl⟩
    · intro b hb
      cases hb
      exact ⟨x, y, h, w, hd.startX x hx, hd.startY y hy, hd.height h hh, hd.width w hw, rfl⟩
    · exact fun _ h => (nomatch h)
  | skipped _ _ ih =>
    obtain ⟨i1, i2⟩ := ih fun d hd => hf d (List.mem_cons_of_mem _ hd)
    exact ⟨i1, Nat.le_succ_of_le i2⟩

theorem zip_snd {α β : Type} (as : List α) (bs : List β) :
    (as.zip bs).map Prod.snd = bs.take (as.zip bs).length := by
  induction as generalizing bs with
  | nil => rfl
  | cons a as ih =>
    cases bs with
    | nil => rfl
    | cons b bs => rw [List.zip_cons_cons, List.map_cons, ih, List.length_cons, List.take_succ_cons]

theorem text_ok (hs : SpaceFits space) {id : ExGuid} {t : RichText} (h : TextIs space id t) : TextOk t := by
  obtain ⟨o, n, paragraph, styles, inners, embedded, tags, hat, h, hp, hst, hn, hfo, hem, hob, hta, ht1, ht2, he⟩ := h
  have hf := object_flat (hs id o hat)
  have hin := nested_flat (hs id o hat) hn
  have hruns : ∀ r ∈ inners.zip styles, SetFlat r.1.props.properties :=
    fun r hr => hin _ (List.of_mem_zip hr).1
  obtain ⟨m1, m2⟩ := formulas_ok hruns hfo
  obtain ⟨e1, e2⟩ := embedded_ok hruns hem
  obtain ⟨o1, o2⟩ := objects_ok hs e1 hob
  have hz : (inners.zip styles).length ≤ styles.length := by rw [List.length_zip]; exact Nat.min_le_right _ _
  rw [he]
  exact
    { text := by
        show nul ∈ t.text → _
        intro hnul
        have hem : t.embeddedObjects = [] := by
          apply Classical.byContradiction
          intro hne
          rw [ht2 hne] at hnul
          cases hnul
        show ∀ c ∈ t.text, _
        rw [ht1 hem] at hnul ⊢
        rcases h.text with ⟨⟨x, hx⟩, ho⟩ | ⟨_, ho⟩
        · have : Opt Plain n.text := opt hf ho text
          rw [hx] at hnul
          exact absurd hnul (this x hx)
        · have : Opt (fun t : Text => ∀ c ∈ t, c.toNat < 256) n.text := opt hf ho latin1
          cases hx : n.text with
          | none => exact fun _ h => (nomatch h)
          | some x => exact this x hx
      embedded := ht2
      styles := by
        intro s hs'
        obtain ⟨x, hx, rfl⟩ := List.mem_map.1 hs'
        exact each_ok (P := fun n => StyleOk (shown n)) (style_ok hs) hst x hx
      indices := dflt (P := fun ns : List Nat => ∀ n ∈ ns, Bits 32 n) hf h.textRunIndices (fun _ h => (nomatch h)) u32s
      paragraphStyle := style_ok hs _ _ hp
      paragraphSpaceBefore := dflt (P := Bits 32) hf h.paragraphSpaceBefore (by decide) f32
      paragraphSpaceAfter := dflt (P := Bits 32) hf h.paragraphSpaceAfter (by decide) f32
      paragraphLineSpacingExact := opt hf h.paragraphLineSpacingExact f32
      noteTags := tags_ok hs (hs id o hat) h.noteTags hta
      embeddedObjects := o1
      mathInlineObjects := m1
      runs := by
        refine ⟨(inners.zip styles).length, ?_, ?_, ?_⟩
        · show _ ≤ (styles.map shown).length
          rw [List.length_map]
          exact hz
        · show ((styles.map shown).take _).countP _ = t.mathInlineObjects.length
          rw [← m2, ← List.map_take, ← zip_snd, List.map_map, List.countP_map]
          rfl
        · exact Nat.le_trans o2 e2 }

/-! ### Outlines -/

mutual

theorem item_ok (hs : SpaceFits space) : (i : OutlineItem) → (id : ExGuid) → ItemIs space id i → ItemOk i
  | .group ⟨level, items⟩, id, h => by
    cases h with
    | group hat hn hi => exact .group (req (object_flat (hs _ _ hat)) hn.childLevel u8) (items_ok hs _ _ hi)
  | .element e, id, h => by
    cases h with
    | element h => exact .element (element_ok hs e id h)

theorem items_ok (hs : SpaceFits space) : (is : List OutlineItem) → (ids : List ExGuid) →
    Each (ItemIs space) ids is → ∀ i ∈ is, ItemOk i
  | [], _, _ => fun _ h => (nomatch h)
  | i :: is, ids, h => by
    cases h with
    | cons h1 h2 => exact List.forall_mem_cons.2 ⟨item_ok hs i _ h1, items_ok hs is _ h2⟩

theorem element_ok (hs : SpaceFits space) : (e : OutlineElement) → (id : ExGuid) → ElementIs space id e →
    ElementOk e
  | ⟨contents, lists, spacing, level, children⟩, id, h => by
    cases h with
    | mk hat hn hi hc hl =>
      have hf := object_flat (hs _ _ hat)
      exact .mk (contents_ok hs _ _ hc) (each_ok (list_ok hs) hl) (opt hf hn.listSpacing f32)
        (req hf hn.childLevel u8) (items_ok hs _ _ hi)

theorem elements_ok (hs : SpaceFits space) : (es : List OutlineElement) → (ids : List ExGuid) →
    Each (ElementIs space) ids es → ∀ e ∈ es, ElementOk e
  | [], _, _ => fun _ h => (nomatch h)
  | e :: es, ids, h => by
    cases h with
    | cons h1 h2 => exact List.forall_mem_cons.2 ⟨element_ok hs e _ h1, elements_ok hs es _ h2⟩

theorem content_ok (hs : SpaceFits space) : (c : Content) → (id : ExGuid) → ContentIs space id c → ContentOk c
  | .richText t, id, h => by
    cases h with
    | text h => exact .richText (text_ok hs h)
  | .table ⟨rows, cols, contents, locks, widths, borders, inParent, self, tags⟩, id, h => by
    cases h with
    | table hat hn hr ht =>
      have hf := object_flat (hs _ _ hat)
      exact .table (req hf hn.rowCount u32) (req hf hn.colCount u32) (rows_ok hs _ _ hr)
        (dflt (P := fun ns : List F32 => ∀ n ∈ ns, Bits 32 n) hf hn.colWidths (fun _ h => (nomatch h)) columnWidths)
        (tags_ok hs (hs _ _ hat) hn.noteTags ht)
  | .image i, id, h => by
    cases h with
    | image h => exact .image (image_ok hs h)
  | .embeddedFile f, id, h => by
    cases h with
    | file h => exact .embeddedFile (file_ok hs h)
  | .ink i, id, h => by
    cases h with
    | ink h => exact .ink (ink_ok hs h)
  | .unknown, id, h => .unknown

theorem contents_ok (hs : SpaceFits space) : (cs : List Content) → (ids : List ExGuid) →
    Each (ContentIs space) ids cs → ∀ c ∈ cs, ContentOk c
  | [], _, _ => fun _ h => (nomatch h)
  | c :: cs, ids, h => by
    cases h with
    | cons h1 h2 => exact List.forall_mem_cons.2 ⟨content_ok hs c _ h1, contents_ok hs cs _ h2⟩

theorem row_ok (hs : SpaceFits space) : (r : TableRow) → (id : ExGuid) → RowIs space id r → RowOk r
  | ⟨cells⟩, id, h => by
    cases h with
    | mk hat hn hc => exact .mk (cells_ok hs _ _ hc)

theorem rows_ok (hs : SpaceFits space) : (rs : List TableRow) → (ids : List ExGuid) →
    Each (RowIs space) ids rs → ∀ r ∈ rs, RowOk r
  | [], _, _ => fun _ h => (nomatch h)
  | r :: rs, ids, h => by
    cases h with
    | cons h1 h2 => exact List.forall_mem_cons.2 ⟨row_ok hs r _ h1, rows_ok hs rs _ h2⟩

theorem cell_ok (hs : SpaceFits space) : (c : TableCell) → (id : ExGuid) → CellIs space id c → CellOk c
  | ⟨contents, background, width, indentations⟩, id, h => by
    cases h with
    | mk hat hn he =>
      have hf := object_flat (hs _ _ hat)
      exact .mk (elements_ok hs _ _ he) (opt hf hn.backgroundColor color) (opt hf hn.layoutMaxWidth f32)
        (req hf hn.outlineIndentDistance indents)

theorem cells_ok (hs : SpaceFits space) : (cs : List TableCell) → (ids : List ExGuid) →
    Each (CellIs space) ids cs → ∀ c ∈ cs, CellOk c
  | [], _, _ => fun _ h => (nomatch h)
  | c :: cs, ids, h => by
    cases h with
    | cons h1 h2 => exact List.forall_mem_cons.2 ⟨cell_ok hs c _ h1, cells_ok hs cs _ h2⟩

end

theorem outline_ok (hs : SpaceFits space) (id : ExGuid) (o : Outline) (h : OutlineIs space id o) : OutlineOk o := by
  obtain ⟨x, n, items, hat, h, hi, rfl⟩ := h
  have hf := object_flat (hs id x hat)
  exact
    { childLevel := req hf h.childLevel u8
      listSpacing := opt hf h.listSpacing f32
      indents := req hf h.outlineIndentDistance indents
      layoutMaxHeight := opt hf h.layoutMaxHeight f32
      layoutMaxWidth := opt hf h.layoutMaxWidth f32
      layoutReservedWidth := opt hf h.layoutReservedWidth f32
      layoutMinimumOutlineWidth := opt hf h.layoutMinimumOutlineWidth f32
      offsetHorizontal := opt hf h.offsetFromParentHoriz f32
      offsetVertical := opt hf h.offsetFromParentVert f32
      items := items_ok hs _ _ hi }

/-! ### Pages and sections -/

theorem pageContent_ok (hs : SpaceFits space) (id : ExGuid) (c : PageContent) (h : PageContentIs space id c) :
    PageContentOk c := by
  cases h with
  | image h => exact image_ok hs h
  | file h => exact file_ok hs h
  | outline h => exact outline_ok hs _ _ h
  | ink h => exact ink_ok hs h
  | unknown => trivial

theorem title_ok (hs : SpaceFits space) (id : ExGuid) (t : Title) (h : TitleIs space id t) : TitleOk t := by
  obtain ⟨o, n, contents, hat, h, hc, rfl⟩ := h
  have hf := object_flat (hs id o hat)
  exact
    { contents := each_ok (outline_ok hs) hc
      offsetHorizontal := req hf h.offsetHorizontal f32
      offsetVertical := req hf h.offsetVertical f32 }

theorem page_ok (hs : SpaceFits space) {p : Page} (h : PageIs space p) : PageOk p := by
  obtain ⟨info, m, metadata, manifest, k, page, o, n, title, contents, _, hm, hmeta, _, _, _, hat, h, ht, hc, rfl⟩ := h
  have hf := object_flat (hs page o hat)
  exact
    { title := maybe_ok (title_ok hs) ht
      level := dflt (P := fun i : Int => -2 ^ 31 ≤ i ∧ i < 2 ^ 31) (object_flat (hs info m hm)) hmeta.pageLevel
        (by decide) i32
      author := opt hf h.author text
      height := opt hf h.pageHeight f32
      contents := each_ok (pageContent_ok hs) hc }

/-- What a store shows can be stored, if the numbers of the store fit. -/
theorem section_ok {store : Store} {name : Text} {s : Section} (hd : SpaceFits store.dataRoot)
    (hs : ∀ c space, store.objectSpace c = some space → SpaceFits space) (hn : Plain name)
    (h : SectionIs store name s) : SectionOk s := by
  obtain ⟨info, m, metadata, root, o, n, _, hm, hmeta, _, _, _, hst, hse, hc⟩ := h
  have hf := object_flat (hd info m hm)
  exact
    { pages := by
        intro series hser p hp
        obtain ⟨id, _, o, n, _, _, he⟩ := each_mem hse hser
        obtain ⟨cell, _, space, hsp, hp⟩ := each_mem he hp
        exact page_ok (hs cell space hsp) hp
      color := by rw [hc]; exact opt hf hmeta.color color
      plain := by
        have hp : Plain (metadata.displayName.getD name) := by
          have : Opt Plain metadata.displayName := opt hf hmeta.displayName text
          cases hx : metadata.displayName with
          | none => exact hn
          | some t => exact this t hx
        obtain ⟨⟨k, he⟩, _⟩ := hst
        rw [he] at hp
        exact fun hm => hp (List.mem_append_left _ hm)
      stripped := hst.2 }

end OneNote.Bounded
