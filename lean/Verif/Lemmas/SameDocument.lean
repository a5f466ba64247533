/-
A document shows nothing of the properties that are not read.
-/
import Verif.Lemmas.SameStore
import Verif.Lemmas.RenameDocument

namespace OneNote.Same

open Spec Spec.Fields Spec.Objects Spec.Document Spec.StoreContents

section
variable {s s' : ObjectSpace} (hr : SpaceRel s s')

include hr

theorem at_same {id : ExGuid} {o : Object} (h : At s id o) : ∃ o', At s' id o' ∧ View o o' :=
  hr.objects id o h

omit hr in
theorem maybe_mono {α β : Type} {R R' : α → β → Prop} (h : ∀ a b, R a b → R' a b) {a : Option α}
    {b : Option β} (hm : Maybe R a b) : Maybe R' a b := by
  rcases hm with ⟨rfl, rfl⟩ | ⟨x, y, rfl, rfl, hr⟩
  · exact .inl ⟨rfl, rfl⟩
  · exact .inr ⟨_, _, rfl, rfl, h _ _ hr⟩

omit hr in
theorem each_to {α β : Type} {R R' : α → β → Prop} (h : ∀ a b, R a b → R' a b) {as : List α}
    {bs : List β} (he : Each R as bs) : Each R' as bs :=
  each_mono he fun a b _ => h a b

theorem definition_is (id : ExGuid) (d : NoteTagDefinition) (h : DefinitionIs s id d) :
    DefinitionIs s' id d := by
  obtain ⟨o, ha, ho⟩ := h
  obtain ⟨o', ha', v⟩ := at_same hr ha
  exact ⟨_, ha', is_NoteTagDefinition v ho⟩

theorem noteTag_is (n : NoteTagData) (t : NoteTag) (h : NoteTagIs s n t) : NoteTagIs s' n t :=
  ⟨h.completedAt, h.itemStatus, maybe_mono (definition_is hr) h.definition⟩

theorem iframe_is (id : ExGuid) (f : IFrame) (h : IFrameIs s id f) : IFrameIs s' id f := by
  obtain ⟨o, ha, ho⟩ := h
  obtain ⟨o', ha', v⟩ := at_same hr ha
  exact ⟨_, ha', is_IFrame v ho⟩

theorem picture_is (id : ExGuid) (p : PictureContainer) (h : PictureIs s id p) : PictureIs s' id p := by
  obtain ⟨o, ha, ho⟩ := h
  obtain ⟨o', ha', v⟩ := at_same hr ha
  exact ⟨_, ha', is_PictureContainer v ho⟩

theorem image_is {id : ExGuid} {i : Image} (h : ImageIs s id i) : ImageIs s' id i := by
  obtain ⟨o, n, picture, embeds, tags, ha, ho, hp, he, ht, rfl⟩ := h
  obtain ⟨o', ha', v⟩ := at_same hr ha
  exact ⟨_, _, picture, embeds, tags, ha', is_ImageNode v ho, maybe_mono (picture_is hr) hp,
    each_to (iframe_is hr) he, each_to (noteTag_is hr) ht, rfl⟩

theorem file_is {id : ExGuid} {f : EmbeddedFile} (h : FileIs s id f) : FileIs s' id f := by
  obtain ⟨o, n, container, data, tags, ha, ho, hc, hd, ht, rfl⟩ := h
  obtain ⟨o', ha', v⟩ := at_same hr ha
  obtain ⟨c', hc', w⟩ := at_same hr hc
  exact ⟨_, _, _, data, tags, ha', is_EmbeddedFileNode v ho, hc', is_FileContainer w hd,
    each_to (noteTag_is hr) ht, rfl⟩

theorem stroke_is {sx sy : Option F32} (id : ExGuid) (x : InkStroke) (h : StrokeIs s sx sy id x) :
    StrokeIs s' sx sy id x := by
  obtain ⟨o, n, properties, p, points, ha, ho, hp, hs, hps, rfl⟩ := h
  obtain ⟨o', ha', v⟩ := at_same hr ha
  obtain ⟨p', hp', w⟩ := at_same hr hp
  exact ⟨_, _, _, p, points, ha', is_InkStrokeNode v ho, hp', is_StrokeProperties w hs, hps, rfl⟩

theorem inkData_is {id : ExGuid} {sx sy : Option F32} {strokes : List InkStroke}
    {bounds : Option InkBoundingBox} (h : InkDataIs s id sx sy strokes bounds) :
    InkDataIs s' id sx sy strokes bounds := by
  obtain ⟨o, n, ha, ho, hs, hb⟩ := h
  obtain ⟨o', ha', v⟩ := at_same hr ha
  exact ⟨_, _, ha', is_InkDataNode v ho, each_to (stroke_is hr) hs, hb⟩

theorem ink_is {id : ExGuid} {i : Ink} (h : InkIs s id i) : InkIs s' id i := by
  obtain ⟨o, n, ha, ho, h1, h2, h3⟩ := h
  obtain ⟨o', ha', v⟩ := at_same hr ha
  refine ⟨_, _, ha', is_InkContainerNode v ho, h1, h2, ?_⟩
  rcases h3 with ⟨h3, h4⟩ | ⟨data, h3, h4⟩
  · exact .inl ⟨h3, h4⟩
  · exact .inr ⟨_, h3, inkData_is hr h4⟩

theorem list_is (id : ExGuid) (l : ListFormat) (h : ListIs s id l) : ListIs s' id l := by
  obtain ⟨o, n, ha, ho, rfl⟩ := h
  obtain ⟨o', ha', v⟩ := at_same hr ha
  exact ⟨_, _, ha', is_NumberListNode v ho, rfl⟩

theorem style_is (id : ExGuid) (n : ParagraphStyleObject) (h : StyleIs s id n) : StyleIs s' id n := by
  obtain ⟨o, ha, ho⟩ := h
  obtain ⟨o', ha', v⟩ := at_same hr ha
  exact ⟨_, ha', is_ParagraphStyleObject v ho⟩

omit hr

/-- The same runs. -/
abbrev Runs := Each fun (e e' : Object × ParagraphStyleObject) => Seen e.1 e'.1 ∧ e.2 = e'.2

theorem runs_zip {inners inners' : List Object} (h : Each Seen inners inners')
    (styles : List ParagraphStyleObject) : Runs (inners.zip styles) (inners'.zip styles) := by
  induction h generalizing styles with
  | nil => exact .nil
  | cons h1 _ ih =>
    cases styles with
    | nil => exact .nil
    | cons x styles => exact .cons ⟨h1, rfl⟩ (ih styles)

theorem formulas {runs runs' : List (Object × ParagraphStyleObject)} {ms : List MathInlineObject}
    (he : Runs runs runs') (h : Formulas runs ms) : Formulas runs' ms := by
  induction h generalizing runs' with
  | nil => cases he; exact .nil
  | formula h1 h2 _ ih =>
    cases he with
    | @cons _ e' _ _ hv he =>
      obtain ⟨o', st⟩ := e'
      obtain ⟨hv, rfl⟩ := hv
      obtain ⟨n, hn, hr⟩ := h2
      exact .formula h1 ⟨n, is_MathInlineData hv hn, hr⟩ (ih he)
  | other h1 _ ih =>
    cases he with
    | @cons _ e' _ _ hv he =>
      obtain ⟨o', st⟩ := e'
      obtain ⟨hv, rfl⟩ := hv
      exact .other h1 (ih he)

theorem embedded {runs runs' : List (Object × ParagraphStyleObject)}
    {ds : List (Option Nat × EmbeddedInkData)} (he : Runs runs runs') (h : Embedded runs ds) :
    Embedded runs' ds := by
  induction h generalizing runs' with
  | nil => cases he; exact .nil
  | object h1 h2 _ ih =>
    cases he with
    | @cons _ e' _ _ hv he =>
      obtain ⟨o', st⟩ := e'
      obtain ⟨hv, rfl⟩ := hv
      exact .object h1 (is_EmbeddedInkData hv h2) (ih he)
  | other h1 _ ih =>
    cases he with
    | @cons _ e' _ _ hv he =>
      obtain ⟨o', st⟩ := e'
      obtain ⟨hv, rfl⟩ := hv
      exact .other h1 (ih he)

include hr

theorem embedded_are {all left : List ExGuid} {ds : List (Option Nat × EmbeddedInkData)}
    {es : List EmbeddedObject} (h : EmbeddedAre s all left ds es) : EmbeddedAre s' all left ds es := by
  induction h with
  | nil => exact .nil
  | lineBreak _ ih => exact .lineBreak ih
  | space h1 h2 _ ih => exact .space h1 h2 ih
  | ink h1 h2 _ ih => exact .ink (inkData_is hr h1) h2 ih
  | skipped h1 _ ih => exact .skipped h1 ih

theorem text_is {id : ExGuid} {t : RichText} (h : TextIs s id t) : TextIs s' id t := by
  obtain ⟨o, n, paragraph, styles, inners, em, tags, ha, ho, hp, hs, hn, hf, he, hea, ht, h1, h2, h3⟩ := h
  obtain ⟨o', ha', v⟩ := at_same hr ha
  obtain ⟨inners', hn', hi⟩ := nested v (by decide +kernel) hn
  exact ⟨_, _, paragraph, styles, inners', em, tags, ha', is_RichTextNode v ho,
    style_is hr _ _ hp, each_to (style_is hr) hs, hn', formulas (runs_zip hi _) hf,
    embedded (runs_zip hi _) he, embedded_are hr hea, each_to (noteTag_is hr) ht, h1, h2, h3⟩

mutual

theorem item_is (i : OutlineItem) {id : ExGuid} (h : ItemIs s id i) : ItemIs s' id i := by
  match i with
  | .group ⟨_, items⟩ =>
    cases h with
    | @group _ o n _ ha ho he =>
      obtain ⟨o', ha', v⟩ := at_same hr ha
      exact .group (n := n) ha' (is_OutlineGroupNode v ho) (items_are items he)
  | .element e =>
    cases h with
    | element he => exact .element (element_is e he)

theorem items_are (is : List OutlineItem) {ids : List ExGuid} (h : Each (ItemIs s) ids is) :
    Each (ItemIs s') ids is := by
  match is with
  | [] => cases h; exact .nil
  | i :: is =>
    cases h with
    | cons hi hs => exact .cons (item_is i hi) (items_are is hs)

theorem element_is (e : OutlineElement) {id : ExGuid} (h : ElementIs s id e) : ElementIs s' id e := by
  match e with
  | ⟨contents, _, _, _, children⟩ =>
    cases h with
    | @mk _ o n _ _ _ ha ho hc hk hl =>
      obtain ⟨o', ha', v⟩ := at_same hr ha
      exact .mk (n := n) ha' (is_OutlineElementNode v ho) (items_are children hc)
        (contents_are contents hk) (each_to (list_is hr) hl)

theorem elements_are (es : List OutlineElement) {ids : List ExGuid} (h : Each (ElementIs s) ids es) :
    Each (ElementIs s') ids es := by
  match es with
  | [] => cases h; exact .nil
  | e :: es =>
    cases h with
    | cons hi hs => exact .cons (element_is e hi) (elements_are es hs)

theorem content_is (c : Content) {id : ExGuid} (h : ContentIs s id c) : ContentIs s' id c := by
  match c with
  | .table ⟨_, _, rows, _, _, _, _, _, _⟩ =>
    cases h with
    | @table _ o n _ _ ha ho hr' ht =>
      obtain ⟨o', ha', v⟩ := at_same hr ha
      exact .table (n := n) ha' (is_TableNode v ho) (rows_are rows hr') (each_to (noteTag_is hr) ht)
  | .image _ => cases h with | image h => exact .image (image_is hr h)
  | .embeddedFile _ => cases h with | file h => exact .file (file_is hr h)
  | .richText _ => cases h with | text h => exact .text (text_is hr h)
  | .ink _ => cases h with | ink h => exact .ink (ink_is hr h)
  | .unknown =>
    cases h with
    | unknown ha h1 h2 h3 h4 h5 h6 =>
      obtain ⟨o', ha', v⟩ := at_same hr ha
      rw [← v.kind] at h1 h2 h3 h4 h5 h6
      exact .unknown ha' h1 h2 h3 h4 h5 h6

theorem contents_are (cs : List Content) {ids : List ExGuid} (h : Each (ContentIs s) ids cs) :
    Each (ContentIs s') ids cs := by
  match cs with
  | [] => cases h; exact .nil
  | c :: cs =>
    cases h with
    | cons hi hs => exact .cons (content_is c hi) (contents_are cs hs)

theorem rows_are (rs : List TableRow) {ids : List ExGuid} (h : Each (RowIs s) ids rs) :
    Each (RowIs s') ids rs := by
  match rs with
  | [] => cases h; exact .nil
  | ⟨cells⟩ :: rs =>
    cases h with
    | cons hi hs =>
      cases hi with
      | mk ha ho hc =>
        obtain ⟨o', ha', v⟩ := at_same hr ha
        exact .cons (.mk ha' (is_TableRowNode v ho) (cells_are cells hc)) (rows_are rs hs)

theorem cells_are (cs : List TableCell) {ids : List ExGuid} (h : Each (CellIs s) ids cs) :
    Each (CellIs s') ids cs := by
  match cs with
  | [] => cases h; exact .nil
  | ⟨elements, _, _, _⟩ :: cs =>
    cases h with
    | cons hi hs =>
      cases hi with
      | @mk _ o n _ ha ho hc =>
        obtain ⟨o', ha', v⟩ := at_same hr ha
        exact .cons (.mk (n := n) ha' (is_TableCellNode v ho) (elements_are elements hc))
          (cells_are cs hs)

end

theorem outline_is (id : ExGuid) (x : Outline) (h : OutlineIs s id x) : OutlineIs s' id x := by
  obtain ⟨o, n, items, ha, ho, hi, rfl⟩ := h
  obtain ⟨o', ha', v⟩ := at_same hr ha
  exact ⟨_, _, items, ha', is_OutlineNode v ho, items_are hr items hi, rfl⟩

theorem pageContent_is (id : ExGuid) (c : PageContent) (h : PageContentIs s id c) :
    PageContentIs s' id c := by
  cases h with
  | image h => exact .image (image_is hr h)
  | file h => exact .file (file_is hr h)
  | outline h => exact .outline (outline_is hr _ _ h)
  | ink h => exact .ink (ink_is hr h)
  | unknown ha h1 h2 h3 h4 h5 =>
    obtain ⟨o', ha', v⟩ := at_same hr ha
    rw [← v.kind] at h1 h2 h3 h4 h5
    exact .unknown ha' h1 h2 h3 h4 h5

theorem title_is (id : ExGuid) (t : Title) (h : TitleIs s id t) : TitleIs s' id t := by
  obtain ⟨o, n, contents, ha, ho, hc, rfl⟩ := h
  obtain ⟨o', ha', v⟩ := at_same hr ha
  exact ⟨_, _, contents, ha', is_TitleNode v ho, each_to (outline_is hr) hc, rfl⟩

theorem root_same {role : RevisionRole} {id : ExGuid} (h : s.roots.get? role = some id) :
    s'.roots.get? role = some id :=
  (hr.roots role).trans h

theorem page_is {p : Page} (h : PageIs s p) : PageIs s' p := by
  obtain ⟨info, m, metadata, manifest, k, page, o, n, title, contents, h1, h2, h3, h4, h5, h6, h7, h8,
    h9, h10, rfl⟩ := h
  obtain ⟨m', h2', v2⟩ := at_same hr h2
  obtain ⟨k', h5', v5⟩ := at_same hr h5
  obtain ⟨o', h7', v7⟩ := at_same hr h7
  exact ⟨_, _, metadata, _, _, _, _, _, title, contents, root_same hr h1, h2',
    is_PageMetadata v2 h3, root_same hr h4, h5', is_PageManifest v5 h6, h7',
    is_PageNode v7 h8, maybe_mono (title_is hr) h9, each_to (pageContent_is hr) h10, rfl⟩

/-! ### Tables of contents -/

mutual

theorem tocTree {id : ExGuid} {es : List (Nat × Text)} (h : Toc.TocTree s id es) :
    Toc.TocTree s' id es := by
  match h with
  | .file ha ho hf hk =>
    obtain ⟨o', ha', v⟩ := at_same hr ha
    exact .file ha' (is_TocContainer v ho) hf hk
  | .folder ha ho hf hc =>
    obtain ⟨o', ha', v⟩ := at_same hr ha
    exact .folder ha' (is_TocContainer v ho) hf (tocTrees hc)

theorem tocTrees {ids : List ExGuid} {es : List (Nat × Text)}
    (h : Toc.TocTrees s ids es) : Toc.TocTrees s' ids es := by
  match h with
  | .nil => exact .nil
  | .cons hx hs => exact .cons (tocTree hx) (tocTrees hs)

end

theorem toc_is {names : List Text} {color : Option Color} (h : TocIs s names color) :
    TocIs s' names color := by
  obtain ⟨root, entries, sorted, o, t, h1, h2, h3, h4, h5, h6, h7⟩ := h
  obtain ⟨o', ha', v⟩ := at_same hr h5
  exact ⟨_, entries, sorted, _, _, root_same hr h1, tocTree hr h2, h3, h4, ha',
    is_TocContainer v h6, h7⟩

end

section
variable {st st' : Store} (hr : StoreRel st st')

include hr

theorem series_is (id : ExGuid) (x : PageSeries) (h : SeriesIs st id x) : SeriesIs st' id x := by
  obtain ⟨o, n, ha, ho, hp⟩ := h
  obtain ⟨o', ha', v⟩ := at_same hr.dataRoot ha
  refine ⟨_, _, ha', is_PageSeriesNode v ho, each_to (fun cell page h => ?_) hp⟩
  obtain ⟨sp, hs, hp⟩ := h
  obtain ⟨sp', hs', hx⟩ := hr.spaces cell sp hs
  exact ⟨sp', hs', page_is hx hp⟩

theorem section_is {name : Text} {x : Section} (h : SectionIs st name x) : SectionIs st' name x := by
  obtain ⟨info, m, metadata, root, o, n, h1, h2, h3, h4, h5, h6, h7, h8, h9⟩ := h
  obtain ⟨m', h2', v2⟩ := at_same hr.dataRoot h2
  obtain ⟨o', h5', v5⟩ := at_same hr.dataRoot h5
  exact ⟨_, _, metadata, _, _, _, root_same hr.dataRoot h1, h2', is_SectionMetadata v2 h3,
    root_same hr.dataRoot h4, h5', is_SectionNode v5 h6, h7, each_to (series_is hr) h8, h9⟩

end

/-! ### Files -/

section
variable {data data' : Bytes} {si : ExGuid} {es es' : List LaxElement}
  (h : HoldsElements data si es) (h' : HoldsElements data' si es') (hb : Each SameElement es es')

include h h' hb

theorem section_file {name : Text} {x : Section} (hs : SectionFile data name x) :
    SectionFile data' name x := by
  obtain ⟨st, hf, hk, hx⟩ := hs
  obtain ⟨st', hf', hr⟩ := (files h h' hb).2 st hf
  exact ⟨st', hf', hr.schema.trans hk, section_is hr hx⟩

theorem toc_file {names : List Text} {color : Option Color} (hs : TocFile data names color) :
    TocFile data' names color := by
  obtain ⟨st, hf, hk, hx⟩ := hs
  obtain ⟨st', hf', hr⟩ := (files h h' hb).2 st hf
  exact ⟨st', hf', hr.schema.trans hk, toc_is hr.dataRoot hx⟩

end

end OneNote.Same
