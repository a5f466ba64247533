/-
A document does not show the identifiers of its objects.
-/
import Verif.Lemmas.RenameObjects
import Verif.Lemmas.WholeNotebook
import Verif.Lemmas.SameFiles

namespace OneNote.Rename

open Spec Spec.Fields Spec.Objects Spec.Document Spec.StoreContents

variable (r : Renaming)

section
variable {s : ObjectSpace}

theorem at_new {id : ExGuid} {o : Object} (h : At s id o) : At (space r s) (r.new id) (object r o) := by
  unfold At at *
  rw [space_object, h]
  rfl

theorem maybe_map {α α' β : Type} {R : α → β → Prop} {R' : α' → β → Prop} {f : α → α'}
    (h : ∀ a b, R a b → R' (f a) b) {a : Option α} {b : Option β} (hm : Maybe R a b) :
    Maybe R' (a.map f) b := by
  rcases hm with ⟨rfl, rfl⟩ | ⟨x, y, rfl, rfl, hr⟩
  · exact .inl ⟨rfl, rfl⟩
  · exact .inr ⟨_, _, rfl, rfl, h _ _ hr⟩

theorem definition_is (id : ExGuid) (d : NoteTagDefinition) (h : DefinitionIs s id d) :
    DefinitionIs (space r s) (r.new id) d := by
  obtain ⟨o, ha, ho⟩ := h
  exact ⟨_, at_new r ha, is_NoteTagDefinition r ho⟩

theorem noteTag_is (n : NoteTagData) (t : NoteTag) (h : NoteTagIs s n t) :
    NoteTagIs (space r s) (noteTagData r n) t :=
  ⟨h.completedAt, h.itemStatus, maybe_map (definition_is r) h.definition⟩

theorem iframe_is (id : ExGuid) (f : IFrame) (h : IFrameIs s id f) :
    IFrameIs (space r s) (r.new id) f := by
  obtain ⟨o, ha, ho⟩ := h
  exact ⟨_, at_new r ha, is_IFrame r ho⟩

theorem picture_is (id : ExGuid) (p : PictureContainer) (h : PictureIs s id p) :
    PictureIs (space r s) (r.new id) p := by
  obtain ⟨o, ha, ho⟩ := h
  exact ⟨_, at_new r ha, is_PictureContainer r ho⟩

theorem image_is {id : ExGuid} {i : Image} (h : ImageIs s id i) : ImageIs (space r s) (r.new id) i := by
  obtain ⟨o, n, picture, embeds, tags, ha, ho, hp, he, ht, rfl⟩ := h
  exact ⟨_, _, picture, embeds, tags, at_new r ha, is_ImageNode r ho, maybe_map (picture_is r) hp,
    each_map (iframe_is r) he, each_map (noteTag_is r) ht, rfl⟩

theorem file_is {id : ExGuid} {f : EmbeddedFile} (h : FileIs s id f) : FileIs (space r s) (r.new id) f := by
  obtain ⟨o, n, container, data, tags, ha, ho, hc, hd, ht, rfl⟩ := h
  exact ⟨_, _, _, data, tags, at_new r ha, is_EmbeddedFileNode r ho, at_new r hc,
    is_FileContainer r hd, each_map (noteTag_is r) ht, rfl⟩

theorem stroke_is {sx sy : Option F32} (id : ExGuid) (x : InkStroke) (h : StrokeIs s sx sy id x) :
    StrokeIs (space r s) sx sy (r.new id) x := by
  obtain ⟨o, n, properties, p, points, ha, ho, hp, hs, hps, rfl⟩ := h
  exact ⟨_, _, _, p, points, at_new r ha, is_InkStrokeNode r ho, at_new r hp,
    is_StrokeProperties r hs, hps, rfl⟩

theorem inkData_is {id : ExGuid} {sx sy : Option F32} {strokes : List InkStroke}
    {bounds : Option InkBoundingBox} (h : InkDataIs s id sx sy strokes bounds) :
    InkDataIs (space r s) (r.new id) sx sy strokes bounds := by
  obtain ⟨o, n, ha, ho, hs, hb⟩ := h
  exact ⟨_, _, at_new r ha, is_InkDataNode r ho, each_map (stroke_is r) hs, hb⟩

theorem ink_is {id : ExGuid} {i : Ink} (h : InkIs s id i) : InkIs (space r s) (r.new id) i := by
  obtain ⟨o, n, ha, ho, h1, h2, h3⟩ := h
  refine ⟨_, _, at_new r ha, is_InkContainerNode r ho, h1, h2, ?_⟩
  rcases h3 with ⟨h3, h4⟩ | ⟨data, h3, h4⟩
  · exact .inl ⟨by show n.inkData.map r.new = none; rw [h3]; rfl, h4⟩
  · exact .inr ⟨_, by show n.inkData.map r.new = _; rw [h3]; rfl, inkData_is r h4⟩

theorem list_is (id : ExGuid) (l : ListFormat) (h : ListIs s id l) : ListIs (space r s) (r.new id) l := by
  obtain ⟨o, n, ha, ho, rfl⟩ := h
  exact ⟨_, _, at_new r ha, is_NumberListNode r ho, rfl⟩

theorem style_is (id : ExGuid) (n : ParagraphStyleObject) (h : StyleIs s id n) :
    StyleIs (space r s) (r.new id) n := by
  obtain ⟨o, ha, ho⟩ := h
  exact ⟨_, at_new r ha, is_ParagraphStyleObject r ho⟩

theorem formulas {runs : List (Object × ParagraphStyleObject)} {ms : List MathInlineObject}
    (h : Formulas runs ms) : Formulas (runs.map fun e => (object r e.1, e.2)) ms := by
  induction h with
  | nil => exact .nil
  | formula h1 h2 _ ih =>
    obtain ⟨n, hn, hr⟩ := h2
    exact .formula h1 ⟨n, is_MathInlineData r hn, hr⟩ ih
  | other h1 _ ih => exact .other h1 ih

theorem embedded {runs : List (Object × ParagraphStyleObject)}
    {ds : List (Option Nat × EmbeddedInkData)} (h : Embedded runs ds) :
    Embedded (runs.map fun e => (object r e.1, e.2)) ds := by
  induction h with
  | nil => exact .nil
  | object h1 h2 _ ih => exact .object h1 (is_EmbeddedInkData r h2) ih
  | other h1 _ ih => exact .other h1 ih

theorem embedded_are {all left : List ExGuid} {ds : List (Option Nat × EmbeddedInkData)}
    {es : List EmbeddedObject} (h : EmbeddedAre s all left ds es) :
    EmbeddedAre (space r s) (all.map r.new) (left.map r.new) ds es := by
  induction h with
  | nil => exact .nil
  | lineBreak _ ih => exact .lineBreak ih
  | space h1 h2 _ ih => exact .space h1 h2 ih
  | ink h1 h2 _ ih => exact .ink (inkData_is r h1) h2 ih
  | skipped h1 _ ih => exact .skipped (by rw [h1]; rfl) ih

theorem text_is {id : ExGuid} {t : RichText} (h : TextIs s id t) : TextIs (space r s) (r.new id) t := by
  obtain ⟨o, n, paragraph, styles, inners, em, tags, ha, ho, hp, hs, hn, hf, he, hea, ht, h1, h2, h3⟩ := h
  refine ⟨_, _, paragraph, styles, inners.map (object r), em, tags, at_new r ha, is_RichTextNode r ho,
    style_is r _ _ hp, each_map (style_is r) hs, nested r hn, ?_, ?_, embedded_are r hea,
    each_map (noteTag_is r) ht, h1, h2, h3⟩
  · rw [List.zip_map_left]
    exact formulas r hf
  · rw [List.zip_map_left]
    exact embedded r he

mutual

theorem item_is (i : OutlineItem) {id : ExGuid} (h : ItemIs s id i) :
    ItemIs (space r s) (r.new id) i := by
  match i with
  | .group ⟨_, items⟩ =>
    cases h with
    | @group _ o n _ ha ho he =>
      exact .group (n := outlineGroupNode r n) (at_new r ha) (is_OutlineGroupNode r ho) (items_are items he)
  | .element e =>
    cases h with
    | element he => exact .element (element_is e he)

theorem items_are (is : List OutlineItem) {ids : List ExGuid} (h : Each (ItemIs s) ids is) :
    Each (ItemIs (space r s)) (ids.map r.new) is := by
  match is with
  | [] => cases h; exact .nil
  | i :: is =>
    cases h with
    | cons hi hs => exact .cons (item_is i hi) (items_are is hs)

theorem element_is (e : OutlineElement) {id : ExGuid} (h : ElementIs s id e) :
    ElementIs (space r s) (r.new id) e := by
  match e with
  | ⟨contents, _, _, _, children⟩ =>
    cases h with
    | @mk _ o n _ _ _ ha ho hc hk hl =>
      exact .mk (n := outlineElementNode r n) (at_new r ha) (is_OutlineElementNode r ho) (items_are children hc)
        (contents_are contents hk) (each_map (list_is r) hl)

theorem elements_are (es : List OutlineElement) {ids : List ExGuid} (h : Each (ElementIs s) ids es) :
    Each (ElementIs (space r s)) (ids.map r.new) es := by
  match es with
  | [] => cases h; exact .nil
  | e :: es =>
    cases h with
    | cons hi hs => exact .cons (element_is e hi) (elements_are es hs)

theorem content_is (c : Content) {id : ExGuid} (h : ContentIs s id c) :
    ContentIs (space r s) (r.new id) c := by
  match c with
  | .table ⟨_, _, rows, _, _, _, _, _, _⟩ =>
    cases h with
    | @table _ o n _ _ ha ho hr ht =>
      exact .table (n := tableNode r n) (at_new r ha) (is_TableNode r ho) (rows_are rows hr) (each_map (noteTag_is r) ht)
  | .image _ => cases h with | image h => exact .image (image_is r h)
  | .embeddedFile _ => cases h with | file h => exact .file (file_is r h)
  | .richText _ => cases h with | text h => exact .text (text_is r h)
  | .ink _ => cases h with | ink h => exact .ink (ink_is r h)
  | .unknown =>
    cases h with
    | unknown ha h1 h2 h3 h4 h5 h6 => exact .unknown (at_new r ha) h1 h2 h3 h4 h5 h6

theorem contents_are (cs : List Content) {ids : List ExGuid} (h : Each (ContentIs s) ids cs) :
    Each (ContentIs (space r s)) (ids.map r.new) cs := by
  match cs with
  | [] => cases h; exact .nil
  | c :: cs =>
    cases h with
    | cons hi hs => exact .cons (content_is c hi) (contents_are cs hs)

theorem rows_are (rs : List TableRow) {ids : List ExGuid} (h : Each (RowIs s) ids rs) :
    Each (RowIs (space r s)) (ids.map r.new) rs := by
  match rs with
  | [] => cases h; exact .nil
  | ⟨cells⟩ :: rs =>
    cases h with
    | cons hi hs =>
      cases hi with
      | mk ha ho hc =>
        exact .cons (.mk (at_new r ha) (is_TableRowNode r ho) (cells_are cells hc)) (rows_are rs hs)

theorem cells_are (cs : List TableCell) {ids : List ExGuid} (h : Each (CellIs s) ids cs) :
    Each (CellIs (space r s)) (ids.map r.new) cs := by
  match cs with
  | [] => cases h; exact .nil
  | ⟨elements, _, _, _⟩ :: cs =>
    cases h with
    | cons hi hs =>
      cases hi with
      | @mk _ o n _ ha ho hc =>
        exact .cons (.mk (n := tableCellNode r n) (at_new r ha) (is_TableCellNode r ho) (elements_are elements hc))
          (cells_are cs hs)

end

theorem outline_is (id : ExGuid) (x : Outline) (h : OutlineIs s id x) :
    OutlineIs (space r s) (r.new id) x := by
  obtain ⟨o, n, items, ha, ho, hi, rfl⟩ := h
  exact ⟨_, _, items, at_new r ha, is_OutlineNode r ho, items_are r items hi, rfl⟩

theorem pageContent_is (id : ExGuid) (c : PageContent) (h : PageContentIs s id c) :
    PageContentIs (space r s) (r.new id) c := by
  cases h with
  | image h => exact .image (image_is r h)
  | file h => exact .file (file_is r h)
  | outline h => exact .outline (outline_is r _ _ h)
  | ink h => exact .ink (ink_is r h)
  | unknown ha h1 h2 h3 h4 h5 => exact .unknown (at_new r ha) h1 h2 h3 h4 h5

theorem title_is (id : ExGuid) (t : Title) (h : TitleIs s id t) : TitleIs (space r s) (r.new id) t := by
  obtain ⟨o, n, contents, ha, ho, hc, rfl⟩ := h
  exact ⟨_, _, contents, at_new r ha, is_TitleNode r ho, each_map (outline_is r) hc, rfl⟩

theorem root_new {role : RevisionRole} {id : ExGuid} (h : s.roots.get? role = some id) :
    (space r s).roots.get? role = some (r.new id) := by
  rw [space_root, h]
  rfl

theorem page_is {p : Page} (h : PageIs s p) : PageIs (space r s) p := by
  obtain ⟨info, m, metadata, manifest, k, page, o, n, title, contents, h1, h2, h3, h4, h5, h6, h7, h8,
    h9, h10, rfl⟩ := h
  exact ⟨_, _, metadata, _, _, _, _, _, title, contents, root_new r h1, at_new r h2,
    is_PageMetadata r h3, root_new r h4, at_new r h5, is_PageManifest r h6, at_new r h7,
    is_PageNode r h8, maybe_map (title_is r) h9, each_map (pageContent_is r) h10, rfl⟩

end

theorem series_is {st : Store} (id : ExGuid) (x : PageSeries) (h : SeriesIs st id x) :
    SeriesIs (store r st) (r.new id) x := by
  obtain ⟨o, n, ha, ho, hp⟩ := h
  refine ⟨_, _, at_new r ha, is_PageSeriesNode r ho, each_map (fun cell page h => ?_) hp⟩
  obtain ⟨sp, hs, hp⟩ := h
  exact ⟨space r sp, by rw [store_space, hs]; rfl, page_is r hp⟩

theorem section_is {st : Store} {name : Text} {x : Section} (h : SectionIs st name x) :
    SectionIs (store r st) name x := by
  obtain ⟨info, m, metadata, root, o, n, h1, h2, h3, h4, h5, h6, h7, h8, h9⟩ := h
  exact ⟨_, _, metadata, _, _, _, root_new r h1, at_new r h2, is_SectionMetadata r h3, root_new r h4,
    at_new r h5, is_SectionNode r h6, h7, each_map (series_is r) h8, h9⟩

/-! ### Tables of contents -/

mutual

theorem tocTree {s : ObjectSpace} {id : ExGuid} {es : List (Nat × Text)} (h : Toc.TocTree s id es) :
    Toc.TocTree (space r s) (r.new id) es := by
  match h with
  | .file ha ho hf hk => exact .file (at_new r ha) (is_TocContainer r ho) hf hk
  | .folder ha ho hf hc => exact .folder (at_new r ha) (is_TocContainer r ho) hf (tocTrees hc)

theorem tocTrees {s : ObjectSpace} {ids : List ExGuid} {es : List (Nat × Text)}
    (h : Toc.TocTrees s ids es) : Toc.TocTrees (space r s) (ids.map r.new) es := by
  match h with
  | .nil => exact .nil
  | .cons hx hs => exact .cons (tocTree hx) (tocTrees hs)

end

theorem toc_is {s : ObjectSpace} {names : List Text} {color : Option Color} (h : TocIs s names color) :
    TocIs (space r s) names color := by
  obtain ⟨root, entries, sorted, o, t, h1, h2, h3, h4, h5, h6, h7⟩ := h
  exact ⟨_, entries, sorted, _, _, root_new r h1, tocTree r h2, h3, h4, at_new r h5,
    is_TocContainer r h6, h7⟩

/-! ### Files -/

theorem section_file {data data' : Bytes} {si : ExGuid} {es : List LaxElement}
    (h : HoldsElements data si es) (h' : HoldsElements data' (r.new si) (es.map r.element))
    {name : Text} {x : Section} (hs : SectionFile data name x) : SectionFile data' name x := by
  obtain ⟨st, hf, hk, hx⟩ := hs
  exact ⟨store r st, (files r h h').2 st hf, hk, section_is r hx⟩

theorem toc_file {data data' : Bytes} {si : ExGuid} {es : List LaxElement}
    (h : HoldsElements data si es) (h' : HoldsElements data' (r.new si) (es.map r.element))
    {names : List Text} {color : Option Color} (hs : TocFile data names color) :
    TocFile data' names color := by
  obtain ⟨st, hf, hk, hx⟩ := hs
  exact ⟨store r st, (files r h h').2 st hf, hk, toc_is r hx⟩

/-! ### Notebooks -/

section
variable {fs : FileSystem} {files : Path → Option Bytes} {sanitise : Text → Text}

theorem section_at
    (hs : ∀ p d, fs.read p = some d → ∃ d', files p = some d' ∧ ∀ name x, SectionFile d name x →
      SectionFile d' name x) {p : Path} {x : Section} (h : SectionAt fs p x) :
    SectionAt { fs with read := files } p x := by
  obtain ⟨d, name, hd, hn, hx⟩ := h
  obtain ⟨d', hd', hx'⟩ := hs p d hd
  exact ⟨d', name, hd', hn, hx' name x hx⟩

theorem group_entry {p : Path} {n : Text} {entries : List SectionEntry}
    (h : EntryIs fs sanitise p (.sectionGroup ⟨n, entries⟩)) :
    ∃ (dir : Path) (name toc : Text) (before after : List (Option Text)) (color : Option Color),
      p = dir ++ [.normal name] ∧ n = name ∧ fs.isFile (dir ++ [.normal name]) = false ∧
      fs.readDir (dir ++ [.normal name]) = some (before ++ some toc :: after) ∧
      NoToc before ∧ TocName toc ∧
      NotebookIs fs sanitise (dir ++ [.normal name] ++ [.normal toc]) ⟨entries, color⟩ := by
  cases h with
  | @directory dir name toc before after nb h1 h2 h3 h4 h5 =>
    exact ⟨dir, _, toc, before, after, nb.color, rfl, rfl, h1, h2, h3, h4, h5⟩

mutual

theorem notebook_is
    (hs : ∀ p d, fs.read p = some d → ∃ d', files p = some d' ∧ ∀ name x, SectionFile d name x →
      SectionFile d' name x)
    (ht : ∀ p d, fs.read p = some d → ∃ d', files p = some d' ∧ ∀ names color, TocFile d names color →
      TocFile d' names color)
    (entries : List SectionEntry) {color : Option Color} {p : Path}
    (h : NotebookIs fs sanitise p ⟨entries, color⟩) :
    NotebookIs { fs with read := files } sanitise p ⟨entries, color⟩ := by
  cases h with
  | mk h1 h2 h3 h4 h5 =>
    obtain ⟨d', hd', hx'⟩ := ht _ _ h2
    exact .mk h1 hd' (hx' _ _ h3) h4 (entries_are hs ht entries h5)

theorem entry_is
    (hs : ∀ p d, fs.read p = some d → ∃ d', files p = some d' ∧ ∀ name x, SectionFile d name x →
      SectionFile d' name x)
    (ht : ∀ p d, fs.read p = some d → ∃ d', files p = some d' ∧ ∀ names color, TocFile d names color →
      TocFile d' names color)
    (e : SectionEntry) {p : Path} (h : EntryIs fs sanitise p e) :
    EntryIs { fs with read := files } sanitise p e := by
  match e with
  | .section x =>
    cases h with
    | file h1 h2 => exact .file h1 (section_at hs h2)
  | .sectionGroup ⟨_, entries⟩ =>
    obtain ⟨dir, name, toc, before, after, color, rfl, rfl, h1, h2, h3, h4, h5⟩ := group_entry h
    exact .directory (nb := ⟨entries, color⟩) h1 h2 h3 h4 (notebook_is hs ht entries h5)

theorem entries_are
    (hs : ∀ p d, fs.read p = some d → ∃ d', files p = some d' ∧ ∀ name x, SectionFile d name x →
      SectionFile d' name x)
    (ht : ∀ p d, fs.read p = some d → ∃ d', files p = some d' ∧ ∀ names color, TocFile d names color →
      TocFile d' names color)
    (es : List SectionEntry) {ps : List Path} (h : Each (EntryIs fs sanitise) ps es) :
    Each (EntryIs { fs with read := files } sanitise) ps es := by
  match es with
  | [] => cases h; exact .nil
  | e :: es =>
    cases h with
    | cons hx hxs => exact .cons (entry_is hs ht e hx) (entries_are hs ht es hxs)

end

end

end OneNote.Rename
