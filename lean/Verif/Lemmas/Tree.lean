/-
Parsed documents follow the references of the file.
-/
import Verif.Lemmas.MapM
import Verif.Spec.Tree

namespace OneNote

open Spec

/-- Splits a successful sequence of steps into the steps. -/
macro "steps" h:ident : tactic => `(tactic| repeat (obtain ⟨_, _, $h:ident⟩ := Res.bind_ok $h))

theorem object_some {space : ObjectSpace} {id : ExGuid} {o : Object} (h : space.object id = .ok o) :
    space.getObject id = some o := orErr_some h

theorem kind_ok {o : Object} {k : PropertySetId} {u : Unit} (h : assertPropertySet o k = .ok u) :
    o.jcId = k.asJcid := by
  unfold assertPropertySet at h
  split at h
  · assumption
  · cases h

theorem parseVec_none {o : Object} {t : PropertyType} (h : ObjectReference.parseVec t o = .ok none) :
    o.props.get t = none := by
  unfold ObjectReference.parseVec at h
  split at h
  · assumption
  · split at h
    · cases h
    · cases h
  · cases h

theorem parseVec_references {o : Object} {t : PropertyType} {r : Option (List ExGuid)}
    (h : ObjectReference.parseVec t o = .ok r) : References o t (r.getD []) := by
  cases r with
  | none => exact .inr ⟨parseVec_none h, rfl⟩
  | some ids => exact .inl h

theorem parseVec_cells {o : Object} {t : PropertyType} {r : Option (List CellId)}
    (h : ObjectSpaceReference.parseVec t o = .ok r) : CellReferences o t (r.getD []) := by
  cases r with
  | none =>
    refine .inr ⟨?_, rfl⟩
    unfold ObjectSpaceReference.parseVec at h
    split at h
    · assumption
    · split at h
      · cases h
      · cases h
    · cases h
  | some ids => exact .inl h

/-! ### The references of the nodes -/

theorem outlineGroup_refs {o : Object} {d : OutlineGroupNode} (h : OutlineGroupNode.parse o = .ok d) :
    o.jcId = 0x00060019 ∧ References o .elementChildNodes d.children := by
  unfold OutlineGroupNode.parse at h
  obtain ⟨_, hk, h⟩ := Res.bind_ok h
  steps h
  cases h
  exact ⟨kind_ok hk, parseVec_references ‹_›⟩

theorem outlineElement_refs {o : Object} {d : OutlineElementNode}
    (h : OutlineElementNode.parse o = .ok d) :
    o.jcId = 0x0006000D ∧ References o .elementChildNodes d.children ∧
      References o .contentChildNodes d.contents ∧ References o .listNodes d.listContents := by
  unfold OutlineElementNode.parse at h
  obtain ⟨_, hk, h⟩ := Res.bind_ok h
  steps h
  cases h
  exact ⟨kind_ok hk, parseVec_references ‹_›, parseVec_references ‹_›, parseVec_references ‹_›⟩

theorem outlineNode_refs {o : Object} {d : OutlineNode} (h : OutlineNode.parse o = .ok d) :
    o.jcId = 0x0006000C ∧ References o .elementChildNodes d.children := by
  unfold OutlineNode.parse at h
  obtain ⟨_, hk, h⟩ := Res.bind_ok h
  steps h
  cases h
  exact ⟨kind_ok hk, parseVec_references ‹_›⟩

theorem table_refs {o : Object} {d : TableNode} (h : TableNode.parse o = .ok d) :
    o.jcId = 0x00060022 ∧ References o .elementChildNodes d.rows := by
  unfold TableNode.parse at h
  obtain ⟨_, hk, h⟩ := Res.bind_ok h
  obtain ⟨_, _, h⟩ := Res.bind_ok h
  obtain ⟨_, _, h⟩ := Res.bind_ok h
  obtain ⟨r, hr, h⟩ := Res.bind_ok h
  obtain ⟨rows, hq, h⟩ := Res.bind_ok h
  steps h
  cases h
  have := required_ok hq
  subst this
  exact ⟨kind_ok hk, .inl hr⟩

theorem row_refs {o : Object} {d : TableRowNode} (h : TableRowNode.parse o = .ok d) :
    o.jcId = 0x00060023 ∧ References o .elementChildNodes d.cells := by
  unfold TableRowNode.parse at h
  obtain ⟨_, hk, h⟩ := Res.bind_ok h
  obtain ⟨_, _, h⟩ := Res.bind_ok h
  obtain ⟨r, hr, h⟩ := Res.bind_ok h
  obtain ⟨rows, hq, h⟩ := Res.bind_ok h
  cases h
  have := required_ok hq
  subst this
  exact ⟨kind_ok hk, .inl hr⟩

theorem cell_refs {o : Object} {d : TableCellNode} (h : TableCellNode.parse o = .ok d) :
    o.jcId = 0x00060024 ∧ References o .elementChildNodes d.contents := by
  unfold TableCellNode.parse at h
  obtain ⟨_, hk, h⟩ := Res.bind_ok h
  obtain ⟨_, _, h⟩ := Res.bind_ok h
  obtain ⟨r, hr, h⟩ := Res.bind_ok h
  obtain ⟨rows, hq, h⟩ := Res.bind_ok h
  steps h
  cases h
  have := required_ok hq
  subst this
  exact ⟨kind_ok hk, .inl hr⟩

theorem title_refs {o : Object} {d : TitleNode} (h : TitleNode.parse o = .ok d) :
    o.jcId = 0x0006002C ∧ References o .elementChildNodes d.children := by
  unfold TitleNode.parse at h
  obtain ⟨_, hk, h⟩ := Res.bind_ok h
  obtain ⟨_, _, h⟩ := Res.bind_ok h
  obtain ⟨_, _, h⟩ := Res.bind_ok h
  obtain ⟨r, hr, h⟩ := Res.bind_ok h
  obtain ⟨rows, hq, h⟩ := Res.bind_ok h
  steps h
  cases h
  have := required_ok hq
  subst this
  exact ⟨kind_ok hk, .inl hr⟩

theorem inkData_refs {o : Object} {d : InkDataNode} (h : InkDataNode.parse o = .ok d) :
    o.jcId = 0x0002003B ∧ References o .inkStrokes d.strokes := by
  unfold InkDataNode.parse at h
  obtain ⟨_, hk, h⟩ := Res.bind_ok h
  obtain ⟨r, hr, h⟩ := Res.bind_ok h
  obtain ⟨rows, hq, h⟩ := Res.bind_ok h
  steps h
  cases h
  have := required_ok hq
  subst this
  exact ⟨kind_ok hk, .inl hr⟩

theorem inkContainer_refs {o : Object} {d : InkContainerNode} (h : InkContainerNode.parse o = .ok d) :
    o.jcId = 0x00060014 ∧ ObjectReference.parse .inkData o = .ok d.inkData := by
  unfold InkContainerNode.parse at h
  obtain ⟨_, hk, h⟩ := Res.bind_ok h
  steps h
  cases h
  exact ⟨kind_ok hk, ‹_›⟩

theorem richText_refs {o : Object} {d : RichTextNode} (h : RichTextNode.parse o = .ok d) :
    o.jcId = 0x0006000E ∧ References o .textRunFormatting d.textRunFormatting := by
  unfold RichTextNode.parse at h
  obtain ⟨_, hk, h⟩ := Res.bind_ok h
  steps h
  cases h
  exact ⟨kind_ok hk, parseVec_references ‹_›⟩

theorem image_refs {o : Object} {d : ImageNode} (h : ImageNode.parse o = .ok d) :
    o.jcId = 0x00060011 ∧ References o .contentChildNodes d.iframe := by
  unfold ImageNode.parse at h
  obtain ⟨_, hk, h⟩ := Res.bind_ok h
  steps h
  cases h
  exact ⟨kind_ok hk, parseVec_references ‹_›⟩

theorem embeddedFile_kind {o : Object} {d : EmbeddedFileNode} (h : EmbeddedFileNode.parse o = .ok d) :
    o.jcId = 0x00060035 := by
  unfold EmbeddedFileNode.parse at h
  obtain ⟨_, hk, h⟩ := Res.bind_ok h
  exact kind_ok hk

theorem page_refs {o : Object} {d : PageNode} (h : PageNode.parse o = .ok d) :
    o.jcId = 0x0006000B ∧ References o .elementChildNodes d.content ∧
      ∃ ids, References o .structureElementChildNodes ids ∧ d.title = ids.head? := by
  unfold PageNode.parse at h
  obtain ⟨_, hk, h⟩ := Res.bind_ok h
  steps h
  cases h
  exact ⟨kind_ok hk, parseVec_references ‹_›, _, parseVec_references ‹_›, rfl⟩

theorem manifest_refs {o : Object} {id : ExGuid} (h : PageManifestNode.parse o = .ok id) :
    o.jcId = 0x00060037 ∧ ∃ rest, References o .contentChildNodes (id :: rest) := by
  unfold PageManifestNode.parse at h
  obtain ⟨_, hk, h⟩ := Res.bind_ok h
  obtain ⟨r, hr, h⟩ := Res.bind_ok h
  have h := required_ok h
  cases r with
  | none => cases h
  | some ids =>
    cases ids with
    | nil => cases h
    | cons a ids => cases h; exact ⟨kind_ok hk, ids, .inl hr⟩

theorem series_refs {o : Object} {d : PageSeriesNode} (h : PageSeriesNode.parse o = .ok d) :
    o.jcId = 0x00060008 ∧ CellReferences o .childGraphSpaceElementNodes d.pageSpaces := by
  unfold PageSeriesNode.parse at h
  obtain ⟨_, hk, h⟩ := Res.bind_ok h
  steps h
  cases h
  exact ⟨kind_ok hk, parseVec_cells ‹_›⟩

theorem section_refs {o : Object} {d : SectionNode} (h : SectionNode.parse o = .ok d) :
    o.jcId = 0x00060007 ∧ References o .elementChildNodes d.pageSeries := by
  unfold SectionNode.parse at h
  obtain ⟨_, hk, h⟩ := Res.bind_ok h
  steps h
  cases h
  exact ⟨kind_ok hk, parseVec_references ‹_›⟩

/-! ### Parts of the document -/

theorem parseInk_at {space : ObjectSpace} {id : ExGuid} {ink : Ink} (h : parseInk space id = .ok ink) :
    InkAt space id ink := by
  unfold parseInk at h
  obtain ⟨o, ho, h⟩ := Res.bind_ok h
  obtain ⟨c, hc, h⟩ := Res.bind_ok h
  obtain ⟨hk, hr⟩ := inkContainer_refs hc
  split at h
  · rename_i hn
    cases h
    exact .empty o ⟨object_some ho, hk⟩ (.inr (by rw [hr, hn])) rfl
  · rename_i data hn
    obtain ⟨⟨strokes, box⟩, hd, h⟩ := Res.bind_ok h
    cases h
    unfold parseInkData at hd
    obtain ⟨d, hdo, hd⟩ := Res.bind_ok hd
    obtain ⟨n, hnode, hd⟩ := Res.bind_ok hd
    obtain ⟨ss, hs, hd⟩ := Res.bind_ok hd
    cases hd
    obtain ⟨hk', hr'⟩ := inkData_refs hnode
    exact .strokes o d data n.strokes _ _ ⟨object_some ho, hk⟩ (by rw [hr, hn])
      ⟨object_some hdo, hk'⟩ hr' (mapM_each.1 hs)

theorem each_map {α β γ : Type} {R : α → β → Prop} (f : β → γ) {xs : List α} {ys : List β}
    (h : Each R xs ys) : Each (fun x z => ∃ y, R x y ∧ z = f y) xs (ys.map f) := by
  induction h with
  | nil => exact .nil
  | cons hr _ ih => exact .cons ⟨_, hr, rfl⟩ ih

theorem parseRichText_at {space : ObjectSpace} {id : ExGuid} {t : RichText}
    (h : parseRichText space id = .ok t) : TextAt space id t := by
  refine ⟨h, ?_⟩
  unfold parseRichText at h
  obtain ⟨o, ho, h⟩ := Res.bind_ok h
  obtain ⟨d, hd, h⟩ := Res.bind_ok h
  obtain ⟨_, _, h⟩ := Res.bind_ok h
  obtain ⟨styles, hs, h⟩ := Res.bind_ok h
  steps h
  cases h
  obtain ⟨hk, hr⟩ := richText_refs hd
  exact ⟨o, _, ⟨object_some ho, hk⟩, hr, each_map parseStyle (mapM_each.1 hs)⟩

theorem parseImage_at {space : ObjectSpace} {id : ExGuid} {i : Image}
    (h : parseImage space id = .ok i) : ImageAt space id i := by
  refine ⟨h, ?_⟩
  unfold parseImage at h
  obtain ⟨o, ho, h⟩ := Res.bind_ok h
  obtain ⟨d, hd, h⟩ := Res.bind_ok h
  obtain ⟨_, _, h⟩ := Res.bind_ok h
  obtain ⟨frames, hf, h⟩ := Res.bind_ok h
  steps h
  cases h
  obtain ⟨hk, hr⟩ := image_refs hd
  exact ⟨o, _, ⟨object_some ho, hk⟩, hr, mapM_each.1 hf⟩

theorem parseEmbeddedFile_kind {space : ObjectSpace} {id : ExGuid} {f : EmbeddedFile}
    (h : parseEmbeddedFile space id = .ok f) : ∃ o, Kind space id o 0x00060035 := by
  unfold parseEmbeddedFile at h
  obtain ⟨o, ho, h⟩ := Res.bind_ok h
  obtain ⟨d, hd, h⟩ := Res.bind_ok h
  exact ⟨o, object_some ho, embeddedFile_kind hd⟩

theorem fromJcid_some {n : Nat} {k : PropertySetId} (h : PropertySetId.fromJcid n = some k) :
    k.asJcid = n := by
  unfold PropertySetId.fromJcid at h
  simpa using List.find?_some h

theorem propertySetId_ok {space : ObjectSpace} {id : ExGuid} {k : PropertySetId}
    (h : space.propertySetId id = .ok k) : ∃ o, Kind space id o k.asJcid := by
  unfold ObjectSpace.propertySetId at h
  obtain ⟨o, ho, h⟩ := Res.bind_ok h
  exact ⟨o, object_some ho, (fromJcid_some (orErr_some h)).symm⟩

section
variable {space : ObjectSpace} {r : Rec}

theorem parseCell_at (he : ∀ id e, r.element id = .ok e → ElementAt space id e) {id : ExGuid}
    {c : TableCell} (h : parseCell r space id = .ok c) : CellAt space id c := by
  unfold parseCell at h
  obtain ⟨o, ho, h⟩ := Res.bind_ok h
  obtain ⟨d, hd, h⟩ := Res.bind_ok h
  obtain ⟨es, hes, h⟩ := Res.bind_ok h
  cases h
  obtain ⟨hk, hr⟩ := cell_refs hd
  exact .mk ⟨object_some ho, hk⟩ hd hr (each_mono (mapM_each.1 hes) fun id e _ h => he id e h)

theorem parseRow_at (he : ∀ id e, r.element id = .ok e → ElementAt space id e) {id : ExGuid}
    {row : TableRow} (h : parseRow r space id = .ok row) : RowAt space id row := by
  unfold parseRow at h
  obtain ⟨o, ho, h⟩ := Res.bind_ok h
  obtain ⟨d, hd, h⟩ := Res.bind_ok h
  obtain ⟨cs, hcs, h⟩ := Res.bind_ok h
  cases h
  obtain ⟨hk, hr⟩ := row_refs hd
  exact .mk ⟨object_some ho, hk⟩ hr (each_mono (mapM_each.1 hcs) fun id e _ h => parseCell_at he h)

theorem parseTable_at (he : ∀ id e, r.element id = .ok e → ElementAt space id e) {id : ExGuid}
    {t : Table} (h : parseTable r space id = .ok t) : ContentAt space id (.table t) := by
  unfold parseTable at h
  obtain ⟨o, ho, h⟩ := Res.bind_ok h
  obtain ⟨d, hd, h⟩ := Res.bind_ok h
  obtain ⟨rows, hrows, h⟩ := Res.bind_ok h
  obtain ⟨tags, htags, h⟩ := Res.bind_ok h
  cases h
  obtain ⟨hk, hr⟩ := table_refs hd
  exact .table ⟨object_some ho, hk⟩ hd hr
    (each_mono (mapM_each.1 hrows) fun id e _ h => parseRow_at he h) (mapM_each.1 htags)

theorem parseContent_at (he : ∀ id e, r.element id = .ok e → ElementAt space id e) {id : ExGuid}
    {c : Content} (h : parseContent r space id = .ok c) : ContentAt space id c := by
  unfold parseContent at h
  obtain ⟨k, hk, h⟩ := Res.bind_ok h
  obtain ⟨o, ho⟩ := propertySetId_ok hk
  split at h
  · obtain ⟨i, hi, rfl⟩ := map_ok h
    exact .image (parseImage_at hi)
  · obtain ⟨f, hf, rfl⟩ := map_ok h
    exact .file ho hf
  · obtain ⟨t, ht, rfl⟩ := map_ok h
    exact .text (parseRichText_at ht)
  · obtain ⟨t, ht, rfl⟩ := map_ok h
    exact parseTable_at he ht
  · obtain ⟨i, hi, rfl⟩ := map_ok h
    exact .ink hi (parseInk_at hi)
  · cases h
    refine .unknown ho ?_ ?_ ?_ ?_ ?_ <;>
      (intro hj; cases k <;> first | contradiction | exact absurd hj (by decide))

theorem parseOutlineGroup_at (hi : ∀ id e, r.item id = .ok e → ItemAt space id e) {id : ExGuid}
    {g : OutlineGroup} (h : parseOutlineGroup r space id = .ok g) : ItemAt space id (.group g) := by
  unfold parseOutlineGroup at h
  obtain ⟨o, ho, h⟩ := Res.bind_ok h
  obtain ⟨d, hd, h⟩ := Res.bind_ok h
  obtain ⟨es, hes, h⟩ := Res.bind_ok h
  cases h
  obtain ⟨hk, hr⟩ := outlineGroup_refs hd
  exact .group ⟨object_some ho, hk⟩ hd hr (each_mono (mapM_each.1 hes) fun id e _ h => hi id e h)

theorem parseElementWith_at (hi : ∀ id e, r.item id = .ok e → ItemAt space id e)
    (he : ∀ id e, r.element id = .ok e → ElementAt space id e) {id : ExGuid}
    {e : OutlineElement} (h : parseElementWith r space id = .ok e) : ElementAt space id e := by
  unfold parseElementWith at h
  obtain ⟨o, ho, h⟩ := Res.bind_ok h
  obtain ⟨d, hd, h⟩ := Res.bind_ok h
  obtain ⟨cs, hcs, h⟩ := Res.bind_ok h
  obtain ⟨ks, hks, h⟩ := Res.bind_ok h
  obtain ⟨ls, hls, h⟩ := Res.bind_ok h
  cases h
  obtain ⟨hk, hr1, hr2, hr3⟩ := outlineElement_refs hd
  exact .mk ⟨object_some ho, hk⟩ hd hr1 (each_mono (mapM_each.1 hcs) fun id e _ h => hi id e h)
    hr2 (each_mono (mapM_each.1 hks) fun id e _ h => parseContent_at he h) hr3 (mapM_each.1 hls)

theorem parseItemWith_at (hi : ∀ id e, r.item id = .ok e → ItemAt space id e)
    (he : ∀ id e, r.element id = .ok e → ElementAt space id e) {id : ExGuid}
    {item : OutlineItem} (h : parseItemWith r space id = .ok item) : ItemAt space id item := by
  unfold parseItemWith at h
  obtain ⟨k, hk, h⟩ := Res.bind_ok h
  split at h
  · obtain ⟨g, hg, rfl⟩ := map_ok h
    exact parseOutlineGroup_at hi hg
  · obtain ⟨e, he', rfl⟩ := map_ok h
    exact .element (parseElementWith_at hi he he')
  · cases h

end

theorem recAt_at (space : ObjectSpace) (n : Nat) :
    (∀ id e, (recAt space n).item id = .ok e → ItemAt space id e) ∧
    (∀ id e, (recAt space n).element id = .ok e → ElementAt space id e) := by
  induction n with
  | zero =>
    constructor
    · intro id e h; cases h
    · intro id e h; cases h
  | succ n ih =>
    exact ⟨fun id e h => parseItemWith_at ih.1 ih.2 h, fun id e h => parseElementWith_at ih.1 ih.2 h⟩

theorem parseOutline_at {fuel : Nat} {space : ObjectSpace} {id : ExGuid} {outline : Outline}
    (h : parseOutline fuel space id = .ok outline) : OutlineAt space id outline := by
  unfold parseOutline at h
  obtain ⟨o, ho, h⟩ := Res.bind_ok h
  obtain ⟨d, hd, h⟩ := Res.bind_ok h
  obtain ⟨is, his, h⟩ := Res.bind_ok h
  cases h
  obtain ⟨hk, hr⟩ := outlineNode_refs hd
  exact ⟨o, _, ⟨object_some ho, hk⟩, hr,
    each_mono (mapM_each.1 his) fun id e _ h => (recAt_at space fuel).1 id e h⟩

theorem parsePageContent_at {fuel : Nat} {space : ObjectSpace} {id : ExGuid} {c : PageContent}
    (h : parsePageContent fuel space id = .ok c) : PageContentAt space id c := by
  unfold parsePageContent at h
  obtain ⟨k, hk, h⟩ := Res.bind_ok h
  obtain ⟨o, ho⟩ := propertySetId_ok hk
  split at h
  · obtain ⟨i, hi, rfl⟩ := map_ok h
    exact .image (parseImage_at hi)
  · obtain ⟨f, hf, rfl⟩ := map_ok h
    exact .file ho hf
  · obtain ⟨t, ht, rfl⟩ := map_ok h
    exact .outline (parseOutline_at ht)
  · obtain ⟨i, hi, rfl⟩ := map_ok h
    exact .ink hi (parseInk_at hi)
  · cases h
    refine .unknown ho ?_ ?_ ?_ ?_ <;>
      (intro hj; cases k <;> first | contradiction | exact absurd hj (by decide))

theorem parsePage_in {fuel : Nat} {space : ObjectSpace} {page : Page}
    (h : parsePage fuel space = .ok page) : PageIn space page := by
  unfold parsePage at h
  obtain ⟨_, _, h⟩ := Res.bind_ok h
  obtain ⟨id, hm, h⟩ := Res.bind_ok h
  obtain ⟨d, hd, h⟩ := Res.bind_ok h
  obtain ⟨title, ht, h⟩ := Res.bind_ok h
  obtain ⟨cs, hcs, h⟩ := Res.bind_ok h
  cases h
  unfold parsePageManifest at hm
  obtain ⟨manifest, hmo, hm⟩ := Res.bind_ok hm
  unfold ObjectSpace.contentObject at hmo
  obtain ⟨root, hroot, hmo⟩ := Res.bind_ok hmo
  obtain ⟨hmk, rest, hmr⟩ := manifest_refs hm
  unfold parsePageData at hd
  obtain ⟨o, ho, hd⟩ := Res.bind_ok hd
  obtain ⟨hk, hr, ids, hids, hti⟩ := page_refs hd
  refine ⟨root, manifest, id, rest, o, _, orErr_some hroot, ⟨object_some hmo, hmk⟩, hmr,
    ⟨object_some ho, hk⟩, ⟨ids, hids, ?_⟩, hr,
    each_mono (mapM_each.1 hcs) fun id e _ h => parsePageContent_at h⟩
  rcases optM_ok ht with ⟨hn, rfl⟩ | ⟨tid, t, hs, rfl, htp⟩
  · left
    rw [hti, List.head?_eq_none_iff] at hn
    exact ⟨hn, rfl⟩
  · right
    rw [hti] at hs
    cases ids with
    | nil => cases hs
    | cons a as =>
      cases hs
      unfold parseTitle at htp
      obtain ⟨to, hto, htp⟩ := Res.bind_ok htp
      obtain ⟨td, htd, htp⟩ := Res.bind_ok htp
      obtain ⟨os, hos, htp⟩ := Res.bind_ok htp
      cases htp
      obtain ⟨htk, htr⟩ := title_refs htd
      exact ⟨tid, as, _, to, _, rfl, rfl, ⟨object_some hto, htk⟩, htr,
        each_mono (mapM_each.1 hos) fun id e _ h => parseOutline_at h⟩

theorem parsePageSeries_at {fuel : Nat} {store : Store} {id : ExGuid} {series : PageSeries}
    (h : parsePageSeries fuel store id = .ok series) : SeriesAt store id series := by
  unfold parsePageSeries at h
  obtain ⟨o, ho, h⟩ := Res.bind_ok h
  obtain ⟨d, hd, h⟩ := Res.bind_ok h
  obtain ⟨ps, hps, h⟩ := Res.bind_ok h
  cases h
  obtain ⟨hk, hr⟩ := series_refs hd
  refine ⟨o, _, ⟨object_some ho, hk⟩, hr, each_mono (mapM_each.1 hps) fun id p _ h => ?_⟩
  unfold parsePageSpace at h
  obtain ⟨space, hs, h⟩ := Res.bind_ok h
  exact ⟨space, orErr_some hs, parsePage_in h⟩

theorem parseSectionStore_in {fuel : Nat} {store : Store} {name : Text} {s : Section}
    (h : parseSectionStore fuel store name = .ok s) : SectionIn store s := by
  unfold parseSectionStore at h
  obtain ⟨_, _, h⟩ := Res.bind_ok h
  obtain ⟨d, hd, h⟩ := Res.bind_ok h
  obtain ⟨ss, hss, h⟩ := Res.bind_ok h
  cases h
  unfold parseSectionContent at hd
  obtain ⟨o, ho, hd⟩ := Res.bind_ok hd
  unfold ObjectSpace.contentObject at ho
  obtain ⟨root, hroot, ho⟩ := Res.bind_ok ho
  obtain ⟨hk, hr⟩ := section_refs hd
  exact ⟨root, o, _, orErr_some hroot, ⟨object_some ho, hk⟩, hr,
    each_mono (mapM_each.1 hss) fun id e _ h => parsePageSeries_at h⟩

end OneNote
