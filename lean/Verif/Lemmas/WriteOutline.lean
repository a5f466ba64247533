/-
What is read back from written outlines.
-/
import Verif.Lemmas.WriteText

namespace OneNote.Writer

open Spec Spec.Writer Spec.Storable Spec.Fields Spec.Document Spec.Objects

variable {space : ObjectSpace} {id : ExGuid}

theorem dummy_is (h : Stored space id dummy) : ∃ o, At space id o ∧ o.jcId = 0x00120001 := by
  obtain ⟨o, hat, h⟩ := node_written h (by words) (by simp)
  exact ⟨o, hat, h.kind⟩

theorem one_some {o : Object} {w : Nat} {t : Tree}
    (h : ∃ r, Ref o w r ∧ Maybe (Stored space) r (some t)) : ∃ x, Ref o w (some x) ∧ Stored space x t := by
  obtain ⟨r, hr, ⟨_, h⟩ | ⟨x, y, rfl, hy, hs⟩⟩ := h
  · cases h
  · cases hy
    exact ⟨x, hr, hs⟩

mutual

theorem item_is : (i : OutlineItem) → (id : ExGuid) → ItemOk i → Stored space id (itemTree i) →
    ItemIs space id i
  | .group ⟨level, items⟩, id, ok, h => by
    cases ok with
    | group h1 h2 =>
    rw [itemTree] at h
    obtain ⟨o, hat, h⟩ := node_written h (by words) (by simp)
    obtain ⟨ids, hr, hids⟩ := h.many Word.elementChildNodes _ (by field)
    exact .group (n := ⟨0, ids, level⟩) hat
      { kind := h.kind
        lastModified := req (h.val _ _ (by field)) (reads_u32 zero32)
        children := .inr hr
        childLevel := req (h.val _ _ (by field)) (reads_u8 h1) } (items_are items ids h2 hids)
  | .element e, id, ok, h => by
    cases ok with
    | element h1 =>
    rw [itemTree] at h
    exact .element (element_is e id h1 h)

theorem items_are : (is : List OutlineItem) → (ids : List ExGuid) → (∀ i ∈ is, ItemOk i) →
    Each (Stored space) ids (itemTrees is) → Each (ItemIs space) ids is
  | [], ids, _, h => by
    rw [itemTrees] at h
    cases h
    exact .nil
  | i :: is, ids, ok, h => by
    rw [itemTrees] at h
    cases h with
    | cons h1 h2 =>
    exact .cons (item_is i _ (ok i List.mem_cons_self) h1)
      (items_are is _ (fun x hx => ok x (List.mem_cons_of_mem _ hx)) h2)

theorem element_is : (e : OutlineElement) → (id : ExGuid) → ElementOk e → Stored space id (elementTree e) →
    ElementIs space id e
  | ⟨contents, lists, spacing, level, children⟩, id, ok, h => by
    cases ok with
    | mk h1 h2 h3 h4 h5 =>
    rw [elementTree] at h
    obtain ⟨o, hat, h⟩ := node_written h (by words) (by simp)
    obtain ⟨ids, hr, hids⟩ := h.many Word.elementChildNodes _ (by field)
    obtain ⟨cids, hcr, hcids⟩ := h.many Word.contentChildNodes _ (by field)
    obtain ⟨lids, hlr, hlids⟩ := h.many Word.listNodes _ (by field)
    obtain ⟨a, ha, _⟩ := one_some (h.one Word.authorOriginal _ (by field))
    obtain ⟨b, hb, _⟩ := one_some (h.one Word.authorMostRecent _ (by field))
    exact .mk (n := ⟨0, 0, ids, level, cids, lids, spacing, a, b, false, false, false, false⟩) hat
      { kind := h.kind
        createdAt := req (h.val _ _ (by field)) (reads_u32 zero32)
        lastModified := req (h.val _ _ (by field)) (reads_u32 zero32)
        children := .inr hr
        childLevel := req (h.val _ _ (by field)) (reads_u8 h4)
        contents := .inr hcr
        listContents := .inr hlr
        listSpacing := opt (h.val _ _ (by field)) reads_f32 h3
        authorOriginal := ha
        authorMostRecent := hb
        rtl := gone' (h.absent _ (by words))
        isDeletable := gone' (h.absent _ (by words))
        isSelectable := gone' (h.absent _ (by words))
        isTitleText := gone' (h.absent _ (by words)) }
      (items_are children ids h5 hids) (contents_are contents cids h1 hcids)
      (each_is (fun _ _ => list_is) h2 hlids)

theorem elements_are : (es : List OutlineElement) → (ids : List ExGuid) → (∀ e ∈ es, ElementOk e) →
    Each (Stored space) ids (elementTrees es) → Each (ElementIs space) ids es
  | [], ids, _, h => by
    rw [elementTrees] at h
    cases h
    exact .nil
  | e :: es, ids, ok, h => by
    rw [elementTrees] at h
    cases h with
    | cons h1 h2 =>
    exact .cons (element_is e _ (ok e List.mem_cons_self) h1)
      (elements_are es _ (fun x hx => ok x (List.mem_cons_of_mem _ hx)) h2)

theorem content_is : (c : Content) → (id : ExGuid) → ContentOk c → Stored space id (contentTree c) →
    ContentIs space id c
  | .richText t, id, ok, h => by
    cases ok with
    | richText ok =>
    rw [contentTree] at h
    exact .text (text_is ok h)
  | .table ⟨rows, cols, contents, locks, widths, borders, inParent, self, tags⟩, id, ok, h => by
    cases ok with
    | table h1 h2 h3 h4 h5 =>
    rw [contentTree] at h
    obtain ⟨o, hat, h⟩ := node_written h (by words) (by simp [tags_ok])
    obtain ⟨ids, hr, hids⟩ := h.many Word.elementChildNodes _ (by field)
    obtain ⟨ns, hns, htags⟩ := tags_are h5 h (w := Word.noteTags) (by field)
    exact .table (n := ⟨0, ids, rows, cols, locks, widths, borders, inParent, self, ns⟩) hat
      { kind := h.kind
        lastModified := req (h.val _ _ (by field)) (reads_u32 zero32)
        rows := hr
        rowCount := req (h.val _ _ (by field)) (reads_u32 h1)
        colCount := req (h.val _ _ (by field)) (reads_u32 h2)
        colsLocked := dflt (h.val _ _ (by field)) (reads_locks _)
        colWidths := dflt (h.val _ _ (by field)) (reads_widths h4)
        bordersVisible := dflt (h.val _ _ (by field)) (reads_bool _)
        layoutAlignmentInParent := layout_field (h.val _ _ (by field))
        layoutAlignmentSelf := layout_field (h.val _ _ (by field))
        noteTags := hns } (rows_are contents ids h3 hids) htags
  | .image i, id, ok, h => by
    cases ok with
    | image ok =>
    rw [contentTree] at h
    exact .image (image_is ok h)
  | .embeddedFile f, id, ok, h => by
    cases ok with
    | embeddedFile ok =>
    rw [contentTree] at h
    exact .file (file_is' ok h)
  | .ink i, id, ok, h => by
    cases ok with
    | ink ok =>
    rw [contentTree] at h
    exact .ink (ink_is ok h)
  | .unknown, id, ok, h => by
    rw [contentTree] at h
    obtain ⟨o, hat, hk⟩ := dummy_is h
    exact .unknown hat (by rw [hk]; decide) (by rw [hk]; decide) (by rw [hk]; decide)
      (by rw [hk]; decide) (by rw [hk]; decide) (by rw [hk]; decide)

theorem contents_are : (cs : List Content) → (ids : List ExGuid) → (∀ c ∈ cs, ContentOk c) →
    Each (Stored space) ids (contentTrees cs) → Each (ContentIs space) ids cs
  | [], ids, _, h => by
    rw [contentTrees] at h
    cases h
    exact .nil
  | c :: cs, ids, ok, h => by
    rw [contentTrees] at h
    cases h with
    | cons h1 h2 =>
    exact .cons (content_is c _ (ok c List.mem_cons_self) h1)
      (contents_are cs _ (fun x hx => ok x (List.mem_cons_of_mem _ hx)) h2)

theorem row_is : (r : TableRow) → (id : ExGuid) → RowOk r → Stored space id (rowTree r) →
    RowIs space id r
  | ⟨cells⟩, id, ok, h => by
    cases ok with
    | mk h1 =>
    rw [rowTree] at h
    obtain ⟨o, hat, h⟩ := node_written h (by words) (by simp)
    obtain ⟨ids, hr, hids⟩ := h.many Word.elementChildNodes _ (by field)
    exact .mk (n := ⟨none, ids⟩) hat
      { kind := h.kind
        lastModified := gone (h.absent _ (by words))
        cells := hr } (cells_are cells ids h1 hids)

theorem rows_are : (rs : List TableRow) → (ids : List ExGuid) → (∀ r ∈ rs, RowOk r) →
    Each (Stored space) ids (rowTrees rs) → Each (RowIs space) ids rs
  | [], ids, _, h => by
    rw [rowTrees] at h
    cases h
    exact .nil
  | r :: rs, ids, ok, h => by
    rw [rowTrees] at h
    cases h with
    | cons h1 h2 =>
    exact .cons (row_is r _ (ok r List.mem_cons_self) h1)
      (rows_are rs _ (fun x hx => ok x (List.mem_cons_of_mem _ hx)) h2)

theorem cell_is : (c : TableCell) → (id : ExGuid) → CellOk c → Stored space id (cellTree c) →
    CellIs space id c
  | ⟨contents, background, width, indents⟩, id, ok, h => by
    cases ok with
    | mk h1 h2 h3 h4 =>
    rw [cellTree] at h
    obtain ⟨o, hat, h⟩ := node_written h (by words) (by simp)
    obtain ⟨ids, hr, hids⟩ := h.many Word.elementChildNodes _ (by field)
    exact .mk (n := ⟨none, ids, width, indents, background⟩) hat
      { kind := h.kind
        lastModified := gone (h.absent _ (by words))
        contents := hr
        layoutMaxWidth := opt (h.val _ _ (by field)) reads_f32 h3
        outlineIndentDistance := req (h.val _ _ (by field)) (reads_indents h4)
        backgroundColor := opt (h.val _ _ (by field)) reads_color h2 } (elements_are contents ids h1 hids)

theorem cells_are : (cs : List TableCell) → (ids : List ExGuid) → (∀ c ∈ cs, CellOk c) →
    Each (Stored space) ids (cellTrees cs) → Each (CellIs space) ids cs
  | [], ids, _, h => by
    rw [cellTrees] at h
    cases h
    exact .nil
  | c :: cs, ids, ok, h => by
    rw [cellTrees] at h
    cases h with
    | cons h1 h2 =>
    exact .cons (cell_is c _ (ok c List.mem_cons_self) h1)
      (cells_are cs _ (fun x hx => ok x (List.mem_cons_of_mem _ hx)) h2)

end

theorem outline_is {ol : Outline} (ok : OutlineOk ol) (h : Stored space id (outlineTree ol)) :
    OutlineIs space id ol := by
  obtain ⟨o, hat, h⟩ := node_written h (by words) (by simp)
  obtain ⟨ids, hr, hids⟩ := h.many Word.elementChildNodes _ (by field)
  refine ⟨o, { lastModified := 0, children := ids, childLevel := ol.childLevel
               layoutMaxHeight := ol.layoutMaxHeight, layoutMaxWidth := ol.layoutMaxWidth
               layoutReservedWidth := ol.layoutReservedWidth
               layoutMinimumOutlineWidth := ol.layoutMinimumOutlineWidth
               layoutTightAlignment := false, isLayoutSizeSetByUser := ol.isLayoutSizeSetByUser
               offsetFromParentHoriz := ol.offsetHorizontal, offsetFromParentVert := ol.offsetVertical
               listSpacing := ol.listSpacing, outlineIndentDistance := ol.indents
               layoutAlignmentInParent := ol.alignmentInParent, layoutAlignmentSelf := ol.alignmentSelf
               isDeletable := false, isTitleDate := false, isSelectable := true, isTitleText := false
               isReadOnly := false, descendantsCannotBeMoved := false, tightLayout := false },
    ol.items, hat, ?_, items_are _ _ ok.items hids, rfl⟩
  exact
    { kind := h.kind
      lastModified := req (h.val _ _ (by field)) (reads_u32 zero32)
      children := .inr hr
      childLevel := req (h.val _ _ (by field)) (reads_u8 ok.childLevel)
      layoutMaxHeight := opt (h.val _ _ (by field)) reads_f32 ok.layoutMaxHeight
      layoutMaxWidth := opt (h.val _ _ (by field)) reads_f32 ok.layoutMaxWidth
      layoutReservedWidth := opt (h.val _ _ (by field)) reads_f32 ok.layoutReservedWidth
      layoutMinimumOutlineWidth := opt (h.val _ _ (by field)) reads_f32 ok.layoutMinimumOutlineWidth
      layoutTightAlignment := gone' (h.absent _ (by words))
      isLayoutSizeSetByUser := dflt (h.val _ _ (by field)) (reads_bool _)
      offsetFromParentHoriz := opt (h.val _ _ (by field)) reads_f32 ok.offsetHorizontal
      offsetFromParentVert := opt (h.val _ _ (by field)) reads_f32 ok.offsetVertical
      listSpacing := opt (h.val _ _ (by field)) reads_f32 ok.listSpacing
      outlineIndentDistance := req (h.val _ _ (by field)) (reads_indents ok.indents)
      layoutAlignmentInParent := layout_field (h.val _ _ (by field))
      layoutAlignmentSelf := layout_field (h.val _ _ (by field))
      isDeletable := gone' (h.absent _ (by words))
      isTitleDate := gone' (h.absent _ (by words))
      isSelectable := gone' (h.absent _ (by words))
      isTitleText := gone' (h.absent _ (by words))
      isReadOnly := gone' (h.absent _ (by words))
      descendantsCannotBeMoved := gone' (h.absent _ (by words))
      tightLayout := gone' (h.absent _ (by words)) }

end OneNote.Writer
