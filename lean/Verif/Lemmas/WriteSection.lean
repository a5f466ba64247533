/-
What is read back from written pages and sections.
-/
import Verif.Lemmas.WriteOutline
import Verif.Lemmas.WriteStore

namespace OneNote.Writer

open Spec Spec.Writer Spec.Storable Spec.Fields Spec.Document Spec.Objects

variable {space : ObjectSpace} {id : ExGuid}

theorem pageContent_is {c : PageContent} (ok : PageContentOk c)
    (h : Stored space id (pageContentTree c)) : PageContentIs space id c := by
  cases c with
  | outline o => exact .outline (outline_is ok h)
  | image i => exact .image (image_is ok h)
  | embeddedFile f => exact .file (file_is' ok h)
  | ink i => exact .ink (ink_is ok h)
  | unknown =>
    obtain ⟨o, hat, hk⟩ := dummy_is h
    exact .unknown hat (by rw [hk]; decide) (by rw [hk]; decide) (by rw [hk]; decide)
      (by rw [hk]; decide) (by rw [hk]; decide)

theorem title_is {t : Title} (ok : TitleOk t) (h : Stored space id (titleTree t)) :
    TitleIs space id t := by
  obtain ⟨o, hat, h⟩ := node_written h (by words) (by simp)
  obtain ⟨ids, hr, hids⟩ := h.many Word.elementChildNodes _ (by field)
  exact ⟨o, ⟨0, ids, t.offsetHorizontal, t.offsetVertical, t.layoutAlignmentInParent,
      t.layoutAlignmentSelf⟩, t.contents, hat,
    { kind := h.kind
      lastModifiedTime := req (h.val _ _ (by field)) (reads_u32 zero32)
      children := hr
      offsetHorizontal := req (h.val _ _ (by field)) (reads_f32 ok.offsetHorizontal)
      offsetVertical := req (h.val _ _ (by field)) (reads_f32 ok.offsetVertical)
      layoutAlignmentInParent := layout_field (h.val _ _ (by field))
      layoutAlignmentSelf := layout_field (h.val _ _ (by field)) },
    each_is (fun _ _ => outline_is) ok.contents hids, rfl⟩

theorem page_is {p : Page} (ok : PageOk p) (h : SpaceHas space (pageTrees p)) : PageIs space p := by
  obtain ⟨content, info, hc, hcs, hi, his⟩ := h
  obtain ⟨m, hm, hmi⟩ := node_written his (by words) (by simp)
  obtain ⟨k, hk, hki⟩ := node_written hcs (by words) (by simp)
  obtain ⟨pids, hpr, hpids⟩ := hki.many Word.contentChildNodes _ (by field)
  cases hpids with
  | @cons page _ _ _ hps hnil =>
  cases hnil
  obtain ⟨o, ho, h⟩ := node_written hps (by words) (by simp)
  obtain ⟨ids, hr, hids⟩ := h.many Word.elementChildNodes _ (by field)
  obtain ⟨tids, htr, htids⟩ := h.many Word.structureElementChildNodes _ (by field)
  refine ⟨info, m, ⟨noGuid, [], none, none, p.level, 0, false⟩, content, k, page, o,
    { lastModified := none, cachedTitle := none, author := p.author, content := ids
      title := tids.head?, orientationPortrait := false, pageWidth := none, pageHeight := p.height
      pageMarginOriginX := none, pageMarginOriginY := none, pageMarginLeft := none
      pageMarginRight := none, pageMarginTop := none, pageMarginBottom := none, pageSize := .auto
      rtl := false },
    p.title, p.contents, hi, hm, ?_, hc, hk, ⟨hki.kind, _, hpr, rfl⟩, ho, ?_, ?_,
    each_is (fun _ _ => pageContent_is) ok.contents hids, rfl⟩
  · exact
      { kind := hmi.kind
        entityGuid := req (hmi.val _ _ (by field)) (reads_guid _)
        cachedTitle := req (hmi.val _ _ (by field)) (reads_text (fun h => nomatch h))
        schemaRevisionInOrderToRead := gone (hmi.absent _ (by words))
        schemaRevisionInOrderToWrite := gone (hmi.absent _ (by words))
        pageLevel := dflt (hmi.val _ _ (by field)) (reads_i32 ok.level)
        createdAt := req (hmi.val _ _ (by field)) (reads_u64 zero64)
        isDeleted := gone' (hmi.absent _ (by words)) }
  · exact
      { kind := h.kind
        lastModified := gone (h.absent _ (by words))
        cachedTitle := gone (h.absent _ (by words))
        author := opt (h.val _ _ (by field)) reads_text ok.author
        content := .inr hr
        title := ⟨_, .inr htr, rfl⟩
        orientationPortrait := gone' (h.absent _ (by words))
        pageWidth := gone (h.absent _ (by words))
        pageHeight := opt (h.val _ _ (by field)) reads_f32 ok.height
        pageMarginOriginX := gone (h.absent _ (by words))
        pageMarginOriginY := gone (h.absent _ (by words))
        pageMarginLeft := gone (h.absent _ (by words))
        pageMarginRight := gone (h.absent _ (by words))
        pageMarginTop := gone (h.absent _ (by words))
        pageMarginBottom := gone (h.absent _ (by words))
        pageSize := gone' (h.absent _ (by words))
        rtl := gone' (h.absent _ (by words)) }
  · cases ht : p.title with
    | none =>
      rw [ht] at htids
      cases htids
      exact .inl ⟨rfl, rfl⟩
    | some t =>
      rw [ht] at htids
      cases htids with
      | cons h1 h2 => exact .inr ⟨_, t, rfl, rfl, title_is (ok.title t ht) h1⟩

/-! ### Sections -/

/-- The pages of the cells from `num` on. -/
def PagesAt (store : Store) (num : Nat) (pages : List Page) : Prop :=
  ∀ (k : Nat) (p : Page), pages[k]? = some p →
    ∃ space, store.objectSpaces.get? (cellId (num + k)) = some space ∧ PageIs space p

theorem pages_at {store : Store} {num : Nat} {pages : List Page} (h : PagesAt store num pages) :
    Each (fun cell page => ∃ space, store.objectSpace cell = some space ∧ PageIs space page)
      ((List.range' num pages.length).map cellId) pages := by
  induction pages generalizing num with
  | nil => exact .nil
  | cons p pages ih =>
    rw [List.length_cons, List.range'_succ, List.map_cons]
    refine .cons (h 0 p rfl) (ih fun k q hk => ?_)
    rw [Nat.add_assoc, Nat.add_comm 1 k]
    exact h (k + 1) q hk

theorem series_are {store : Store} {num : Nat} {ss : List PageSeries}
    (hp : PagesAt store num (ss.flatMap (·.pages))) {ids : List ExGuid}
    (h : Each (Stored store.dataRoot) ids (seriesTrees num ss)) : Each (SeriesIs store) ids ss := by
  induction ss generalizing num ids with
  | nil => cases h; exact .nil
  | cons s ss ih =>
    rw [seriesTrees] at h
    cases h with
    | cons h1 h2 =>
    rw [List.flatMap_cons] at hp
    refine .cons ?_ (ih (fun k q hk => ?_) h2)
    · obtain ⟨o, hat, h⟩ := node_written h1 (by words) (by simp)
      refine ⟨o, ⟨noGuid, (List.range' num s.pages.length).map cellId, [], none⟩, hat,
        { kind := h.kind
          entityGuid := req (h.val _ _ (by field)) (reads_guid _)
          pageSpaces := h.cells _ _ (by field) ?_
          pageMetadata := .inl ⟨h.absent _ (by words), rfl⟩
          createdAt := gone (h.absent _ (by words)) }, pages_at fun k q hk => hp k q ?_⟩
      · intro f hf hne
        rcases List.mem_cons.1 hf with rfl | hf
        · exact absurd rfl hne
        · exact List.mem_singleton.1 hf
      · rw [List.getElem?_append_left (List.getElem?_eq_some_iff.1 hk).1]
        exact hk
    · rw [Nat.add_assoc]
      refine hp (s.pages.length + k) q ?_
      rw [List.getElem?_append_right (by omega), show s.pages.length + k - s.pages.length = k by omega]
      exact hk

theorem section_is {store : Store} {s : Section} (ok : SectionOk s)
    (hroot : SpaceHas store.dataRoot (sectionTrees s))
    (hpages : PagesAt store 3 (s.pageSeries.flatMap (·.pages))) (name : Text) :
    SectionIs store name s := by
  obtain ⟨root, info, hc, hcs, hi, his⟩ := hroot
  obtain ⟨m, hm, hmi⟩ := node_written his (by words) (by simp)
  obtain ⟨o, ho, h⟩ := node_written hcs (by words) (by simp)
  obtain ⟨ids, hr, hids⟩ := h.many Word.elementChildNodes _ (by field)
  exact ⟨info, m, ⟨0, 0, some s.displayName, s.color⟩, root, o, ⟨o.contextId, noGuid, ids, 0⟩, hi, hm,
    { kind := hmi.kind
      schemaRevisionInOrderToRead := req (hmi.val _ _ (by field)) (reads_u32 zero32)
      schemaRevisionInOrderToWrite := req (hmi.val _ _ (by field)) (reads_u32 zero32)
      displayName := .inr ⟨_, _, hmi.val _ (some _) (by field), reads_text ok.plain, rfl⟩
      color := opt (hmi.val _ _ (by field)) reads_color ok.color }, hc, ho,
    { kind := h.kind
      contextId := rfl
      entityGuid := req (h.val _ _ (by field)) (reads_guid _)
      pageSeries := .inr hr
      createdAt := req (h.val _ _ (by field)) (reads_u64 zero64) },
    ⟨⟨0, by simp⟩, ok.stripped⟩, series_are hpages hids, rfl⟩

end OneNote.Writer
