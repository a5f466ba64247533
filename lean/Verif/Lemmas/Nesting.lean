/-
The calls an outline needs are as many as its items are nested.
-/
import Verif.Lemmas.Contents
import Verif.Lemmas.Unshared
import Verif.Spec.Nesting

namespace OneNote.Nesting

open Spec Spec.Fields Spec.Objects Spec.Document Spec.StoreContents

/-- The item is nested at most `n` deep. -/
def Within (n : Nat) (i : OutlineItem) : Prop := ∀ k, Nests k i → k ≤ n

theorem within_zero (i : OutlineItem) : ¬ Within 0 i := fun h => absurd (h 1 (.one i)) (by decide)

theorem within_succ {n : Nat} {i : OutlineItem} : Within (n + 1) i ↔ ∀ j, DirectlyIn j i → Within n j := by
  constructor
  · intro h j hj k hk
    have := h _ (.more hj hk)
    omega
  · intro h k hk
    cases hk with
    | one => omega
    | more hj hk =>
      have := h _ hj _ hk
      omega

theorem within_group {n : Nat} {g : OutlineGroup} :
    Within (n + 1) (.group g) ↔ ∀ i ∈ g.outlines, Within n i := by
  rw [within_succ]
  constructor
  · exact fun h i hi => h i (.group hi)
  · intro h j hj
    cases hj with
    | group hj => exact h j hj

theorem within_element {n : Nat} {e : OutlineElement} : Within (n + 1) (.element e) ↔
    (∀ i ∈ e.children, Within n i) ∧ ∀ t, .table t ∈ e.contents → ∀ r ∈ t.contents,
      ∀ k ∈ r.contents, ∀ e' ∈ k.contents, Within n (.element e') := by
  rw [within_succ]
  constructor
  · exact fun h => ⟨fun i hi => h i (.child hi), fun t ht r hr k hk e' he => h _ (.cell ht hr hk he)⟩
  · intro h j hj
    cases hj with
    | child hj => exact h.1 j hj
    | cell ht hr hk he => exact h.2 _ ht _ hr _ hk _ he

theorem each_and {α β : Type} {R : α → β → Prop} {Q : β → Prop} {as : List α} {bs : List β} :
    Each (fun a b => R a b ∧ Q b) as bs ↔ Each R as bs ∧ ∀ b ∈ bs, Q b := by
  constructor
  · intro h
    induction h with
    | nil => exact ⟨.nil, fun _ h => (nomatch h)⟩
    | cons hr _ ih =>
      refine ⟨.cons hr.1 ih.1, fun b hb => ?_⟩
      rcases List.mem_cons.1 hb with rfl | hb
      · exact hr.2
      · exact ih.2 b hb
  · rintro ⟨h, hq⟩
    exact each_mono_out h fun x y hy hr => ⟨hr, hq y hy⟩

theorem mapM_exact {α β : Type} {f : α → Res β} {R : α → β → Prop} {Q : β → Prop}
    (h : ∀ a b, f a = .ok b ↔ R a b ∧ Q b) {as : List α} {bs : List β} :
    as.mapM f = .ok bs ↔ Each R as bs ∧ ∀ b ∈ bs, Q b := by
  rw [mapM_each, ← each_and]
  exact ⟨fun he => each_mono he fun a b _ => (h a b).1, fun he => each_mono he fun a b _ => (h a b).2⟩

variable {space : ObjectSpace} {id : ExGuid} {n : Nat}

/-- The recursive parsers return what is stored and at most `n` deep. -/
def Exact (space : ObjectSpace) (n : Nat) (r : Rec) : Prop :=
  (∀ id x, r.item id = .ok x ↔ ItemIs space id x ∧ Within n x) ∧
    ∀ id x, r.element id = .ok x ↔ ElementIs space id x ∧ Within n (.element x)

variable {r : Rec}

theorem cell_exact (h : Exact space n r) (id : ExGuid) (c : TableCell) :
    parseCell r space id = .ok c ↔ CellIs space id c ∧ ∀ e ∈ c.contents, Within n (.element e) := by
  simp only [parseCell, bind_ok_iff, at_iff, pure_ok_iff, TableCellNode.parse_iff, mapM_exact h.2]
  constructor
  · rintro ⟨o, h1, d, h2, es, h3, rfl⟩
    exact ⟨.mk h1 h2 h3.1, h3.2⟩
  · rintro ⟨h, hw⟩
    cases h with
    | mk h1 h2 h3 => exact ⟨_, h1, _, h2, _, ⟨h3, hw⟩, rfl⟩

theorem row_exact (h : Exact space n r) (id : ExGuid) (c : TableRow) :
    parseRow r space id = .ok c ↔
      RowIs space id c ∧ ∀ k ∈ c.contents, ∀ e ∈ k.contents, Within n (.element e) := by
  simp only [parseRow, bind_ok_iff, at_iff, pure_ok_iff, TableRowNode.parse_iff,
    mapM_exact (cell_exact h)]
  constructor
  · rintro ⟨o, h1, d, h2, es, h3, rfl⟩
    exact ⟨.mk h1 h2 h3.1, h3.2⟩
  · rintro ⟨h, hw⟩
    cases h with
    | mk h1 h2 h3 => exact ⟨_, h1, _, h2, _, ⟨h3, hw⟩, rfl⟩

theorem table_exact (h : Exact space n r) (id : ExGuid) (t : Table) :
    parseTable r space id = .ok t ↔ ContentIs space id (.table t) ∧
      ∀ c ∈ t.contents, ∀ k ∈ c.contents, ∀ e ∈ k.contents, Within n (.element e) := by
  simp only [parseTable, bind_ok_iff, at_iff, pure_ok_iff, TableNode.parse_iff,
    mapM_exact (row_exact h), noteTags_iff]
  constructor
  · rintro ⟨o, h1, d, h2, es, h3, ts, h4, rfl⟩
    exact ⟨.table h1 h2 h3.1 h4, h3.2⟩
  · rintro ⟨h, hw⟩
    cases h with
    | table h1 h2 h3 h4 => exact ⟨_, h1, _, h2, _, ⟨h3, hw⟩, _, h4, rfl⟩

/-- The elements in the tables are at most `n` deep. -/
def TablesWithin (n : Nat) (c : Content) : Prop :=
  ∀ t, c = .table t → ∀ r ∈ t.contents, ∀ k ∈ r.contents, ∀ e ∈ k.contents, Within n (.element e)

theorem content_exact (h : Exact space n r) (id : ExGuid) (c : Content) :
    parseContent r space id = .ok c ↔ ContentIs space id c ∧ TablesWithin n c := by
  constructor
  · intro hc
    refine ⟨sound_content ⟨fun i x hx => ((h.1 i x).1 hx).1, fun i x hx => ((h.2 i x).1 hx).1⟩ hc, ?_⟩
    rintro t rfl
    unfold parseContent at hc
    obtain ⟨k, hk, hc⟩ := Res.bind_ok hc
    split at hc
    · obtain ⟨i, hi, he⟩ := map_ok hc; cases he
    · obtain ⟨i, hi, he⟩ := map_ok hc; cases he
    · obtain ⟨i, hi, he⟩ := map_ok hc; cases he
    · obtain ⟨i, hi, he⟩ := map_ok hc
      cases he
      exact ((table_exact h _ _).1 hi).2
    · obtain ⟨i, hi, he⟩ := map_ok hc; cases he
    · cases hc
  · rintro ⟨hc, hw⟩
    cases hc with
    | image hi =>
      obtain ⟨o, _, _, _, _, h1, h2, _⟩ := _root_.id hi
      rw [content_of_kind h1 (k := .imageNode) h2.kind]
      exact map_ok_of (image_iff.2 hi)
    | file hi =>
      obtain ⟨o, _, _, _, _, h1, h2, _⟩ := _root_.id hi
      rw [content_of_kind h1 (k := .embeddedFileNode) h2.kind]
      exact map_ok_of (file_iff.2 hi)
    | text hi =>
      obtain ⟨o, _, _, _, _, _, _, h1, h2, _⟩ := _root_.id hi
      rw [content_of_kind h1 (k := .richTextNode) h2.kind]
      exact map_ok_of (richText_iff.2 hi)
    | ink hi =>
      obtain ⟨o, _, h1, h2, _⟩ := _root_.id hi
      rw [content_of_kind h1 (k := .inkContainer) h2.kind]
      exact map_ok_of (ink_iff.2 hi)
    | table h1 h2 h3 h4 =>
      rw [content_of_kind h1 (k := .tableNode) h2.kind]
      exact map_ok_of ((table_exact h _ _).2 ⟨.table h1 h2 h3 h4, hw _ rfl⟩)
    | unknown ho hk h1 h2 h3 h4 h5 =>
      obtain ⟨k, hk⟩ := kinds_iff.1 hk
      rw [content_of_kind ho hk.symm]
      rw [← hk] at h1 h2 h3 h4 h5
      cases k <;> first | rfl | exact absurd rfl h1 | exact absurd rfl h2 | exact absurd rfl h3 |
        exact absurd rfl h4 | exact absurd rfl h5

theorem element_exact (h : Exact space n r) (id : ExGuid) (e : OutlineElement) :
    parseElementWith r space id = .ok e ↔ ElementIs space id e ∧ Within (n + 1) (.element e) := by
  simp only [parseElementWith, bind_ok_iff, at_iff, pure_ok_iff, OutlineElementNode.parse_iff,
    mapM_exact h.1, mapM_exact (content_exact h), mapM_iff fun _ _ => list_iff, within_element]
  constructor
  · rintro ⟨o, h1, d, h2, cs, h3, es, h4, ls, h5, rfl⟩
    exact ⟨.mk h1 h2 h3.1 h4.1 h5, h3.2, fun t ht => h4.2 _ ht t rfl⟩
  · rintro ⟨h, hw, hw'⟩
    cases h with
    | mk h1 h2 h3 h4 h5 =>
      refine ⟨_, h1, _, h2, _, ⟨h3, hw⟩, _, ⟨h4, ?_⟩, _, h5, rfl⟩
      rintro c hc t rfl
      exact hw' t hc

theorem item_exact (h : Exact space n r) (id : ExGuid) (i : OutlineItem) :
    parseItemWith r space id = .ok i ↔ ItemIs space id i ∧ Within (n + 1) i := by
  constructor
  · intro hi
    unfold parseItemWith at hi
    obtain ⟨k, hk, hi⟩ := Res.bind_ok hi
    split at hi
    · obtain ⟨g, hg, rfl⟩ := map_ok hi
      simp only [parseOutlineGroup, bind_ok_iff, at_iff, pure_ok_iff, OutlineGroupNode.parse_iff,
        mapM_exact h.1] at hg
      obtain ⟨o, h1, n, h2, cs, h3, rfl⟩ := hg
      exact ⟨.group h1 h2 h3.1, within_group.2 h3.2⟩
    · obtain ⟨e, he, rfl⟩ := map_ok hi
      have := (element_exact h _ _).1 he
      exact ⟨.element this.1, this.2⟩
    · cases hi
  · rintro ⟨hi, hw⟩
    cases hi with
    | group h1 h2 h3 =>
      unfold parseItemWith
      rw [kind_at h1 (k := .outlineGroup) h2.kind]
      refine map_ok_of (f := OutlineItem.group) ?_
      simp only [parseOutlineGroup, bind_ok_iff, at_iff, pure_ok_iff, OutlineGroupNode.parse_iff,
        mapM_exact h.1]
      exact ⟨_, h1, _, h2, _, ⟨h3, within_group.1 hw⟩, rfl⟩
    | element he =>
      have hp := (element_exact h _ _).2 ⟨he, hw⟩
      cases he with
      | mk h1 h2 h3 h4 h5 =>
        unfold parseItemWith
        rw [kind_at h1 (k := .outlineElementNode) h2.kind]
        exact map_ok_of (f := OutlineItem.element) hp

theorem rec_exact (space : ObjectSpace) (n : Nat) : Exact space n (recAt space n) := by
  induction n with
  | zero => exact ⟨fun _ x => ⟨fun h => (nomatch h), fun h => absurd h.2 (within_zero x)⟩,
      fun _ x => ⟨fun h => (nomatch h), fun h => absurd h.2 (within_zero _)⟩⟩
  | succ n ih => exact ⟨item_exact ih, element_exact ih⟩

/-! ### Pages and sections -/

/-- Every item of the outline is at most `n` deep. -/
def OutlineWithin (n : Nat) (o : Outline) : Prop := ∀ i ∈ o.items, Within n i

theorem outline_exact (id : ExGuid) (x : Outline) :
    parseOutline n space id = .ok x ↔ OutlineIs space id x ∧ OutlineWithin n x := by
  simp only [parseOutline, bind_ok_iff, at_iff, pure_ok_iff, OutlineNode.parse_iff, OutlineIs,
    mapM_exact (rec_exact space n).1]
  constructor
  · rintro ⟨o, h1, d, h2, xs, h3, rfl⟩
    exact ⟨⟨o, d, xs, h1, h2, h3.1, rfl⟩, h3.2⟩
  · rintro ⟨⟨o, d, xs, h1, h2, h3, rfl⟩, hw⟩
    exact ⟨o, h1, d, h2, xs, ⟨h3, hw⟩, rfl⟩

def ContentWithin (n : Nat) (c : PageContent) : Prop := ∀ o, c = .outline o → OutlineWithin n o

theorem pageContent_exact (id : ExGuid) (x : PageContent) :
    parsePageContent n space id = .ok x ↔ PageContentIs space id x ∧ ContentWithin n x := by
  constructor
  · intro hc
    refine ⟨pageContent_iff.1 ⟨n, hc⟩, ?_⟩
    rintro o rfl
    unfold parsePageContent at hc
    obtain ⟨k, hk, hc⟩ := Res.bind_ok hc
    split at hc
    · obtain ⟨i, hi, he⟩ := map_ok hc; cases he
    · obtain ⟨i, hi, he⟩ := map_ok hc; cases he
    · obtain ⟨i, hi, he⟩ := map_ok hc
      cases he
      exact ((outline_exact _ _).1 hi).2
    · obtain ⟨i, hi, he⟩ := map_ok hc; cases he
    · cases hc
  · rintro ⟨hc, hw⟩
    obtain ⟨m, hm⟩ := pageContent_iff.2 hc
    cases hc with
    | outline hi =>
      obtain ⟨o, _, _, h1, h2, _⟩ := _root_.id hi
      unfold parsePageContent
      rw [kind_at h1 (k := .outlineNode) h2.kind]
      exact map_ok_of (f := PageContent.outline) ((outline_exact _ _).2 ⟨hi, hw _ rfl⟩)
    | _ =>
      unfold parsePageContent at hm ⊢
      obtain ⟨k, hk, hc⟩ := Res.bind_ok hm
      rw [hk]
      show (match (generalizing := false) k with
        | .imageNode => PageContent.image <$> parseImage space id
        | .embeddedFileNode => PageContent.embeddedFile <$> parseEmbeddedFile space id
        | .outlineNode => PageContent.outline <$> parseOutline n space id
        | .inkContainer => PageContent.ink <$> parseInk space id
        | _ => pure .unknown) = _
      split at hc
      · exact hc
      · exact hc
      · obtain ⟨i, hi, he⟩ := map_ok hc; cases he
      · exact hc
      · split
        · contradiction
        · contradiction
        · contradiction
        · contradiction
        · exact hc

def TitleWithin (n : Nat) (t : Title) : Prop := ∀ o ∈ t.contents, OutlineWithin n o

theorem title_exact (id : ExGuid) (x : Title) :
    parseTitle n space id = .ok x ↔ TitleIs space id x ∧ TitleWithin n x := by
  simp only [parseTitle, bind_ok_iff, at_iff, pure_ok_iff, TitleNode.parse_iff, TitleIs,
    mapM_exact outline_exact]
  constructor
  · rintro ⟨o, h1, d, h2, xs, h3, rfl⟩
    exact ⟨⟨o, d, xs, h1, h2, h3.1, rfl⟩, h3.2⟩
  · rintro ⟨⟨o, d, xs, h1, h2, h3, rfl⟩, hw⟩
    exact ⟨o, h1, d, h2, xs, ⟨h3, hw⟩, rfl⟩

theorem maybe_exact {a : Option ExGuid} {t : Option Title} : optM (parseTitle n space) a = .ok t ↔
    Maybe (TitleIs space) a t ∧ ∀ x, t = some x → TitleWithin n x := by
  rw [optM_iff title_exact]
  constructor
  · rintro (h | ⟨x, y, h1, h2, h3⟩)
    · exact ⟨.inl h, fun x hx => by rw [h.2] at hx; cases hx⟩
    · exact ⟨.inr ⟨x, y, h1, h2, h3.1⟩, fun z hz => by rw [h2] at hz; cases hz; exact h3.2⟩
  · rintro ⟨h | ⟨x, y, h1, h2, h3⟩, hw⟩
    · exact .inl h
    · exact .inr ⟨x, y, h1, h2, h3, hw _ h2⟩

def PageWithin (n : Nat) (p : Page) : Prop := ∀ o, Shown.OutlineOn o p → OutlineWithin n o

theorem page_exact (space : ObjectSpace) (p : Page) :
    parsePage n space = .ok p ↔ PageIs space p ∧ PageWithin n p := by
  simp only [parsePage, parsePageMetadata, parsePageManifest, parsePageData,
    ObjectSpace.metadataObject, ObjectSpace.contentObject, bind_ok_iff, at_iff, pure_ok_iff, orErr_iff,
    PageMetadata.parse_iff, PageManifestNode.parse_iff, PageNode.parse_iff, PageIs, maybe_exact,
    mapM_exact pageContent_exact]
  constructor
  · rintro ⟨md, ⟨m, ⟨info, h1, h2⟩, h3⟩, page, ⟨k, ⟨man, h4, h5⟩, h6⟩, d, ⟨o, h7, h8⟩, t, h9, cs,
      h10, rfl⟩
    refine ⟨⟨info, m, md, man, k, page, o, d, t, cs, h1, h2, h3, h4, h5, h6, h7, h8, h9.1, h10.1, rfl⟩, ?_⟩
    rintro x (hx | ⟨y, hy, hx⟩)
    · exact h10.2 _ hx x rfl
    · exact h9.2 y hy x hx
  · rintro ⟨⟨info, m, md, man, k, page, o, d, t, cs, h1, h2, h3, h4, h5, h6, h7, h8, h9, h10, rfl⟩, hw⟩
    refine ⟨md, ⟨m, ⟨info, h1, h2⟩, h3⟩, page, ⟨k, ⟨man, h4, h5⟩, h6⟩, d, ⟨o, h7, h8⟩, t,
      ⟨h9, fun x hx y hy => hw y (.inr ⟨x, hx, hy⟩)⟩, cs, ⟨h10, ?_⟩, rfl⟩
    rintro c hc x rfl
    exact hw x (.inl hc)

theorem series_exact (store : Store) (id : ExGuid) (s : PageSeries) :
    parsePageSeries n store id = .ok s ↔ SeriesIs store id s ∧ ∀ p ∈ s.pages, PageWithin n p := by
  have pages : ∀ (cell : CellId) (p : Page), parsePageSpace n store cell = .ok p ↔
      (∃ space, store.objectSpace cell = some space ∧ PageIs space p) ∧ PageWithin n p := by
    intro cell p
    simp only [parsePageSpace, bind_ok_iff, orErr_iff, page_exact]
    exact ⟨fun ⟨s, h1, h2, h3⟩ => ⟨⟨s, h1, h2⟩, h3⟩, fun ⟨⟨s, h1, h2⟩, h3⟩ => ⟨s, h1, h2, h3⟩⟩
  simp only [parsePageSeries, bind_ok_iff, at_iff, pure_ok_iff, PageSeriesNode.parse_iff, SeriesIs,
    mapM_exact pages]
  constructor
  · rintro ⟨o, h1, d, h2, ps, h3, rfl⟩
    exact ⟨⟨o, d, h1, h2, h3.1⟩, h3.2⟩
  · rintro ⟨⟨o, d, h1, h2, h3⟩, hw⟩
    exact ⟨o, h1, d, h2, _, ⟨h3, hw⟩, rfl⟩

theorem section_exact (store : Store) (name : Text) (s : Section) :
    parseSectionStore n store name = .ok s ↔ SectionIs store name s ∧ DepthAtMost n s := by
  have hd : DepthAtMost n s ↔ ∀ x ∈ s.pageSeries, ∀ p ∈ x.pages, PageWithin n p := by
    constructor
    · exact fun h x hx p hp o ho i hi k hk => h k ⟨p, o, i, ⟨x, hx, hp⟩, ho, hi, hk⟩
    · rintro h k ⟨p, o, i, ⟨x, hx, hp⟩, ho, hi, hk⟩
      exact h x hx p hp o ho i hi k hk
  rw [hd]
  simp only [parseSectionStore, parseSectionMetadata, parseSectionContent,
    ObjectSpace.metadataObject, ObjectSpace.contentObject, bind_ok_iff, at_iff, pure_ok_iff, orErr_iff,
    SectionMetadata.parse_iff, SectionNode.parse_iff, SectionIs, mapM_exact (series_exact store)]
  constructor
  · rintro ⟨md, ⟨m, ⟨info, h1, h2⟩, h3⟩, d, ⟨o, ⟨root, h4, h5⟩, h6⟩, ss, h7, rfl⟩
    exact ⟨⟨info, m, md, root, o, d, h1, h2, h3, h4, h5, h6, stripped_iff.1 rfl, h7.1, rfl⟩, h7.2⟩
  · rintro ⟨⟨info, m, md, root, o, d, h1, h2, h3, h4, h5, h6, h7, h8, h9⟩, hw⟩
    refine ⟨md, ⟨m, ⟨info, h1, h2⟩, h3⟩, d, ⟨o, ⟨root, h4, h5⟩, h6⟩, _, ⟨h8, hw⟩, ?_⟩
    rw [stripped_iff.2 h7, ← h9]

/-! ### The nesting is less than the file -/

theorem directly_size {i j : OutlineItem} (h : DirectlyIn j i) : sizeOf j < sizeOf i := by
  cases h with
  | @group g i hi =>
    have h1 := List.sizeOf_lt_of_mem hi
    cases g
    simp only [OutlineItem.group.sizeOf_spec, OutlineGroup.mk.sizeOf_spec]
    simp only at h1
    omega
  | @child e i hi =>
    have h1 := List.sizeOf_lt_of_mem hi
    cases e
    simp only [OutlineItem.element.sizeOf_spec, OutlineElement.mk.sizeOf_spec]
    simp only at h1
    omega
  | @cell e e' t r k ht hr hk he =>
    have h1 := List.sizeOf_lt_of_mem ht
    have h2 := List.sizeOf_lt_of_mem hr
    have h3 := List.sizeOf_lt_of_mem hk
    have h4 := List.sizeOf_lt_of_mem he
    cases e; cases t; cases r; cases k
    simp only [OutlineItem.element.sizeOf_spec, OutlineElement.mk.sizeOf_spec,
      Content.table.sizeOf_spec, Table.mk.sizeOf_spec, TableRow.mk.sizeOf_spec,
      TableCell.mk.sizeOf_spec] at h1 h2 h3 h4 ⊢
    omega

theorem directly_is {i j : OutlineItem} (h : DirectlyIn j i) (hi : ItemIs space id i) :
    ∃ id', ItemIs space id' j := by
  cases h with
  | group hj =>
    cases hi with
    | group h1 h2 h3 =>
      obtain ⟨a, -, ha⟩ := each_mem h3 hj
      exact ⟨a, ha⟩
  | child hj =>
    cases hi with
    | element he =>
      cases he with
      | mk h1 h2 h3 h4 h5 =>
        obtain ⟨a, -, ha⟩ := each_mem h3 hj
        exact ⟨a, ha⟩
  | cell ht hr hk hj =>
    cases hi with
    | element he =>
      cases he with
      | mk h1 h2 h3 h4 h5 =>
        obtain ⟨a, -, ha⟩ := each_mem h4 ht
        cases ha with
        | table h1 h2 h3 h4 =>
          obtain ⟨b, -, hb⟩ := each_mem h3 hr
          cases hb with
          | mk h1 h2 h3 =>
            obtain ⟨c, -, hc⟩ := each_mem h3 hk
            cases hc with
            | mk h1 h2 h3 =>
              obtain ⟨d, -, hd⟩ := each_mem h3 hj
              exact ⟨d, .element hd⟩

theorem item_unique {i j : OutlineItem} (h : ItemIs space id i) (h' : ItemIs space id j) : i = j := by
  obtain ⟨a, ha⟩ := item_iff.2 h
  obtain ⟨b, hb⟩ := item_iff.2 h'
  have h1 := refines_ok ((refines_rec_le space (Nat.le_max_left a b)).1 _) ha
  have h2 := refines_ok ((refines_rec_le space (Nat.le_max_right a b)).1 _) hb
  rw [h1] at h2
  exact Except.ok.inj h2

/-- Items in each other are read from different objects. -/
theorem nests_ids {k : Nat} {i : OutlineItem} (h : Nests k i) {id : ExGuid} (hi : ItemIs space id i) :
    ∃ l : List ExGuid, l.length = k ∧ l.Nodup ∧
      ∀ x ∈ l, ∃ j, ItemIs space x j ∧ sizeOf j ≤ sizeOf i := by
  induction h generalizing id with
  | one i =>
    refine ⟨[id], rfl, by simp, fun x hx => ?_⟩
    rw [List.mem_singleton.1 hx]
    exact ⟨i, hi, Nat.le_refl _⟩
  | more hd _ ih =>
    obtain ⟨id', hj⟩ := directly_is hd hi
    obtain ⟨l, hl, hn, hx⟩ := ih hj
    have hlt := directly_size hd
    refine ⟨id :: l, by rw [List.length_cons, hl], List.nodup_cons.2 ⟨fun hm => ?_, hn⟩, fun x hm => ?_⟩
    · obtain ⟨y, hy, hs⟩ := hx _ hm
      rw [item_unique hy hi] at hs
      omega
    · rcases List.mem_cons.1 hm with rfl | hm
      · exact ⟨_, hi, Nat.le_refl _⟩
      · obtain ⟨y, hy, hs⟩ := hx _ hm
        exact ⟨y, hy, by omega⟩

theorem item_at {i : OutlineItem} (h : ItemIs space id i) : ∃ o, At space id o := by
  cases h with
  | group h _ _ => exact ⟨_, h⟩
  | element h =>
    cases h with
    | mk h _ _ _ _ => exact ⟨_, h⟩

theorem outline_item {o : Outline} {p : Page} (h : PageIs space p) (ho : Shown.OutlineOn o p)
    {i : OutlineItem} (hi : i ∈ o.items) : ∃ id, ItemIs space id i := by
  have key : ∀ id, OutlineIs space id o → ∃ id, ItemIs space id i := by
    rintro id ⟨_, _, items, _, _, h3, rfl⟩
    obtain ⟨a, -, ha⟩ := each_mem h3 hi
    exact ⟨a, ha⟩
  obtain ⟨info, m, md, man, k, page, b, d, t, cs, h1, h2, h3, h4, h5, h6, h7, h8, h9, h10, rfl⟩ := h
  rcases ho with hx | ⟨y, hy, hx⟩
  · obtain ⟨a, -, ha⟩ := each_mem h10 hx
    cases ha with
    | outline ha => exact key _ ha
  · rcases h9 with ⟨-, h9⟩ | ⟨x, z, -, h9, hz⟩
    · rw [h9] at hy; cases hy
    · have hzy : some z = some y := h9.symm.trans hy
      cases hzy
      obtain ⟨_, _, _, _, _, h12, rfl⟩ := hz
      obtain ⟨a, -, ha⟩ := each_mem h12 hx
      exact key _ ha

theorem space_depth {pkg : Package} {si : StorageIndex} {m : CellMapping} {s : ObjectSpace}
    (h : SpaceIs pkg si m s) {id : ExGuid} {i : OutlineItem} (hi : ItemIs s id i) {k : Nat}
    (hk : Nests k i) : k ≤ sizePackage pkg := by
  obtain ⟨l, hl, hn, hx⟩ := nests_ids hk hi
  have h1 := Unshared.nodup_length hn fun x hm =>
    let ⟨_, hj, _⟩ := hx x hm
    let ⟨_, ho⟩ := item_at hj
    Unshared.at_declared h ho
  have h2 := Unshared.declared_size pkg.objectGroups
  simp only [sizePackage, sizeMap]
  omega

theorem file_depth {data : Bytes} {st : Store} (h : FileStore data st) {name : Text} {s : Section}
    (hs : SectionIs st name s) {k : Nat} (hk : NestsIn k s) : k ≤ data.length := by
  obtain ⟨p, o, i, hp, ho, hi, hn⟩ := hk
  obtain ⟨cell, space, hc, hpi⟩ := page_space hs hp
  obtain ⟨id, hid⟩ := outline_item hpi ho hi
  obtain ⟨q, hq', hq⟩ := h
  have hsize : sizePackage q.package ≤ data.length := by
    have := holds_iff.1 hq'
    unfold P.run at this
    split at this
    · rename_i v rest hv
      cases this
      have := Step.packaging _ _ _ hv
      simp only at this
      omega
    · cases this
  obtain ⟨si, sm, hc', dc, -, -, -, -, -, -, -, h10, h11⟩ := hq
  have hc : st.objectSpaces.get? cell = some space := hc
  by_cases hm : ∃ m, IsOther si hc' dc cell m
  · obtain ⟨m, hm⟩ := hm
    obtain ⟨space', hs', his⟩ := h10 cell m hm
    rw [hs'] at hc
    cases hc
    exact Nat.le_trans (space_depth his hid hn) hsize
  · rw [h11 cell hm] at hc
    cases hc

end OneNote.Nesting
