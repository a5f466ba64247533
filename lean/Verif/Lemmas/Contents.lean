/-
Outlines, pages and sections are what the stored objects say.
-/
import Verif.Lemmas.Leaves
import Verif.Lemmas.Fuel
import Verif.Lemmas.TrimEnd

namespace OneNote

open Spec Spec.Fields Spec.Objects Spec.Document

variable {space : ObjectSpace} {id : ExGuid}

/-! ### Kinds -/

theorem fromJcid_asJcid (k : PropertySetId) : PropertySetId.fromJcid k.asJcid = some k := by
  cases k <;> rfl

theorem kinds_iff {j : Nat} : j ∈ kinds ↔ ∃ k : PropertySetId, k.asJcid = j := by
  constructor
  · intro h
    have : ∀ j ∈ kinds, ∃ k ∈ PropertySetId.all, k.asJcid = j := by decide +kernel
    obtain ⟨k, _, hk⟩ := this j h
    exact ⟨k, hk⟩
  · rintro ⟨k, rfl⟩
    cases k <;> decide

theorem kind_iff {k : PropertySetId} :
    space.propertySetId id = .ok k ↔ ∃ o, At space id o ∧ o.jcId = k.asJcid := by
  constructor
  · exact propertySetId_ok
  · rintro ⟨o, ho, hk⟩
    unfold ObjectSpace.propertySetId
    rw [at_iff.2 ho]
    show orErr _ (PropertySetId.fromJcid o.jcId) = _
    rw [hk, fromJcid_asJcid]
    rfl

theorem kind_at {o : Object} (ho : At space id o) {k : PropertySetId} (hk : o.jcId = k.asJcid) :
    space.propertySetId id = .ok k := kind_iff.2 ⟨o, ho, hk⟩

/-! ### Steps -/

theorem refines_ok {α : Type} {r r' : Res α} (h : Refines r r') {a : α} (ha : r = .ok a) :
    r' = .ok a := by
  rcases h with h | h
  · rw [h] at ha; cases ha
  · rw [← h]; exact ha

theorem each_exists {α β : Type} {f : Nat → α → Res β}
    (mono : ∀ m n, m ≤ n → ∀ x, Refines (f m x) (f n x)) {xs : List α} {ys : List β}
    (h : Each (fun x y => ∃ n, f n x = .ok y) xs ys) : ∃ n, xs.mapM (f n) = .ok ys := by
  suffices ∃ n, Each (fun x y => f n x = .ok y) xs ys by
    obtain ⟨n, hn⟩ := this
    exact ⟨n, mapM_each.2 hn⟩
  induction h with
  | nil => exact ⟨0, .nil⟩
  | cons hr _ ih =>
    obtain ⟨m, hm⟩ := hr
    obtain ⟨n, hn⟩ := ih
    refine ⟨max m n, .cons (refines_ok (mono _ _ (by omega) _) hm) ?_⟩
    exact each_mono hn fun x y _ => refines_ok (mono _ _ (by omega) _)

theorem each_mono_out {α β : Type} {R S : α → β → Prop} {xs : List α} {ys : List β} (h : Each R xs ys)
    (hrs : ∀ x y, y ∈ ys → R x y → S x y) : Each S xs ys := by
  induction h with
  | nil => exact .nil
  | cons hr _ ih =>
    exact .cons (hrs _ _ (List.mem_cons_self ..) hr)
      (ih fun x y hy => hrs x y (List.mem_cons_of_mem _ hy))

/-! ### What is parsed is stored -/

/-- The recursive parsers only return what is stored. -/
def Rec.Sound (r : Rec) (space : ObjectSpace) : Prop :=
  (∀ id x, r.item id = .ok x → ItemIs space id x) ∧
    ∀ id x, r.element id = .ok x → ElementIs space id x

variable {r : Rec}

theorem sound_cell (h : r.Sound space) {c : TableCell} (hc : parseCell r space id = .ok c) :
    CellIs space id c := by
  simp only [parseCell, bind_ok_iff, at_iff, pure_ok_iff, TableCellNode.parse_iff, mapM_each] at hc
  obtain ⟨o, h1, n, h2, es, h3, rfl⟩ := hc
  exact .mk h1 h2 (each_mono h3 fun _ _ _ => h.2 _ _)

theorem sound_row (h : r.Sound space) {c : TableRow} (hc : parseRow r space id = .ok c) :
    RowIs space id c := by
  simp only [parseRow, bind_ok_iff, at_iff, pure_ok_iff, TableRowNode.parse_iff, mapM_each] at hc
  obtain ⟨o, h1, n, h2, es, h3, rfl⟩ := hc
  exact .mk h1 h2 (each_mono h3 fun _ _ _ => sound_cell h)

theorem sound_table (h : r.Sound space) {t : Table} (hc : parseTable r space id = .ok t) :
    ContentIs space id (.table t) := by
  simp only [parseTable, bind_ok_iff, at_iff, pure_ok_iff, TableNode.parse_iff, mapM_each,
    noteTags_iff] at hc
  obtain ⟨o, h1, n, h2, es, h3, ts, h4, rfl⟩ := hc
  exact .table h1 h2 (each_mono h3 fun _ _ _ => sound_row h) h4

theorem sound_content (h : r.Sound space) {c : Content} (hc : parseContent r space id = .ok c) :
    ContentIs space id c := by
  unfold parseContent at hc
  obtain ⟨k, hk, hc⟩ := Res.bind_ok hc
  split at hc
  · obtain ⟨i, hi, rfl⟩ := map_ok hc
    exact .image (image_iff.1 hi)
  · obtain ⟨i, hi, rfl⟩ := map_ok hc
    exact .file (file_iff.1 hi)
  · obtain ⟨i, hi, rfl⟩ := map_ok hc
    exact .text (richText_iff.1 hi)
  · obtain ⟨i, hi, rfl⟩ := map_ok hc
    exact sound_table h hi
  · obtain ⟨i, hi, rfl⟩ := map_ok hc
    exact .ink (ink_iff.1 hi)
  · rename_i h1 h2 h3 h4 h5
    cases hc
    obtain ⟨o, ho, hj⟩ := kind_iff.1 hk
    refine .unknown ho (kinds_iff.2 ⟨k, hj.symm⟩) ?_ ?_ ?_ ?_ ?_ <;> intro he <;> rw [hj] at he
    · exact h1 (by cases k <;> first | rfl | exact absurd he (by decide))
    · exact h2 (by cases k <;> first | rfl | exact absurd he (by decide))
    · exact h3 (by cases k <;> first | rfl | exact absurd he (by decide))
    · exact h5 (by cases k <;> first | rfl | exact absurd he (by decide))
    · exact h4 (by cases k <;> first | rfl | exact absurd he (by decide))

theorem sound_element (h : r.Sound space) {e : OutlineElement}
    (he : parseElementWith r space id = .ok e) : ElementIs space id e := by
  simp only [parseElementWith, bind_ok_iff, at_iff, pure_ok_iff, OutlineElementNode.parse_iff,
    mapM_each] at he
  obtain ⟨o, h1, n, h2, cs, h3, es, h4, ls, h5, rfl⟩ := he
  exact .mk h1 h2 (each_mono h3 fun _ _ _ => h.1 _ _) (each_mono h4 fun _ _ _ => sound_content h)
    (each_mono h5 fun _ _ _ => list_iff.1)

theorem sound_item (h : r.Sound space) {i : OutlineItem} (hi : parseItemWith r space id = .ok i) :
    ItemIs space id i := by
  unfold parseItemWith at hi
  obtain ⟨k, hk, hi⟩ := Res.bind_ok hi
  split at hi
  · obtain ⟨g, hg, rfl⟩ := map_ok hi
    simp only [parseOutlineGroup, bind_ok_iff, at_iff, pure_ok_iff, OutlineGroupNode.parse_iff,
      mapM_each] at hg
    obtain ⟨o, h1, n, h2, cs, h3, rfl⟩ := hg
    exact .group h1 h2 (each_mono h3 fun _ _ _ => h.1 _ _)
  · obtain ⟨e, he, rfl⟩ := map_ok hi
    exact .element (sound_element h he)
  · cases hi

theorem sound_rec (space : ObjectSpace) (n : Nat) : (recAt space n).Sound space := by
  induction n with
  | zero => exact ⟨fun _ _ h => (by cases h), fun _ _ h => (by cases h)⟩
  | succ n ih => exact ⟨fun _ _ => sound_item ih, fun _ _ => sound_element ih⟩

/-! ### What is stored is parsed -/

/-- Everything of at most the given size is parsed with enough calls. -/
def Complete (space : ObjectSpace) (size : Nat) : Prop :=
  (∀ id x, sizeOf x < size → ItemIs space id x → ∃ n, (recAt space n).item id = .ok x) ∧
    ∀ id x, sizeOf x < size → ElementIs space id x → ∃ n, (recAt space n).element id = .ok x

variable {size : Nat}

theorem complete_items (h : Complete space size) {ids : List ExGuid} {xs : List OutlineItem}
    (hs : sizeOf xs ≤ size) (he : Each (ItemIs space) ids xs) :
    ∃ n, ids.mapM (recAt space n).item = .ok xs := by
  refine each_exists (f := fun n => (recAt space n).item) (fun m n hmn => (refines_rec_le space hmn).1)
    (each_mono_out he fun x y hy => h.1 x y ?_)
  have := List.sizeOf_lt_of_mem hy
  omega

theorem complete_elements (h : Complete space size) {ids : List ExGuid} {xs : List OutlineElement}
    (hs : sizeOf xs ≤ size) (he : Each (ElementIs space) ids xs) :
    ∃ n, ids.mapM (recAt space n).element = .ok xs := by
  refine each_exists (f := fun n => (recAt space n).element)
    (fun m n hmn => (refines_rec_le space hmn).2) (each_mono_out he fun x y hy => h.2 x y ?_)
  have := List.sizeOf_lt_of_mem hy
  omega

theorem complete_cell (h : Complete space size) {c : TableCell} (hs : sizeOf c ≤ size)
    (hc : CellIs space id c) : ∃ n, parseCell (recAt space n) space id = .ok c := by
  cases hc with
  | mk h1 h2 h3 =>
    simp only [TableCell.mk.sizeOf_spec] at hs
    obtain ⟨m, hm⟩ := complete_elements h (by omega) h3
    refine ⟨m, ?_⟩
    simp only [parseCell, bind_ok_iff, at_iff, pure_ok_iff, TableCellNode.parse_iff]
    exact ⟨_, h1, _, h2, _, hm, rfl⟩

theorem complete_row (h : Complete space size) {c : TableRow} (hs : sizeOf c ≤ size)
    (hc : RowIs space id c) : ∃ n, parseRow (recAt space n) space id = .ok c := by
  cases hc with
  | @mk _ _ _ cells h1 h2 h3 =>
    simp only [TableRow.mk.sizeOf_spec] at hs
    obtain ⟨m, hm⟩ := each_exists (f := fun n => parseCell (recAt space n) space)
      (fun m n hmn => refines_cell (refines_rec_le space hmn))
      (each_mono_out h3 fun x y hy => complete_cell h (by
        have := List.sizeOf_lt_of_mem hy
        omega))
    refine ⟨m, ?_⟩
    simp only [parseRow, bind_ok_iff, at_iff, pure_ok_iff, TableRowNode.parse_iff]
    exact ⟨_, h1, _, h2, _, hm, rfl⟩

theorem content_of_kind {o : Object} (ho : At space id o) {k : PropertySetId}
    (hk : o.jcId = k.asJcid) : parseContent r space id
      = (match (generalizing := false) k with
        | .imageNode => Content.image <$> parseImage space id
        | .embeddedFileNode => Content.embeddedFile <$> parseEmbeddedFile space id
        | .richTextNode => Content.richText <$> parseRichText space id
        | .tableNode => Content.table <$> parseTable r space id
        | .inkContainer => Content.ink <$> parseInk space id
        | _ => pure .unknown) := by
  unfold parseContent
  rw [kind_at ho hk]
  rfl

theorem map_ok_of {α β : Type} {f : α → β} {x : Res α} {a : α} (h : x = .ok a) :
    f <$> x = .ok (f a) := by rw [h]; rfl

theorem complete_content (h : Complete space size) {c : Content} (hs : sizeOf c ≤ size)
    (hc : ContentIs space id c) : ∃ n, parseContent (recAt space n) space id = .ok c := by
  cases hc with
  | image hi =>
    obtain ⟨o, _, _, _, _, h1, h2, _⟩ := _root_.id hi
    refine ⟨0, ?_⟩
    rw [content_of_kind h1 (k := .imageNode) h2.kind]
    exact map_ok_of (image_iff.2 hi)
  | file hi =>
    obtain ⟨o, _, _, _, _, h1, h2, _⟩ := _root_.id hi
    refine ⟨0, ?_⟩
    rw [content_of_kind h1 (k := .embeddedFileNode) h2.kind]
    exact map_ok_of (file_iff.2 hi)
  | text hi =>
    obtain ⟨o, _, _, _, _, _, _, h1, h2, _⟩ := _root_.id hi
    refine ⟨0, ?_⟩
    rw [content_of_kind h1 (k := .richTextNode) h2.kind]
    exact map_ok_of (richText_iff.2 hi)
  | ink hi =>
    obtain ⟨o, _, h1, h2, _⟩ := _root_.id hi
    refine ⟨0, ?_⟩
    rw [content_of_kind h1 (k := .inkContainer) h2.kind]
    exact map_ok_of (ink_iff.2 hi)
  | @table _ o n rows tags h1 h2 h3 h4 =>
    simp only [Content.table.sizeOf_spec, Table.mk.sizeOf_spec] at hs
    obtain ⟨m, hm⟩ := each_exists (f := fun n => parseRow (recAt space n) space)
      (fun m n hmn => refines_row (refines_rec_le space hmn))
      (each_mono_out h3 fun x y hy => complete_row h (by
        have := List.sizeOf_lt_of_mem hy
        omega))
    refine ⟨m, ?_⟩
    rw [content_of_kind h1 (k := .tableNode) h2.kind]
    refine map_ok_of ?_
    simp only [parseTable, bind_ok_iff, at_iff, pure_ok_iff, TableNode.parse_iff, noteTags_iff]
    exact ⟨_, h1, _, h2, _, hm, _, h4, rfl⟩
  | unknown ho hk h1 h2 h3 h4 h5 =>
    obtain ⟨k, hk⟩ := kinds_iff.1 hk
    refine ⟨0, ?_⟩
    rw [content_of_kind ho hk.symm]
    rw [← hk] at h1 h2 h3 h4 h5
    cases k <;> first | rfl | exact absurd rfl h1 | exact absurd rfl h2 | exact absurd rfl h3 |
      exact absurd rfl h4 | exact absurd rfl h5

theorem rec_item (n : Nat) : (recAt space (n + 1)).item = parseItemWith (recAt space n) space := rfl

theorem rec_element (n : Nat) :
    (recAt space (n + 1)).element = parseElementWith (recAt space n) space := rfl

theorem complete_element (h : Complete space size) {e : OutlineElement} (hs : sizeOf e ≤ size)
    (he : ElementIs space id e) : ∃ n, parseElementWith (recAt space n) space id = .ok e := by
  cases he with
  | @mk _ o n children contents lists h1 h2 h3 h4 h5 =>
    simp only [OutlineElement.mk.sizeOf_spec] at hs
    obtain ⟨a, ha⟩ := complete_items h (by omega) h3
    obtain ⟨b, hb⟩ := each_exists (f := fun n => parseContent (recAt space n) space)
      (fun m n hmn => refines_content (refines_rec_le space hmn))
      (each_mono_out h4 fun x y hy => complete_content h (by
        have := List.sizeOf_lt_of_mem hy
        omega))
    refine ⟨max a b, ?_⟩
    simp only [parseElementWith, bind_ok_iff, at_iff, pure_ok_iff, OutlineElementNode.parse_iff,
      mapM_iff fun _ _ => list_iff]
    refine ⟨_, h1, _, h2, _, refines_ok (Refines.mapM ?_ _) ha, _,
      refines_ok (Refines.mapM ?_ _) hb, _, h5, rfl⟩
    · exact (refines_rec_le space (by omega)).1
    · exact refines_content (refines_rec_le space (by omega))

theorem complete_item (h : Complete space size) {i : OutlineItem} (hs : sizeOf i ≤ size)
    (hi : ItemIs space id i) : ∃ n, parseItemWith (recAt space n) space id = .ok i := by
  cases hi with
  | @group _ o n items h1 h2 h3 =>
    simp only [OutlineItem.group.sizeOf_spec, OutlineGroup.mk.sizeOf_spec] at hs
    obtain ⟨a, ha⟩ := complete_items h (by omega) h3
    refine ⟨a, ?_⟩
    unfold parseItemWith
    rw [kind_at h1 (k := .outlineGroup) h2.kind]
    refine map_ok_of (f := OutlineItem.group) ?_
    simp only [parseOutlineGroup, bind_ok_iff, at_iff, pure_ok_iff, OutlineGroupNode.parse_iff]
    exact ⟨_, h1, _, h2, _, ha, rfl⟩
  | @element _ e he =>
    simp only [OutlineItem.element.sizeOf_spec] at hs
    obtain ⟨a, ha⟩ := complete_element h (by omega) he
    refine ⟨a, ?_⟩
    cases he with
    | mk h1 h2 h3 h4 h5 =>
      unfold parseItemWith
      rw [kind_at h1 (k := .outlineElementNode) h2.kind]
      exact map_ok_of (f := OutlineItem.element) ha

theorem complete_rec (space : ObjectSpace) (size : Nat) : Complete space size := by
  induction size with
  | zero => exact ⟨fun _ _ h => absurd h (Nat.not_lt_zero _), fun _ _ h => absurd h (Nat.not_lt_zero _)⟩
  | succ size ih =>
    constructor
    · intro id x hs hx
      obtain ⟨n, hn⟩ := complete_item ih (by omega) hx
      exact ⟨n + 1, hn⟩
    · intro id x hs hx
      obtain ⟨n, hn⟩ := complete_element ih (by omega) hx
      exact ⟨n + 1, hn⟩

/-! ### Outlines -/

theorem item_iff {x : OutlineItem} :
    (∃ n, (recAt space n).item id = .ok x) ↔ ItemIs space id x :=
  ⟨fun ⟨n, hn⟩ => (sound_rec space n).1 id x hn,
    (complete_rec space (sizeOf x + 1)).1 id x (Nat.lt_succ_self _)⟩

theorem items_iff {ids : List ExGuid} {xs : List OutlineItem} :
    (∃ n, ids.mapM (recAt space n).item = .ok xs) ↔ Each (ItemIs space) ids xs :=
  ⟨fun ⟨n, hn⟩ => each_mono (mapM_each.1 hn) fun _ _ _ h => item_iff.1 ⟨n, h⟩,
    complete_items (complete_rec space (sizeOf xs)) (Nat.le_refl _)⟩

theorem outline_iff {x : Outline} :
    (∃ n, parseOutline n space id = .ok x) ↔ OutlineIs space id x := by
  simp only [parseOutline, bind_ok_iff, at_iff, pure_ok_iff, OutlineNode.parse_iff, OutlineIs]
  constructor
  · rintro ⟨n, o, h1, d, h2, xs, h3, rfl⟩
    exact ⟨o, d, xs, h1, h2, items_iff.1 ⟨n, h3⟩, rfl⟩
  · rintro ⟨o, d, xs, h1, h2, h3, rfl⟩
    obtain ⟨n, hn⟩ := items_iff.2 h3
    exact ⟨n, o, h1, d, h2, xs, hn, rfl⟩

/-- Parsing a list with enough calls. -/
theorem each_iff_fuel {α β : Type} {f : Nat → α → Res β} {R : α → β → Prop}
    (mono : ∀ m n, m ≤ n → ∀ x, Refines (f m x) (f n x))
    (h : ∀ x y, (∃ n, f n x = .ok y) ↔ R x y) {xs : List α} {ys : List β} :
    (∃ n, xs.mapM (f n) = .ok ys) ↔ Each R xs ys := by
  constructor
  · rintro ⟨n, hn⟩
    exact each_mono (mapM_each.1 hn) fun x y _ hy => (h x y).1 ⟨n, hy⟩
  · intro he
    exact each_exists mono (each_mono he fun x y _ hr => (h x y).2 hr)

/-! ### Pages -/

theorem pageContent_iff {x : PageContent} :
    (∃ n, parsePageContent n space id = .ok x) ↔ PageContentIs space id x := by
  constructor
  · rintro ⟨n, hc⟩
    unfold parsePageContent at hc
    obtain ⟨k, hk, hc⟩ := Res.bind_ok hc
    split at hc
    · obtain ⟨i, hi, rfl⟩ := map_ok hc
      exact .image (image_iff.1 hi)
    · obtain ⟨i, hi, rfl⟩ := map_ok hc
      exact .file (file_iff.1 hi)
    · obtain ⟨i, hi, rfl⟩ := map_ok hc
      exact .outline (outline_iff.1 ⟨n, hi⟩)
    · obtain ⟨i, hi, rfl⟩ := map_ok hc
      exact .ink (ink_iff.1 hi)
    · rename_i h1 h2 h3 h4
      cases hc
      obtain ⟨o, ho, hj⟩ := kind_iff.1 hk
      refine .unknown ho (kinds_iff.2 ⟨k, hj.symm⟩) ?_ ?_ ?_ ?_ <;> intro he <;> rw [hj] at he
      · exact h1 (by cases k <;> first | rfl | exact absurd he (by decide))
      · exact h2 (by cases k <;> first | rfl | exact absurd he (by decide))
      · exact h3 (by cases k <;> first | rfl | exact absurd he (by decide))
      · exact h4 (by cases k <;> first | rfl | exact absurd he (by decide))
  · intro hc
    cases hc with
    | image hi =>
      obtain ⟨o, _, _, _, _, h1, h2, _⟩ := _root_.id hi
      refine ⟨0, ?_⟩
      unfold parsePageContent
      rw [kind_at h1 (k := .imageNode) h2.kind]
      exact map_ok_of (f := PageContent.image) (image_iff.2 hi)
    | file hi =>
      obtain ⟨o, _, _, _, _, h1, h2, _⟩ := _root_.id hi
      refine ⟨0, ?_⟩
      unfold parsePageContent
      rw [kind_at h1 (k := .embeddedFileNode) h2.kind]
      exact map_ok_of (f := PageContent.embeddedFile) (file_iff.2 hi)
    | outline hi =>
      obtain ⟨o, _, _, h1, h2, _⟩ := _root_.id hi
      obtain ⟨n, hn⟩ := outline_iff.2 hi
      refine ⟨n, ?_⟩
      unfold parsePageContent
      rw [kind_at h1 (k := .outlineNode) h2.kind]
      exact map_ok_of (f := PageContent.outline) hn
    | ink hi =>
      obtain ⟨o, _, h1, h2, _⟩ := _root_.id hi
      refine ⟨0, ?_⟩
      unfold parsePageContent
      rw [kind_at h1 (k := .inkContainer) h2.kind]
      exact map_ok_of (f := PageContent.ink) (ink_iff.2 hi)
    | unknown ho hk h1 h2 h3 h4 =>
      obtain ⟨k, hk⟩ := kinds_iff.1 hk
      refine ⟨0, ?_⟩
      unfold parsePageContent
      rw [kind_at ho hk.symm]
      rw [← hk] at h1 h2 h3 h4
      cases k <;> first | rfl | exact absurd rfl h1 | exact absurd rfl h2 | exact absurd rfl h3 |
        exact absurd rfl h4

theorem outlines_iff {ids : List ExGuid} {xs : List Outline} :
    (∃ n, ids.mapM (parseOutline n space) = .ok xs) ↔ Each (OutlineIs space) ids xs :=
  each_iff_fuel (f := fun n => parseOutline n space) (fun _ _ h x => refines_outline h space x)
    fun _ _ => outline_iff

theorem title_iff {t : Title} : (∃ n, parseTitle n space id = .ok t) ↔ TitleIs space id t := by
  simp only [parseTitle, bind_ok_iff, at_iff, pure_ok_iff, TitleNode.parse_iff, TitleIs]
  constructor
  · rintro ⟨n, o, h1, d, h2, xs, h3, rfl⟩
    exact ⟨o, d, xs, h1, h2, outlines_iff.1 ⟨n, h3⟩, rfl⟩
  · rintro ⟨o, d, xs, h1, h2, h3, rfl⟩
    obtain ⟨n, hn⟩ := outlines_iff.2 h3
    exact ⟨n, o, h1, d, h2, xs, hn, rfl⟩

theorem refines_title {m n : Nat} (h : m ≤ n) (space : ObjectSpace) (id : ExGuid) :
    Refines (parseTitle m space id) (parseTitle n space id) :=
  Refines.bind (.refl _) fun _ => Refines.bind (.refl _) fun _ =>
    Refines.bind (Refines.mapM (refines_outline h space) _) fun _ => .refl _

theorem maybeTitle_iff {a : Option ExGuid} {t : Option Title} :
    (∃ n, optM (parseTitle n space) a = .ok t) ↔ Maybe (TitleIs space) a t := by
  constructor
  · rintro ⟨n, hn⟩
    rcases (optM_iff fun _ _ => Iff.rfl).1 hn with h | ⟨x, y, h1, h2, h3⟩
    · exact .inl h
    · exact .inr ⟨x, y, h1, h2, title_iff.1 ⟨n, h3⟩⟩
  · rintro (h | ⟨x, y, h1, h2, h3⟩)
    · exact ⟨0, (optM_iff fun _ _ => Iff.rfl).2 (.inl h)⟩
    · obtain ⟨n, hn⟩ := title_iff.2 h3
      exact ⟨n, (optM_iff fun _ _ => Iff.rfl).2 (.inr ⟨x, y, h1, h2, hn⟩)⟩

theorem orErr_iff {α : Type} {e : Err} {x : Option α} {a : α} : orErr e x = .ok a ↔ x = some a :=
  ⟨orErr_some, fun h => by rw [h]; rfl⟩

theorem page_iff {p : Page} : (∃ n, parsePage n space = .ok p) ↔ PageIs space p := by
  simp only [parsePage, parsePageMetadata, parsePageManifest, parsePageData,
    ObjectSpace.metadataObject, ObjectSpace.contentObject, bind_ok_iff, at_iff, pure_ok_iff, orErr_iff,
    PageMetadata.parse_iff, PageManifestNode.parse_iff, PageNode.parse_iff, PageIs]
  constructor
  · rintro ⟨n, md, ⟨m, ⟨info, h1, h2⟩, h3⟩, page, ⟨k, ⟨man, h4, h5⟩, h6⟩, d, ⟨o, h7, h8⟩, t, h9, cs,
      h10, rfl⟩
    exact ⟨info, m, md, man, k, page, o, d, t, cs, h1, h2, h3, h4, h5, h6, h7, h8,
      maybeTitle_iff.1 ⟨n, h9⟩,
      (each_iff_fuel (f := fun n => parsePageContent n space)
        (fun _ _ h x => refines_pageContent h space x) fun _ _ => pageContent_iff).1 ⟨n, h10⟩, rfl⟩
  · rintro ⟨info, m, md, man, k, page, o, d, t, cs, h1, h2, h3, h4, h5, h6, h7, h8, h9, h10, rfl⟩
    obtain ⟨a, ha⟩ := maybeTitle_iff.2 h9
    obtain ⟨b, hb⟩ := (each_iff_fuel (f := fun n => parsePageContent n space)
      (fun _ _ h x => refines_pageContent h space x) fun _ _ => pageContent_iff).2 h10
    refine ⟨max a b, md, ⟨m, ⟨info, h1, h2⟩, h3⟩, page, ⟨k, ⟨man, h4, h5⟩, h6⟩, d, ⟨o, h7, h8⟩, t,
      refines_ok (Refines.optM ?_ _) ha, cs, refines_ok (Refines.mapM ?_ _) hb, rfl⟩
    · exact refines_title (by omega) space
    · exact refines_pageContent (by omega) space

/-! ### Sections -/

theorem refines_series {m n : Nat} (h : m ≤ n) (store : Store) (id : ExGuid) :
    Refines (parsePageSeries m store id) (parsePageSeries n store id) :=
  Refines.bind (.refl _) fun _ => Refines.bind (.refl _) fun _ =>
    Refines.bind (Refines.mapM (fun _ => Refines.bind (.refl _) fun sp => refines_page h sp) _)
      fun _ => .refl _

theorem series_iff {store : Store} {s : PageSeries} :
    (∃ n, parsePageSeries n store id = .ok s) ↔ SeriesIs store id s := by
  have pages : ∀ (cell : CellId) (p : Page), (∃ n, parsePageSpace n store cell = .ok p) ↔
      ∃ space, store.objectSpace cell = some space ∧ PageIs space p := by
    intro cell p
    simp only [parsePageSpace, bind_ok_iff, orErr_iff]
    constructor
    · rintro ⟨n, sp, h1, h2⟩
      exact ⟨sp, h1, page_iff.1 ⟨n, h2⟩⟩
    · rintro ⟨sp, h1, h2⟩
      obtain ⟨n, hn⟩ := page_iff.2 h2
      exact ⟨n, sp, h1, hn⟩
  have list := fun xs ys => each_iff_fuel (f := fun n => parsePageSpace n store) (xs := xs) (ys := ys)
    (fun _ _ h x => Refines.bind (.refl _) fun sp => refines_page h sp) pages
  simp only [parsePageSeries, bind_ok_iff, at_iff, pure_ok_iff, PageSeriesNode.parse_iff, SeriesIs]
  constructor
  · rintro ⟨n, o, h1, d, h2, ps, h3, rfl⟩
    exact ⟨o, d, h1, h2, (list _ _).1 ⟨n, h3⟩⟩
  · rintro ⟨o, d, h1, h2, h3⟩
    obtain ⟨n, hn⟩ := (list _ _).2 h3
    exact ⟨n, o, h1, d, h2, _, hn, rfl⟩

theorem stripped_iff {name shown : Text} : trimEndMatches dotOne name = shown ↔ Stripped name shown := by
  obtain ⟨k, hk, hno⟩ := trimEndMatches_spec dotOne name (by decide)
  constructor
  · rintro rfl
    exact ⟨⟨k, hk⟩, hno⟩
  · rintro ⟨⟨l, hl⟩, hs⟩
    exact trimmed_unique dotOne _ _ hno hs k l (by rw [← hk]; exact hl)

theorem section_iff {store : Store} {name : Text} {s : Section} :
    (∃ n, parseSectionStore n store name = .ok s) ↔ SectionIs store name s := by
  have list := fun xs ys => each_iff_fuel (f := fun n => parsePageSeries n store) (xs := xs) (ys := ys)
    (fun _ _ h x => refines_series h store x) fun _ _ => series_iff
  simp only [parseSectionStore, parseSectionMetadata, parseSectionContent,
    ObjectSpace.metadataObject, ObjectSpace.contentObject, bind_ok_iff, at_iff, pure_ok_iff, orErr_iff,
    SectionMetadata.parse_iff, SectionNode.parse_iff, SectionIs]
  constructor
  · rintro ⟨n, md, ⟨m, ⟨info, h1, h2⟩, h3⟩, d, ⟨o, ⟨root, h4, h5⟩, h6⟩, ss, h7, rfl⟩
    exact ⟨info, m, md, root, o, d, h1, h2, h3, h4, h5, h6, stripped_iff.1 rfl,
      (list _ _).1 ⟨n, h7⟩, rfl⟩
  · rintro ⟨info, m, md, root, o, d, h1, h2, h3, h4, h5, h6, h7, h8, h9⟩
    obtain ⟨n, hn⟩ := (list _ _).2 h8
    refine ⟨n, md, ⟨m, ⟨info, h1, h2⟩, h3⟩, d, ⟨o, ⟨root, h4, h5⟩, h6⟩, _, hn, ?_⟩
    rw [stripped_iff.2 h7, ← h9]

end OneNote
