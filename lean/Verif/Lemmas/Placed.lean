/-
What a page shows at a place is made of the object that is stored for it.
-/
import Verif.Spec.Places
import Verif.Spec.Isolation
import Verif.Lemmas.Reach
import Verif.Lemmas.Contents

namespace OneNote.Placed

open Spec Spec.Document Spec.Objects Spec.Reach Spec.Places

/-! ### What is at a place is made of the object that is stored for it -/

/-- What the object `id` is for a step of this kind. -/
def PartIs (s : ObjectSpace) (id : ExGuid) : PlaceStep → Part → Prop
  | .page _, x => ∃ c, x = .page c ∧ PageContentIs s id c
  | .title _, x => ∃ o, x = .outline o ∧ OutlineIs s id o
  | .item _, x => ∃ i, x = .item i ∧ ItemIs s id i
  | .content _, x => ∃ c, x = .content c ∧ ContentIs s id c
  | .row _, x => ∃ r, x = .row r ∧ RowIs s id r
  | .cell _, x => ∃ c, x = .cell c ∧ CellIs s id c
  | .element _, x => ∃ e, x = .item (.element e) ∧ ElementIs s id e

theorem each_at {α β : Type} {R : α → β → Prop} {as : List α} {bs : List β} (h : Each R as bs)
    {i : Nat} {a : α} (ha : as[i]? = some a) : ∃ b, bs[i]? = some b ∧ R a b := by
  induction h generalizing i with
  | nil => cases ha
  | cons hr _ ih =>
    cases i with
    | zero => cases ha; exact ⟨_, rfl, hr⟩
    | succ i => exact ih (i := i) ha

theorem each_at' {α β : Type} {R : α → β → Prop} {as : List α} {bs : List β} (h : Each R as bs)
    {i : Nat} {b : β} (hb : bs[i]? = some b) : ∃ a, as[i]? = some a ∧ R a b := by
  induction h generalizing i with
  | nil => cases hb
  | cons hr _ ih =>
    cases i with
    | zero => cases hb; exact ⟨_, rfl, hr⟩
    | succ i => exact ih (i := i) hb

theorem at_unique {s : ObjectSpace} {id : ExGuid} {o o' : Object} (h : At s id o)
    (h' : At s id o') : o = o' := Option.some.inj (h.symm.trans h')

theorem ok_unique {α : Type} {r : Res α} {a b : α} (ha : r = .ok a) (hb : r = .ok b) : a = b :=
  Except.ok.inj (ha.symm.trans hb)

theorem content_table {s : ObjectSpace} {id : ExGuid} {o : Object} {n : TableNode} {c : Content}
    (h : At s id o) (hn : IsTableNode o n) (hc : ContentIs s id c) :
    ∃ t, c = .table t ∧ Each (RowIs s) n.rows t.contents := by
  cases hc with
  | table g1 g2 g3 g4 =>
    cases at_unique g1 h
    cases ok_unique (TableNode.parse_iff.2 g2) (TableNode.parse_iff.2 hn)
    exact ⟨_, rfl, g3⟩
  | unknown g1 _ _ _ _ _ g2 => cases at_unique g1 h; exact absurd hn.kind g2
  | image hi =>
    obtain ⟨o', _, _, _, _, g1, g2, _⟩ := hi
    cases at_unique g1 h
    cases g2.kind.symm.trans hn.kind
  | file hi =>
    obtain ⟨o', _, _, _, _, g1, g2, _⟩ := hi
    cases at_unique g1 h
    cases g2.kind.symm.trans hn.kind
  | text hi =>
    obtain ⟨o', _, _, _, _, _, _, g1, g2, _⟩ := hi
    cases at_unique g1 h
    cases g2.kind.symm.trans hn.kind
  | ink hi =>
    obtain ⟨o', _, g1, g2, _⟩ := hi
    cases at_unique g1 h
    cases g2.kind.symm.trans hn.kind

theorem content_outline {s : ObjectSpace} {id : ExGuid} {o : Object} {n : OutlineNode}
    {c : PageContent} (h : At s id o) (hn : IsOutlineNode o n) (hc : PageContentIs s id c) :
    ∃ t, c = .outline t ∧ Each (ItemIs s) n.children t.items := by
  cases hc with
  | outline hi =>
    obtain ⟨o', n', items, g1, g2, g3, rfl⟩ := hi
    cases at_unique g1 h
    cases ok_unique (OutlineNode.parse_iff.2 g2) (OutlineNode.parse_iff.2 hn)
    exact ⟨_, rfl, g3⟩
  | unknown g1 _ _ _ g2 _ => cases at_unique g1 h; exact absurd hn.kind g2
  | image hi =>
    obtain ⟨o', _, _, _, _, g1, g2, _⟩ := hi
    cases at_unique g1 h
    cases g2.kind.symm.trans hn.kind
  | file hi =>
    obtain ⟨o', _, _, _, _, g1, g2, _⟩ := hi
    cases at_unique g1 h
    cases g2.kind.symm.trans hn.kind
  | ink hi =>
    obtain ⟨o', _, g1, g2, _⟩ := hi
    cases at_unique g1 h
    cases g2.kind.symm.trans hn.kind

theorem item_group {s : ObjectSpace} {id : ExGuid} {o : Object} {n : OutlineGroupNode}
    {x : OutlineItem} (h : At s id o) (hn : IsOutlineGroupNode o n) (hx : ItemIs s id x) :
    ∃ g, x = .group g ∧ Each (ItemIs s) n.children g.outlines := by
  cases hx with
  | group g1 g2 g3 =>
    cases at_unique g1 h
    cases ok_unique (OutlineGroupNode.parse_iff.2 g2) (OutlineGroupNode.parse_iff.2 hn)
    exact ⟨_, rfl, g3⟩
  | element he =>
    cases he with
    | mk g1 g2 _ _ _ =>
      cases at_unique g1 h
      cases g2.kind.symm.trans hn.kind

theorem element_parts {s : ObjectSpace} {id : ExGuid} {o : Object} {n : OutlineElementNode}
    {e : OutlineElement} (h : At s id o) (hn : IsOutlineElementNode o n) (he : ElementIs s id e) :
    Each (ItemIs s) n.children e.children ∧ Each (ContentIs s) n.contents e.contents := by
  cases he with
  | mk g1 g2 g3 g4 _ =>
    cases at_unique g1 h
    cases ok_unique (OutlineElementNode.parse_iff.2 g2) (OutlineElementNode.parse_iff.2 hn)
    exact ⟨g3, g4⟩

theorem item_element {s : ObjectSpace} {id : ExGuid} {o : Object} {n : OutlineElementNode}
    {x : OutlineItem} (h : At s id o) (hn : IsOutlineElementNode o n) (hx : ItemIs s id x) :
    ∃ e, x = .element e ∧ ElementIs s id e := by
  cases hx with
  | group g1 g2 g3 =>
    cases at_unique g1 h
    cases g2.kind.symm.trans hn.kind
  | element he => exact ⟨_, rfl, he⟩

theorem part_element {s : ObjectSpace} {id : ExGuid} {o : Object} {n : OutlineElementNode}
    {k : PlaceStep} {x : Part} (h : At s id o) (hn : IsOutlineElementNode o n) (hx : PartIs s id k x)
    (hk : ∃ j, k = .item j ∨ k = .element j) :
    ∃ e, x = .item (.element e) ∧ ElementIs s id e := by
  obtain ⟨j, rfl | rfl⟩ := hk
  · obtain ⟨i, rfl, hi⟩ := hx
    obtain ⟨e, rfl, he⟩ := item_element h hn hi
    exact ⟨e, rfl, he⟩
  · exact hx

/-- What is stored for a place is shown at it. -/
theorem stored_on {s : ObjectSpace} {p : Page} (hp : PageIs s p) {pl : Place} {id : ExGuid}
    (h : StoredAt s pl id) : ∃ k rest x, pl = k :: rest ∧ On p pl x ∧ PartIs s id k x := by
  induction h with
  | page h1 h2 h3 h4 h5 h6 =>
    obtain ⟨_, _, _, manifest, k, page, o, n, title, contents, -, -, -, g1, g2, g3, g4, g5, g6, g7,
      rfl⟩ := hp
    cases g1.symm.trans h1
    cases at_unique g2 h2
    cases ok_unique (PageManifestNode.parse_iff.2 g3) (PageManifestNode.parse_iff.2 h3)
    cases at_unique g4 h4
    cases ok_unique (PageNode.parse_iff.2 g5) (PageNode.parse_iff.2 h5)
    obtain ⟨c, hc, hi⟩ := each_at g7 h6
    exact ⟨_, _, _, rfl, .page hc, c, rfl, hi⟩
  | title h1 h2 h3 h4 h5 h6 h7 h8 h9 =>
    obtain ⟨_, _, _, manifest, k, page, o, n, title, contents, -, -, -, g1, g2, g3, g4, g5, g6, g7,
      rfl⟩ := hp
    cases g1.symm.trans h1
    cases at_unique g2 h2
    cases ok_unique (PageManifestNode.parse_iff.2 g3) (PageManifestNode.parse_iff.2 h3)
    cases at_unique g4 h4
    cases ok_unique (PageNode.parse_iff.2 g5) (PageNode.parse_iff.2 h5)
    rcases g6 with ⟨g6, -⟩ | ⟨t, title, g6, rfl, o', n', cs, k1, k2, k3, rfl⟩
    · cases g6.symm.trans h6
    cases g6.symm.trans h6
    cases at_unique k1 h7
    cases ok_unique (TitleNode.parse_iff.2 k2) (TitleNode.parse_iff.2 h8)
    obtain ⟨c, hc, hi⟩ := each_at k3 h9
    exact ⟨_, _, _, rfl, .title rfl hc, c, rfl, hi⟩
  | pageItem _ h1 h2 h3 ih =>
    obtain ⟨_, _, x, e, hx, hi⟩ := ih
    cases e
    obtain ⟨c, rfl, hc⟩ := hi
    obtain ⟨t, rfl, ht⟩ := content_outline h1 h2 hc
    obtain ⟨y, hy, hiy⟩ := each_at ht h3
    exact ⟨_, _, _, rfl, .pageItem hx hy, y, rfl, hiy⟩
  | titleItem _ h1 h2 h3 ih =>
    obtain ⟨_, _, x, e, hx, hi⟩ := ih
    cases e
    obtain ⟨c, rfl, o, n, items, g1, g2, g3, rfl⟩ := hi
    cases at_unique g1 h1
    cases ok_unique (OutlineNode.parse_iff.2 g2) (OutlineNode.parse_iff.2 h2)
    obtain ⟨y, hy, hiy⟩ := each_at g3 h3
    exact ⟨_, _, _, rfl, .titleItem hx hy, y, rfl, hiy⟩
  | groupItem _ h1 h2 h3 ih =>
    obtain ⟨_, _, x, e, hx, hi⟩ := ih
    cases e
    obtain ⟨c, rfl, hc⟩ := hi
    obtain ⟨t, rfl, ht⟩ := item_group h1 h2 hc
    obtain ⟨y, hy, hiy⟩ := each_at ht h3
    exact ⟨_, _, _, rfl, .groupItem hx hy, y, rfl, hiy⟩
  | childItem _ hk h1 h2 h3 ih =>
    obtain ⟨_, _, x, e, hx, hi⟩ := ih
    cases e
    obtain ⟨el, rfl, he⟩ := part_element h1 h2 hi hk
    obtain ⟨y, hy, hiy⟩ := each_at (element_parts h1 h2 he).1 h3
    exact ⟨_, _, _, rfl, .childItem hx hy, y, rfl, hiy⟩
  | content _ hk h1 h2 h3 ih =>
    obtain ⟨_, _, x, e, hx, hi⟩ := ih
    cases e
    obtain ⟨el, rfl, he⟩ := part_element h1 h2 hi hk
    obtain ⟨y, hy, hiy⟩ := each_at (element_parts h1 h2 he).2 h3
    exact ⟨_, _, _, rfl, .content hx hy, y, rfl, hiy⟩
  | row _ h1 h2 h3 ih =>
    obtain ⟨_, _, x, e, hx, hi⟩ := ih
    cases e
    obtain ⟨c, rfl, hc⟩ := hi
    obtain ⟨t, rfl, ht⟩ := content_table h1 h2 hc
    obtain ⟨y, hy, hiy⟩ := each_at ht h3
    exact ⟨_, _, _, rfl, .row hx hy, y, rfl, hiy⟩
  | cell _ h1 h2 h3 ih =>
    obtain ⟨_, _, x, e, hx, hi⟩ := ih
    cases e
    obtain ⟨c, rfl, hc⟩ := hi
    cases hc with
    | mk g1 g2 g3 =>
      cases at_unique g1 h1
      cases ok_unique (TableRowNode.parse_iff.2 g2) (TableRowNode.parse_iff.2 h2)
      obtain ⟨y, hy, hiy⟩ := each_at g3 h3
      exact ⟨_, _, _, rfl, .cell hx hy, y, rfl, hiy⟩
  | element _ h1 h2 h3 ih =>
    obtain ⟨_, _, x, e, hx, hi⟩ := ih
    cases e
    obtain ⟨c, rfl, hc⟩ := hi
    cases hc with
    | mk g1 g2 g3 =>
      cases at_unique g1 h1
      cases ok_unique (TableCellNode.parse_iff.2 g2) (TableCellNode.parse_iff.2 h2)
      obtain ⟨y, hy, hiy⟩ := each_at g3 h3
      exact ⟨_, _, _, rfl, .element hx hy, y, rfl, hiy⟩

/-- What is shown at a place is stored for it. -/
theorem on_stored {s : ObjectSpace} {p : Page} (hp : PageIs s p) {pl : Place} {x : Part}
    (h : On p pl x) : ∃ k rest id, pl = k :: rest ∧ StoredAt s pl id ∧ PartIs s id k x := by
  have key : ∀ pl x, On p pl x → ∃ k rest id, pl = k :: rest ∧ StoredAt s pl id ∧ PartIs s id k x := by
    intro pl x h
    induction h with
    | @page i c h1 =>
      obtain ⟨_, _, _, manifest, k, page, o, n, title, contents, -, -, -, g1, g2, g3, g4, g5, g6, g7,
        rfl⟩ := hp
      obtain ⟨id, hid, hi⟩ := each_at' g7 h1
      exact ⟨_, _, id, rfl, .page g1 g2 g3 g4 g5 hid, c, rfl, hi⟩
    | @title t i o h1 h2 =>
      obtain ⟨_, _, _, manifest, k, page, o, n, title, contents, -, -, -, g1, g2, g3, g4, g5, g6, g7,
        rfl⟩ := hp
      rcases g6 with ⟨-, g6⟩ | ⟨t', title, g6, e, o', n', cs, k1, k2, k3, rfl⟩
      · cases g6.symm.trans h1
      cases e.symm.trans h1
      obtain ⟨id, hid, hi⟩ := each_at' k3 h2
      exact ⟨_, _, id, rfl, .title g1 g2 g3 g4 g5 g6 k1 k2 hid, _, rfl, hi⟩
    | pageItem _ h1 ih =>
      obtain ⟨k, rest, id, rfl, hs, hi⟩ := ih
      cases k <;> try (obtain ⟨_, e, _⟩ := hi; cases e)
      rename_i hc
      cases hc with
      | outline ho =>
        obtain ⟨o, n, items, g1, g2, g3, rfl⟩ := ho
        obtain ⟨id', hid, hi'⟩ := each_at' g3 h1
        exact ⟨_, _, id', rfl, .pageItem hs g1 g2 hid, _, rfl, hi'⟩
    | titleItem _ h1 ih =>
      obtain ⟨k, rest, id, rfl, hs, hi⟩ := ih
      cases k <;> try (obtain ⟨_, e, _⟩ := hi; cases e)
      rename_i ho
      obtain ⟨o, n, items, g1, g2, g3, rfl⟩ := ho
      obtain ⟨id', hid, hi'⟩ := each_at' g3 h1
      exact ⟨_, _, id', rfl, .titleItem hs g1 g2 hid, _, rfl, hi'⟩
    | groupItem _ h1 ih =>
      obtain ⟨k, rest, id, rfl, hs, hi⟩ := ih
      cases k <;> try (obtain ⟨_, e, _⟩ := hi; cases e)
      rename_i ho
      cases ho with
      | group g1 g2 g3 =>
        obtain ⟨id', hid, hi'⟩ := each_at' g3 h1
        exact ⟨_, _, id', rfl, .groupItem hs g1 g2 hid, _, rfl, hi'⟩
    | @childItem pl e i x _ h1 ih =>
      obtain ⟨k, rest, id, rfl, hs, hi⟩ := ih
      have hi : (∃ j, k = .item j ∨ k = .element j) ∧ ElementIs s id e := by
        cases k <;> try (obtain ⟨_, e, _⟩ := hi; cases e)
        · rename_i j ho
          cases ho with
          | element he => exact ⟨⟨_, .inl rfl⟩, he⟩
        · rename_i j ho
          exact ⟨⟨_, .inr rfl⟩, ho⟩
      obtain ⟨hk, he⟩ := hi
      cases he with
      | mk g1 g2 g3 g4 _ =>
        obtain ⟨id', hid, hi'⟩ := each_at' g3 h1
        exact ⟨_, _, id', rfl, .childItem hs hk g1 g2 hid, _, rfl, hi'⟩
    | @content pl e i x _ h1 ih =>
      obtain ⟨k, rest, id, rfl, hs, hi⟩ := ih
      have hi : (∃ j, k = .item j ∨ k = .element j) ∧ ElementIs s id e := by
        cases k <;> try (obtain ⟨_, e, _⟩ := hi; cases e)
        · rename_i j ho
          cases ho with
          | element he => exact ⟨⟨_, .inl rfl⟩, he⟩
        · rename_i j ho
          exact ⟨⟨_, .inr rfl⟩, ho⟩
      obtain ⟨hk, he⟩ := hi
      cases he with
      | mk g1 g2 g3 g4 _ =>
        obtain ⟨id', hid, hi'⟩ := each_at' g4 h1
        exact ⟨_, _, id', rfl, .content hs hk g1 g2 hid, _, rfl, hi'⟩
    | row _ h1 ih =>
      obtain ⟨k, rest, id, rfl, hs, hi⟩ := ih
      cases k <;> try (obtain ⟨_, e, _⟩ := hi; cases e)
      rename_i ho
      cases ho with
      | table g1 g2 g3 _ =>
        obtain ⟨id', hid, hi'⟩ := each_at' g3 h1
        exact ⟨_, _, id', rfl, .row hs g1 g2 hid, _, rfl, hi'⟩
    | cell _ h1 ih =>
      obtain ⟨k, rest, id, rfl, hs, hi⟩ := ih
      cases k <;> try (obtain ⟨_, e, _⟩ := hi; cases e)
      rename_i ho
      cases ho with
      | mk g1 g2 g3 =>
        obtain ⟨id', hid, hi'⟩ := each_at' g3 h1
        exact ⟨_, _, id', rfl, .cell hs g1 g2 hid, _, rfl, hi'⟩
    | element _ h1 ih =>
      obtain ⟨k, rest, id, rfl, hs, hi⟩ := ih
      cases k <;> try (obtain ⟨_, e, _⟩ := hi; cases e)
      rename_i ho
      cases ho with
      | mk g1 g2 g3 =>
        obtain ⟨id', hid, hi'⟩ := each_at' g3 h1
        exact ⟨_, _, id', rfl, .element hs g1 g2 hid, _, rfl, hi'⟩
  exact key pl x h

/-! ### Equal objects give equal parts -/

theorem agree_from {s s' : ObjectSpace} {id : ExGuid} (h : SameFrom s s' id) :
    AgreeOn (From s id) s s' := ⟨h, fun _ _ _ hi ho hr => .step hi ho hr⟩

/-- Enough calls for both. -/
theorem both {α : Type} {f g : Nat → Res α} (mono : ∀ m n, m ≤ n → Refines (f m) (f n))
    (mono' : ∀ m n, m ≤ n → Refines (g m) (g n)) (e : ∀ n, f n = g n) {a b : α} (ha : ∃ n, f n = .ok a)
    (hb : ∃ n, g n = .ok b) : a = b := by
  obtain ⟨m, ha⟩ := ha
  obtain ⟨n, hb⟩ := hb
  have ha := refines_ok (mono m (max m n) (Nat.le_max_left _ _)) ha
  have hb := refines_ok (mono' n (max m n) (Nat.le_max_right _ _)) hb
  exact ok_unique ((e _).symm.trans ha) hb

theorem part_same {s s' : ObjectSpace} {id : ExGuid} (h : SameFrom s s' id) {k k' : PlaceStep}
    (hk : k.like k') {x x' : Part} (hx : PartIs s id k x) (hx' : PartIs s' id k' x') : x = x' := by
  have ha := agree_from h
  cases k <;> cases k' <;> try exact hk.elim
  · obtain ⟨c, rfl, hc⟩ := hx
    obtain ⟨c', rfl, hc'⟩ := hx'
    exact congrArg _ (both (fun m n hmn => refines_pageContent hmn s id)
      (fun m n hmn => refines_pageContent hmn s' id) (fun n => pageContent_reach ha n .self)
      (pageContent_iff.2 hc) (pageContent_iff.2 hc'))
  · obtain ⟨c, rfl, hc⟩ := hx
    obtain ⟨c', rfl, hc'⟩ := hx'
    exact congrArg _ (both (fun m n hmn => refines_outline hmn s id)
      (fun m n hmn => refines_outline hmn s' id) (fun n => outline_reach ha n .self)
      (outline_iff.2 hc) (outline_iff.2 hc'))
  · obtain ⟨c, rfl, hc⟩ := hx
    obtain ⟨c', rfl, hc'⟩ := hx'
    exact congrArg _ (both (fun m n hmn => (refines_rec_le s hmn).1 id)
      (fun m n hmn => (refines_rec_le s' hmn).1 id) (fun n => (rec_reach ha n id .self).1)
      (item_iff.2 hc) (item_iff.2 hc'))
  · obtain ⟨c, rfl, hc⟩ := hx
    obtain ⟨c', rfl, hc'⟩ := hx'
    exact congrArg _ (both (fun m n hmn => refines_content (refines_rec_le s hmn) id)
      (fun m n hmn => refines_content (refines_rec_le s' hmn) id)
      (fun n => content_reach ha (rec_reach ha n) .self)
      (complete_content (complete_rec s _) (Nat.le_refl _) hc)
      (complete_content (complete_rec s' _) (Nat.le_refl _) hc'))
  · obtain ⟨c, rfl, hc⟩ := hx
    obtain ⟨c', rfl, hc'⟩ := hx'
    exact congrArg _ (both (fun m n hmn => refines_row (refines_rec_le s hmn) id)
      (fun m n hmn => refines_row (refines_rec_le s' hmn) id)
      (fun n => row_reach ha (rec_reach ha n) .self)
      (complete_row (complete_rec s _) (Nat.le_refl _) hc)
      (complete_row (complete_rec s' _) (Nat.le_refl _) hc'))
  · obtain ⟨c, rfl, hc⟩ := hx
    obtain ⟨c', rfl, hc'⟩ := hx'
    exact congrArg _ (both (fun m n hmn => refines_cell (refines_rec_le s hmn) id)
      (fun m n hmn => refines_cell (refines_rec_le s' hmn) id)
      (fun n => cell_reach ha (rec_reach ha n) .self)
      (complete_cell (complete_rec s _) (Nat.le_refl _) hc)
      (complete_cell (complete_rec s' _) (Nat.le_refl _) hc'))
  · obtain ⟨c, rfl, hc⟩ := hx
    obtain ⟨c', rfl, hc'⟩ := hx'
    exact congrArg (fun e => Part.item (.element e)) (both (fun m n hmn => (refines_rec_le s hmn).2 id)
      (fun m n hmn => (refines_rec_le s' hmn).2 id) (fun n => (rec_reach ha n id .self).2)
      ((complete_rec s _).2 id c (Nat.lt_succ_self _) hc)
      ((complete_rec s' _).2 id c' (Nat.lt_succ_self _) hc'))

theorem same {s s' : ObjectSpace} {p p' : Page} (hp : PageIs s p) (hp' : PageIs s' p')
    {pl pl' : Place} {id : ExGuid} (hs : StoredAt s pl id) (hs' : StoredAt s' pl' id) (hk : SameSort pl pl')
    (ha : SameFrom s s' id) : ∃ x, On p pl x ∧ On p' pl' x := by
  obtain ⟨k, rest, x, rfl, hx, hi⟩ := stored_on hp hs
  obtain ⟨k', rest', x', rfl, hx', hi'⟩ := stored_on hp' hs'
  cases part_same ha hk hi hi'
  exact ⟨x, hx, hx'⟩

/-- A place has one part. -/
theorem on_unique {p : Page} {pl : Place} {x y : Part} (hx : On p pl x) (hy : On p pl y) :
    x = y := by
  have key : ∀ pl x, On p pl x → ∀ y, On p pl y → x = y := by
    intro pl x hx
    induction hx with
    | page h1 => intro y hy; cases hy with | page h2 => cases h1.symm.trans h2; rfl
    | title h1 h2 =>
      intro y hy
      cases hy with | title h3 h4 => cases h1.symm.trans h3; cases h2.symm.trans h4; rfl
    | pageItem _ h1 ih | titleItem _ h1 ih | groupItem _ h1 ih | childItem _ h1 ih =>
      intro y hy
      cases hy with
      | pageItem g1 g2 | titleItem g1 g2 | groupItem g1 g2 | childItem g1 g2 =>
        have e := ih _ g1
        cases e <;> (cases h1.symm.trans g2; rfl)
    | content _ h1 ih =>
      intro y hy; cases hy with | content g1 g2 => cases ih _ g1; cases h1.symm.trans g2; rfl
    | row _ h1 ih => intro y hy; cases hy with | row g1 g2 => cases ih _ g1; cases h1.symm.trans g2; rfl
    | cell _ h1 ih => intro y hy; cases hy with | cell g1 g2 => cases ih _ g1; cases h1.symm.trans g2; rfl
    | element _ h1 ih =>
      intro y hy; cases hy with | element g1 g2 => cases ih _ g1; cases h1.symm.trans g2; rfl
  exact key pl x hx y hy

/-! ### Parts get smaller -/

/-- How large a part is. -/
noncomputable def size : Part → Nat
  | .page c => sizeOf c
  | .outline o => sizeOf o
  | .item x => sizeOf x
  | .content c => sizeOf c
  | .row r => sizeOf r
  | .cell c => sizeOf c

theorem sizeOf_at {α : Type} [SizeOf α] {l : List α} {i : Nat} {a : α} (h : l[i]? = some a) :
    sizeOf a < sizeOf l := List.sizeOf_lt_of_mem (List.mem_of_getElem? h)

/-- What is at a place inside another is smaller. -/
theorem smaller {p : Page} {k : PlaceStep} {pl : Place} {x : Part} (h : On p (k :: pl) x)
    (hne : pl ≠ []) : ∃ y, On p pl y ∧ size x < size y := by
  cases h with
  | page | title => exact absurd rfl hne
  | @pageItem _ o _ _ h1 h2 =>
    refine ⟨_, h1, ?_⟩
    have := sizeOf_at h2
    cases o
    simp only [size, PageContent.outline.sizeOf_spec, Outline.mk.sizeOf_spec] at this ⊢
    omega
  | @titleItem _ o _ _ h1 h2 =>
    refine ⟨_, h1, ?_⟩
    have := sizeOf_at h2
    cases o
    simp only [size, Outline.mk.sizeOf_spec] at this ⊢
    omega
  | @groupItem _ g _ _ h1 h2 =>
    refine ⟨_, h1, ?_⟩
    have := sizeOf_at h2
    cases g
    simp only [size, OutlineItem.group.sizeOf_spec, OutlineGroup.mk.sizeOf_spec] at this ⊢
    omega
  | @childItem _ e _ _ h1 h2 =>
    refine ⟨_, h1, ?_⟩
    have := sizeOf_at h2
    cases e
    simp only [size, OutlineItem.element.sizeOf_spec, OutlineElement.mk.sizeOf_spec] at this ⊢
    omega
  | @content _ e _ _ h1 h2 =>
    refine ⟨_, h1, ?_⟩
    have := sizeOf_at h2
    cases e
    simp only [size, OutlineItem.element.sizeOf_spec, OutlineElement.mk.sizeOf_spec] at this ⊢
    omega
  | @row _ t _ _ h1 h2 =>
    refine ⟨_, h1, ?_⟩
    have := sizeOf_at h2
    cases t
    simp only [size, Content.table.sizeOf_spec, Table.mk.sizeOf_spec] at this ⊢
    omega
  | @cell _ r _ _ h1 h2 =>
    refine ⟨_, h1, ?_⟩
    have := sizeOf_at h2
    cases r
    simp only [size, TableRow.mk.sizeOf_spec] at this ⊢
    omega
  | @element _ c _ e h1 h2 =>
    refine ⟨_, h1, ?_⟩
    have := sizeOf_at h2
    cases c
    simp only [size, OutlineItem.element.sizeOf_spec, TableCell.mk.sizeOf_spec] at this ⊢
    omega

theorem on_ne {p : Page} {pl : Place} {x : Part} (h : On p pl x) : pl ≠ [] := by
  cases h <;> exact List.cons_ne_nil _ _

theorem inside_smaller {p : Page} (pl : Place) (hne : pl ≠ []) : ∀ (more : Place) (x : Part), more ≠ [] →
    On p (more ++ pl) x → ∃ y, On p pl y ∧ size x < size y
  | [], _, h, _ => absurd rfl h
  | k :: more, x, _, h => by
    obtain ⟨y, hy, hs⟩ := smaller h (by cases more <;> simp [hne])
    by_cases hm : more = []
    · subst hm; exact ⟨y, hy, hs⟩
    · obtain ⟨z, hz, hs'⟩ := inside_smaller pl hne more y hm hy
      exact ⟨z, hz, Nat.lt_trans hs hs'⟩

/-- No part of a page contains itself. -/
theorem no_cycle {s : ObjectSpace} {p : Page} (hp : PageIs s p) {pl more : Place} {id : ExGuid}
    (h : StoredAt s pl id) (h' : StoredAt s (more ++ pl) id) (hk : SameSort pl (more ++ pl)) :
    more = [] := by
  apply Classical.byContradiction
  intro hm
  obtain ⟨x, hx, hx'⟩ := same hp hp h h' hk fun _ _ => rfl
  obtain ⟨y, hy, hs⟩ := inside_smaller pl (on_ne hx) more x hm hx'
  cases on_unique hx hy
  omega

/-- Every listed page of a section is one. -/
theorem page_listed {store : Store} {name : Text} {s : Section} (h : SectionIs store name s)
    {cells : List (List CellId)} (hc : PageCells store.dataRoot cells) {i j : Nat} {c : CellId}
    (hj : (cells[i]? >>= fun cs => cs[j]?) = some c) {space : ObjectSpace}
    (hsp : store.objectSpace c = some space) : ∃ p, PageIs space p := by
  obtain ⟨info, m, metadata, root, o, n, -, -, -, h1, h2, h3, -, h4, -⟩ := h
  obtain ⟨root', o', n', g1, g2, g3, g4⟩ := hc
  cases h1.symm.trans g1
  cases at_unique h2 g2
  cases ok_unique (SectionNode.parse_iff.2 h3) (SectionNode.parse_iff.2 g3)
  obtain ⟨cs, hcs, hcj⟩ := Option.bind_eq_some_iff.1 hj
  obtain ⟨id, hid, o1, n1, k1, k2, rfl⟩ := each_at' g4 hcs
  obtain ⟨x, _, o2, n2, l1, l2, l3⟩ := each_at h4 hid
  cases at_unique k1 l1
  cases ok_unique (PageSeriesNode.parse_iff.2 k2) (PageSeriesNode.parse_iff.2 l2)
  obtain ⟨p, _, space', hs, hp⟩ := each_at l3 hcj
  cases hs.symm.trans hsp
  exact ⟨p, hp⟩

end OneNote.Placed
