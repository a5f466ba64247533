/-
How much a section shows: the number of its outline groups and outline elements, wherever they are
nested, and the lengths of its lists.
-/
import Verif.Spec.Shown

namespace OneNote.Spec

mutual

/-- The groups and elements in an item, itself included. Those inside tables are not counted. -/
def itemsIn : OutlineItem → Nat
  | .group ⟨_, items⟩ => 1 + itemsInAll items
  | .element ⟨_, _, _, _, children⟩ => 1 + itemsInAll children

/-- Those in a list of items. -/
def itemsInAll : List OutlineItem → Nat
  | [] => 0
  | i :: is => itemsIn i + itemsInAll is

end

def itemsOnPage (p : Page) : Nat :=
  (p.contents.map fun
    | .outline o => itemsInAll o.items
    | _ => 0).sum

/-- The groups and elements of all pages of a section. -/
def itemsShown (s : Section) : Nat :=
  (s.pageSeries.map fun series => (series.pages.map itemsOnPage).sum).sum

mutual

/-- A list of `n` items, contents, list formats, rows, cells or elements appears in the item. -/
inductive ListInItem (n : Nat) : OutlineItem → Prop where
  | items {g : OutlineGroup} : g.outlines.length = n → ListInItem n (.group g)
  | nested {g : OutlineGroup} {i : OutlineItem} : i ∈ g.outlines → ListInItem n i →
      ListInItem n (.group g)
  | element {e : OutlineElement} : ListInElement n e → ListInItem n (.element e)

inductive ListInElement (n : Nat) : OutlineElement → Prop where
  | contents {e : OutlineElement} : e.contents.length = n → ListInElement n e
  | lists {e : OutlineElement} : e.listContents.length = n → ListInElement n e
  | children {e : OutlineElement} : e.children.length = n → ListInElement n e
  | child {e : OutlineElement} {i : OutlineItem} : i ∈ e.children → ListInItem n i → ListInElement n e
  | rows {e : OutlineElement} {t : Table} : .table t ∈ e.contents → t.contents.length = n →
      ListInElement n e
  | cells {e : OutlineElement} {t : Table} {r : TableRow} : .table t ∈ e.contents →
      r ∈ t.contents → r.contents.length = n → ListInElement n e
  | elements {e : OutlineElement} {t : Table} {r : TableRow} {k : TableCell} :
      .table t ∈ e.contents → r ∈ t.contents → k ∈ r.contents → k.contents.length = n →
      ListInElement n e
  | cell {e e' : OutlineElement} {t : Table} {r : TableRow} {k : TableCell} :
      .table t ∈ e.contents → r ∈ t.contents → k ∈ r.contents → e' ∈ k.contents →
      ListInElement n e' → ListInElement n e

end

/-- A list of `n` of these, page series, pages or outlines appears in the section. -/
inductive ListIn (n : Nat) (s : Section) : Prop where
  | series : s.pageSeries.length = n → ListIn n s
  | pages {x : PageSeries} : x ∈ s.pageSeries → x.pages.length = n → ListIn n s
  | contents {p : Page} : Shown.PageOf p s → p.contents.length = n → ListIn n s
  | title {p : Page} {t : Title} : Shown.PageOf p s → p.title = some t → t.contents.length = n →
      ListIn n s
  | items {p : Page} {o : Outline} : Shown.PageOf p s → Shown.OutlineOn o p → o.items.length = n →
      ListIn n s
  | item {p : Page} {o : Outline} {i : OutlineItem} : Shown.PageOf p s → Shown.OutlineOn o p →
      i ∈ o.items → ListInItem n i → ListIn n s

end OneNote.Spec
