/-
The parts of a page: titles, outlines, groups, elements, contents, table rows and cells. How many
there are, and which lists of the file they come from.
-/
import Verif.Spec.Document

namespace OneNote.Spec.Parts

open Spec.Document Spec.Objects

/-! ### The number of parts -/

mutual

def inItem : OutlineItem → Nat
  | .group ⟨_, items⟩ => 1 + inItems items
  | .element e => inElement e

def inItems : List OutlineItem → Nat
  | [] => 0
  | i :: is => inItem i + inItems is

def inElement : OutlineElement → Nat
  | ⟨contents, _, _, _, children⟩ => 1 + inItems children + inContents contents

def inElements : List OutlineElement → Nat
  | [] => 0
  | e :: es => inElement e + inElements es

def inContent : Content → Nat
  | .table ⟨_, _, rows, _, _, _, _, _, _⟩ => 1 + inRows rows
  | _ => 1

def inContents : List Content → Nat
  | [] => 0
  | c :: cs => inContent c + inContents cs

def inRow : TableRow → Nat
  | ⟨cells⟩ => 1 + inCells cells

def inRows : List TableRow → Nat
  | [] => 0
  | r :: rs => inRow r + inRows rs

def inCell : TableCell → Nat
  | ⟨elements, _, _, _⟩ => 1 + inElements elements

def inCells : List TableCell → Nat
  | [] => 0
  | c :: cs => inCell c + inCells cs

end

def inOutline (o : Outline) : Nat := 1 + inItems o.items

def inTitle (t : Title) : Nat := 1 + (t.contents.map inOutline).sum

def inPageContent : PageContent → Nat
  | .outline o => inOutline o
  | _ => 1

/-- All parts of a page, at any depth. -/
def onPage (p : Page) : Nat :=
  ((p.title.map inTitle).getD 0) + (p.contents.map inPageContent).sum

/-- The parts of all pages of a section. -/
def shown (s : Section) : Nat :=
  (s.pageSeries.map fun series => (series.pages.map onPage).sum).sum

/-! ### The lists they come from -/

/-- The object `id` refers to these objects as its parts. -/
inductive Lists (space : ObjectSpace) (id : ExGuid) : List ExGuid → Prop where
  | manifest {o : Object} {page : ExGuid} : At space id o → IsPageManifest o page →
      Lists space id [page]
  | page {o : Object} {n : PageNode} : At space id o → IsPageNode o n →
      Lists space id (n.title.toList ++ n.content)
  | title {o : Object} {n : TitleNode} : At space id o → IsTitleNode o n → Lists space id n.children
  | outline {o : Object} {n : OutlineNode} : At space id o → IsOutlineNode o n →
      Lists space id n.children
  | group {o : Object} {n : OutlineGroupNode} : At space id o → IsOutlineGroupNode o n →
      Lists space id n.children
  | element {o : Object} {n : OutlineElementNode} : At space id o → IsOutlineElementNode o n →
      Lists space id (n.children ++ n.contents)
  | table {o : Object} {n : TableNode} : At space id o → IsTableNode o n → Lists space id n.rows
  | row {o : Object} {n : TableRowNode} : At space id o → IsTableRowNode o n → Lists space id n.cells
  | cell {o : Object} {n : TableCellNode} : At space id o → IsTableCellNode o n →
      Lists space id n.contents

/-- A part of the page: the content root of its object space, and what a part refers to. -/
inductive Part (space : ObjectSpace) : ExGuid → Prop where
  | root {id : ExGuid} : space.roots.get? .defaultContent = some id → Part space id
  | child {id c : ExGuid} {ids : List ExGuid} : Part space id → Lists space id ids → c ∈ ids →
      Part space c

/-- No part is referred to twice, and nothing refers back to the content root. -/
structure Unshared (space : ObjectSpace) : Prop where
  once : ∀ id ids, Part space id → Lists space id ids → ids.Nodup
  parent : ∀ id id' ids ids' c, Part space id → Part space id' → Lists space id ids →
    Lists space id' ids' → c ∈ ids → c ∈ ids' → id = id'
  root : ∀ id ids r, Part space id → Lists space id ids → space.roots.get? .defaultContent = some r → r ∉ ids

end OneNote.Spec.Parts
