/-
What a page, a section or a notebook shows, at any depth.
-/
import Verif.Model.Notebook

namespace OneNote.Spec.Shown

mutual

/-- The content appears somewhere in the outline item. -/
inductive InItem (c : Content) : OutlineItem → Prop where
  | group {g : OutlineGroup} {i : OutlineItem} : i ∈ g.outlines → InItem c i → InItem c (.group g)
  | element {e : OutlineElement} : InElement c e → InItem c (.element e)

/-- The content appears somewhere in the outline element: it is one of its contents, or in an item
below it, or in a cell of one of its tables. -/
inductive InElement (c : Content) : OutlineElement → Prop where
  | here {e : OutlineElement} : c ∈ e.contents → InElement c e
  | child {e : OutlineElement} {i : OutlineItem} : i ∈ e.children → InItem c i → InElement c e
  | cell {e e' : OutlineElement} {t : Table} {r : TableRow} {k : TableCell} :
      .table t ∈ e.contents → r ∈ t.contents → k ∈ r.contents → e' ∈ k.contents → InElement c e' →
      InElement c e

end

/-- The outline is one of the page's or of its title's. -/
def OutlineOn (o : Outline) (p : Page) : Prop :=
  .outline o ∈ p.contents ∨ ∃ t, p.title = some t ∧ o ∈ t.contents

/-- The content appears in an outline of the page. -/
def ContentOn (c : Content) (p : Page) : Prop := ∃ o, OutlineOn o p ∧ ∃ i ∈ o.items, InItem c i

/-- The attachment appears on the page. -/
def FileOn (f : EmbeddedFile) (p : Page) : Prop :=
  .embeddedFile f ∈ p.contents ∨ ContentOn (.embeddedFile f) p

/-- The image appears on the page. -/
def ImageOn (i : Image) (p : Page) : Prop := .image i ∈ p.contents ∨ ContentOn (.image i) p

def PageOf (p : Page) (s : Section) : Prop := ∃ series ∈ s.pageSeries, p ∈ series.pages

/-- The section is one of the entries, or in a section group among them. -/
inductive SectionOf (s : Section) : List SectionEntry → Prop where
  | here {es : List SectionEntry} : .section s ∈ es → SectionOf s es
  | group {es : List SectionEntry} {g : SectionGroup} :
      .sectionGroup g ∈ es → SectionOf s g.entries → SectionOf s es

/-- The bytes of an attachment or of an image. -/
inductive BytesOf (s : Section) : Bytes → Prop where
  | file {p : Page} {f : EmbeddedFile} : PageOf p s → FileOn f p → BytesOf s f.data
  | image {p : Page} {i : Image} {d : Bytes} : PageOf p s → ImageOn i p → i.data = some d → BytesOf s d

end OneNote.Spec.Shown
