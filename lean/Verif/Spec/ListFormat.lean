/-
The stored format of the number or bullet of a list item ([MS-ONE] 2.3.20): an array of UTF-16 units,
of which the first says how many of the following belong to the format. The character U+FFFD stands for
the number.
-/
import Verif.Spec.Document
import Verif.Spec.Shown

namespace OneNote.Spec.Lists

open Fields Document

/-- The object stores the length `n` and the units `us`. -/
def FormatUnits (o : Object) (n : Nat) (us : List Nat) : Prop :=
  Required o.props.properties Word.numberListFormat Value.u16s (n :: us)

/-- The object stores the format `t`: its units are the first of the stored ones, as many as the length
says. -/
def StoredFormat (o : Object) (t : Text) : Prop :=
  ∃ n us, FormatUnits o n us ∧ n ≤ us.length ∧ us.take n = t.flatMap utf16Units

mutual

/-- The list format belongs to an element somewhere in the outline item. -/
inductive InItem (l : ListFormat) : OutlineItem → Prop where
  | group {g : OutlineGroup} {i : OutlineItem} : i ∈ g.outlines → InItem l i → InItem l (.group g)
  | element {e : OutlineElement} : InElement l e → InItem l (.element e)

/-- The list format belongs to the element, or to one below it or in a cell of one of its tables. -/
inductive InElement (l : ListFormat) : OutlineElement → Prop where
  | here {e : OutlineElement} : l ∈ e.listContents → InElement l e
  | child {e : OutlineElement} {i : OutlineItem} : i ∈ e.children → InItem l i → InElement l e
  | cell {e e' : OutlineElement} {t : Table} {r : TableRow} {k : TableCell} :
      .table t ∈ e.contents → r ∈ t.contents → k ∈ r.contents → e' ∈ k.contents → InElement l e' →
      InElement l e

end

/-- The list format is shown in the section. -/
def ListOf (l : ListFormat) (s : Section) : Prop :=
  ∃ p, Shown.PageOf p s ∧ ∃ o, Shown.OutlineOn o p ∧ ∃ i ∈ o.items, InItem l i

end OneNote.Spec.Lists
