/-
How deep the outlines of a section are nested.
-/
import Verif.Spec.Shown

namespace OneNote.Spec

/-- The first item is directly in the second: in a group, a child of an element, or an element in a
cell of one of its tables. -/
inductive DirectlyIn : OutlineItem → OutlineItem → Prop where
  | group {g : OutlineGroup} {i : OutlineItem} : i ∈ g.outlines → DirectlyIn i (.group g)
  | child {e : OutlineElement} {i : OutlineItem} : i ∈ e.children → DirectlyIn i (.element e)
  | cell {e e' : OutlineElement} {t : Table} {r : TableRow} {k : TableCell} :
      .table t ∈ e.contents → r ∈ t.contents → k ∈ r.contents → e' ∈ k.contents →
      DirectlyIn (.element e') (.element e)

/-- Starting with the item there are `n` items each of which is directly in the one before. -/
inductive Nests : Nat → OutlineItem → Prop where
  | one (i : OutlineItem) : Nests 1 i
  | more {n : Nat} {i j : OutlineItem} : DirectlyIn j i → Nests n j → Nests (n + 1) i

/-- The section shows `n` items in each other. -/
def NestsIn (n : Nat) (s : Section) : Prop :=
  ∃ p o i, Shown.PageOf p s ∧ Shown.OutlineOn o p ∧ i ∈ o.items ∧ Nests n i

/-- The section shows at most `n` items in each other. -/
def DepthAtMost (n : Nat) (s : Section) : Prop := ∀ k, NestsIn k s → k ≤ n

end OneNote.Spec
