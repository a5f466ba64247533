/-
What the list of names of a table of contents must be, without an algorithm.
-/
import Verif.Spec.Objects

namespace OneNote.Spec.Toc

open Objects

variable {α : Type}

/-- `out` has the entries of `input` in increasing order of their keys; entries with the same key
are in the order they had. -/
structure SortedByKey (input out : List (Nat × α)) : Prop where
  same : out.Perm input
  sorted : out.Pairwise fun a b => a.1 ≤ b.1
  stable : ∀ k, (out.filter fun e => e.1 == k) = input.filter fun e => e.1 == k

/-- The second list is the first one without the names that directly follow the same name. -/
inductive WithoutRepeats : List Text → List Text → Prop where
  | none : WithoutRepeats [] []
  | one (a : Text) : WithoutRepeats [a] [a]
  | again {a : Text} {l out : List Text} :
      WithoutRepeats (a :: l) out → WithoutRepeats (a :: a :: l) out
  | other {a b : Text} {l out : List Text} :
      a ≠ b → WithoutRepeats (b :: l) out → WithoutRepeats (a :: b :: l) (a :: out)

mutual

/-- `TocTree space id entries`: the tree of table-of-contents objects with root `id` has these
entries, each an ordering id and a name, in the order of a traversal. An object with a file name is
a leaf, any other object stands for its children. -/
inductive TocTree (space : ObjectSpace) : ExGuid → List (Nat × Text) → Prop where
  | file {id : ExGuid} {o : Object} {t : TocContainer} {name : Text} {k : Nat} :
      space.getObject id = some o → IsTocContainer o t → t.filename = some name →
      t.orderingId = some k → TocTree space id [(k, name)]
  | folder {id : ExGuid} {o : Object} {t : TocContainer} {entries : List (Nat × Text)} :
      space.getObject id = some o → IsTocContainer o t → t.filename = none →
      TocTrees space t.children entries → TocTree space id entries

/-- The entries of several trees, one after the other. -/
inductive TocTrees (space : ObjectSpace) : List ExGuid → List (Nat × Text) → Prop where
  | nil : TocTrees space [] []
  | cons {id : ExGuid} {ids : List ExGuid} {a b : List (Nat × Text)} :
      TocTree space id a → TocTrees space ids b → TocTrees space (id :: ids) (a ++ b)

end

end OneNote.Spec.Toc
