/-
Cycles among the objects that can be got to from the roots.
-/
import Verif.Spec.Graph
import Verif.Spec.Reach

namespace OneNote.Spec

/-- No object that can be got to from the roots is its own descendant. -/
def NoCycle (space : ObjectSpace) : Prop := ∀ id, Reach.Reachable space id → ¬ Descendant space id id

/-- The same for every object space of a store. -/
def NoCycleStore (store : Store) : Prop :=
  NoCycle store.dataRoot ∧ ∀ cell space, store.objectSpace cell = some space → NoCycle space

end OneNote.Spec
