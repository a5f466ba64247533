/-
Which objects of a space can be got to from its roots, by following the references that the objects
hold.
-/
import Verif.Spec.StoreContents

namespace OneNote.Spec.Reach

open StoreContents

/-- The object `id` is among the references that are recorded for `o`. -/
def RefersTo (o : Object) (id : ExGuid) : Prop :=
  ∃ cid entries, o.mapping.objects.get? cid = some entries ∧ id ∈ entries.map Prod.snd

/-- `id` is a root of the space or can be got to from one by following references. -/
inductive Reachable (space : ObjectSpace) : ExGuid → Prop
  | root {role id} : space.roots.get? role = some id → Reachable space id
  | step {id o next} : Reachable space id → space.getObject id = some o → RefersTo o next →
      Reachable space next

/-- The two spaces have the same roots, and the objects that can be got to in the first are the same
in the second. They may differ in all others. -/
structure SameReachable (s s' : ObjectSpace) : Prop where
  roots : ∀ role, s.roots.get? role = s'.roots.get? role
  objects : ∀ id, Reachable s id → s.getObject id = s'.getObject id

/-- The same for the pages of a section and its list of pages. -/
structure SameReachableStore (s s' : Store) : Prop where
  dataRoot : SameReachable s.dataRoot s'.dataRoot
  spaces : ∀ c, SameOption SameReachable (s.objectSpaces.get? c) (s'.objectSpaces.get? c)

end OneNote.Spec.Reach
