/-
What is held in memory when a file has been read.
-/
import Verif.Model.Section

namespace OneNote.Spec.Memory

/-- An object that is held: by the object space of the section itself (`none`), or by that of a cell. -/
def Held (store : Store) : Option CellId × ExGuid → Prop
  | (none, id) => ∃ o, store.dataRoot.getObject id = some o
  | (some cell, id) => ∃ space o, store.objectSpace cell = some space ∧ space.getObject id = some o

/-- At least `n` objects are held. -/
def HoldsAtLeast (n : Nat) (store : Store) : Prop :=
  ∃ held : List (Option CellId × ExGuid), held.Nodup ∧ held.length = n ∧ ∀ x ∈ held, Held store x

end OneNote.Spec.Memory
