/-
The objects that the parser looks at.
-/
import Verif.Model.References
import Verif.Spec.StoreContents

namespace OneNote.Spec.Arithmetic

/-- The object is in the store, or it is one of the objects that the parser makes of the property sets
nested in such an object. -/
inductive ObjectOf (store : Store) : Object → Prop where
  | root {id : ExGuid} {o : Object} : store.dataRoot.getObject id = some o → ObjectOf store o
  | space {cell : CellId} {space : ObjectSpace} {id : ExGuid} {o : Object} :
      store.objectSpace cell = some space → space.getObject id = some o → ObjectOf store o
  | nested {o o' : Object} {t : PropertyType} {id : Nat} {sets : List PropertySet} {set : PropertySet} :
      ObjectOf store o → o.props.get t = some (.propertyValues id sets) → set ∈ sets →
      nestedObject t o id set = .ok o' → ObjectOf store o'

end OneNote.Spec.Arithmetic
