/-
Objects with given properties and references, for the concrete cases beside the theorems.
-/
import Verif.Model.References

namespace OneNote.Spec

/-- An object with properties in the given order, referring to the given objects and object spaces.
The compact identifier of the `i`-th reference is `i`. -/
def sampleObject (jcId : Nat) (props : List (PropertyType × PropertyValue))
    (refs : List ExGuid := []) (spaces : List CellId := []) (fileData : Option Bytes := none) :
    Object :=
  { contextId := default
    jcId := jcId
    props :=
      { objectIds := (List.range refs.length).map (⟨·, 0⟩)
        objectSpaceIds := (List.range spaces.length).map (⟨·, 1⟩)
        contextIds := []
        properties := props.zipIdx.map fun e => (PropertyId.id e.1.1.code, (e.2, e.1.2)) }
    fileData := fileData
    mapping := MappingTable.fromEntries (refs.zipIdx.map fun e => (⟨e.2, 0⟩, e.1))
      (spaces.zipIdx.map fun e => (⟨e.2, 1⟩, e.1)) }

end OneNote.Spec
