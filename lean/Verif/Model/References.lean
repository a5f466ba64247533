/-
References from an object's properties to other objects and object spaces.

Models /repo/src/one/property/references.rs, object_reference.rs,
object_space_reference.rs and the nested-object construction of
/repo/src/one/property_set/note_tag_container.rs and text_run_data.rs.
-/
import Verif.Model.Store

namespace OneNote

mutual
/-- One summand of `count_references`, object_reference.rs L76-84. `perObject` and `perSpace` say
which references count: `(1, 0)` for object references, `(0, 1)` for object space references
(object_space_reference.rs L57-65). The sum over a hash map's values does not depend on the
iteration order; it is taken in list order. (A `usize` sum would overflow only for more than
`2^32` counted references of `2^32` ids each, which needs a file of more than 16 GB.) -/
def PropertyValue.references (perObject perSpace : Nat) : PropertyValue → Nat
  | .objectId => perObject
  | .objectIds c => perObject * c
  | .objectSpaceId => perSpace
  | .objectSpaceIds c => perSpace * c
  | .propertyValues _ sets => referencesSets perObject perSpace sets
  | _ => 0

/-- `sets.iter().map(|set| count_references(set.values())).sum()`. -/
def PropertyValue.referencesSets (perObject perSpace : Nat) :
    List (List (Nat × (Nat × PropertyValue))) → Nat
  | [] => 0
  | s :: ss => referencesSet perObject perSpace s + referencesSets perObject perSpace ss

/-- `count_references(set.values())`. -/
def PropertyValue.referencesSet (perObject perSpace : Nat) :
    List (Nat × (Nat × PropertyValue)) → Nat
  | [] => 0
  | (_, _, v) :: s => references perObject perSpace v + referencesSet perObject perSpace s
end

/-- `ObjectReference::count_references`, object_reference.rs L74-86. -/
def countObjectRefs (vs : List PropertyValue) : Nat := (vs.map (PropertyValue.references 1 0)).sum

/-- `ObjectSpaceReference::count_references`, object_space_reference.rs L55-67. -/
def countSpaceRefs (vs : List PropertyValue) : Nat := (vs.map (PropertyValue.references 0 1)).sum

/-- `PropertySet::values`, /repo/src/onestore/types/prop_set.rs L41-43. -/
def PropertySet.values (ps : PropertySet) : List PropertyValue :=
  List.map (fun (e : Nat × (Nat × PropertyValue)) => e.2.2) ps

/-- `References::get_predecessors`, references.rs L9-31. -/
def predecessors (t : PropertyType) (o : Object) : Res (List PropertyValue) :=
  match o.props.properties.index t.code with
  | none => .error .malformedOneNoteFile
  | some i => .ok ((o.props.properties.filter fun e => decide (e.2.1 < i)).map (·.2.2))

namespace ObjectReference

/-- `ObjectReference::get_offset`, object_reference.rs L67-72. -/
def getOffset (t : PropertyType) (o : Object) : Res Nat :=
  match predecessors t o with
  | .error e => .error e
  | .ok ps => .ok (countObjectRefs ps)

/-- `ObjectReference::parse`, object_reference.rs L16-34. -/
def parse (t : PropertyType) (o : Object) : Res (Option ExGuid) :=
  match o.props.get t with
  | none => .ok none
  | some .objectId =>
    match getOffset t o with
    | .error e => .error e
    | .ok index =>
      match o.props.objectIds[index]? with
      | none => .error .malformedOneNoteFile
      | some id => .ok (o.mapping.getObject index id)
  | some _ => .error .malformedOneNoteFile

/-- `ObjectReference::parse_vec`, object_reference.rs L36-65. -/
def parseVec (t : PropertyType) (o : Object) : Res (Option (List ExGuid)) :=
  match o.props.get t with
  | none => .ok none
  | some (.objectIds count) =>
    match getOffset t o with
    | .error e => .error e
    | .ok offset =>
      .ok (some (((o.props.objectIds.drop offset).take count).zipIdx.filterMap fun e =>
        o.mapping.getObject (e.2 + offset) e.1))
  | some _ => .error .malformedOneNoteFile

end ObjectReference

namespace ObjectSpaceReference

/-- `ObjectSpaceReference::get_offset`, object_space_reference.rs L48-53. -/
def getOffset (t : PropertyType) (o : Object) : Res Nat :=
  match predecessors t o with
  | .error e => .error e
  | .ok ps => .ok (countSpaceRefs ps)

/-- `ObjectSpaceReference::parse_vec`, object_space_reference.rs L16-46. `flat_map` over the
`Result` of `resolve_id` drops the errors; the index passed on is relative to the property's own
identifiers (L42). -/
def parseVec (t : PropertyType) (o : Object) : Res (Option (List CellId)) :=
  match o.props.get t with
  | none => .ok none
  | some (.objectSpaceIds count) =>
    match getOffset t o with
    | .error e => .error e
    | .ok offset =>
      .ok (some (((o.props.objectSpaceIds.drop offset).take count).zipIdx.filterMap fun e =>
        o.mapping.getObjectSpace e.2 e.1))
  | some _ => .error .malformedOneNoteFile

end ObjectSpaceReference

/-- The object built for one nested property set: `parse_object`, note_tag_container.rs L74-116
(`t` = `NoteTags`) and text_run_data.rs L30-75 (`t` = `TextRunData`). Both id lists are taken from
the object's `object_ids`, as in the code (note_tag_container.rs L94-96 and L105-107; text_run_data.rs L50-52 and L64-66). -/
def nestedObject (t : PropertyType) (o : Object) (id : Nat) (props : PropertySet) : Res Object :=
  match ObjectReference.getOffset t o with
  | .error e => .error e
  | .ok off =>
    match ObjectSpaceReference.getOffset t o with
    | .error e => .error e
    | .ok off' =>
      .ok {
        contextId := o.contextId
        jcId := id
        props := {
          objectIds := (o.props.objectIds.drop off).take (countObjectRefs props.values)
          objectSpaceIds := (o.props.objectIds.drop off').take (countSpaceRefs props.values)
          contextIds := []
          properties := props }
        fileData := none
        mapping := o.mapping }

/-- The objects for all nested property sets of property `t`: text_run_data.rs L12-28 and the
first half of note_tag_container.rs L30-48. -/
def nestedObjects (t : PropertyType) (o : Object) : Res (Option (List Object)) :=
  match o.props.get t with
  | none => .ok none
  | some (.propertyValues id sets) =>
    match sets.mapM (nestedObject t o id) with
    | .error e => .error e
    | .ok os => .ok (some os)
  | some _ => .error .malformedOneNoteFile

end OneNote
