/-
What an object says about a property: absent, present with a value of the right type, or neither.
-/
import Verif.Spec.Values
import Verif.Spec.Each
import Verif.Spec.References

namespace OneNote.Spec.Fields

/-- The property `word` ([MS-ONE] 2.1.12) is absent and `r` is nothing, or it is stored and reads
as `r`. -/
def Optional (ps : PropertySet) (word : Nat) (R : Reading α) (r : Option α) : Prop :=
  (ps.get word = none ∧ r = none) ∨ ∃ v a, ps.get word = some v ∧ R v a ∧ r = some a

/-- The property is stored and reads as `a`. -/
def Required (ps : PropertySet) (word : Nat) (R : Reading α) (a : α) : Prop :=
  ∃ v, ps.get word = some v ∧ R v a

/-- The property reads as `a`; `default` is taken when it is absent. -/
def Default (ps : PropertySet) (word : Nat) (R : Reading α) (default a : α) : Prop :=
  (ps.get word = none ∧ a = default) ∨ ∃ v, ps.get word = some v ∧ R v a

/-- The property is absent or reads as something. -/
def Typed (ps : PropertySet) (word : Nat) (R : Reading α) : Prop := ∃ r, Optional ps word R r

/-- The property is stored and reads as something. -/
def Present (ps : PropertySet) (word : Nat) (R : Reading α) : Prop := ∃ a, Required ps word R a

/-! ### References

An object's identifiers are stored in streams beside its properties ([MS-ONESTORE] 2.6.1). Its
properties take identifiers from the streams in the order they are stored. -/

mutual
/-- How many identifiers of a stream are taken to belong to a value: as `idsUsed`, except that those
inside a single nested property set do not count (this is the finding of `C17`). -/
def idsCounted (s : Stream) : PropertyValue → Nat
  | .objectId => if s = .objects then 1 else 0
  | .objectIds n => if s = .objects then n else 0
  | .objectSpaceId => if s = .spaces then 1 else 0
  | .objectSpaceIds n => if s = .spaces then n else 0
  | .propertyValues _ sets => idsCountedSets s sets
  | _ => 0

/-- Sum over the sets of an array of property sets. -/
def idsCountedSets (s : Stream) : List (List (Nat × (Nat × PropertyValue))) → Nat
  | [] => 0
  | x :: xs => idsCountedSet s x + idsCountedSets s xs

/-- Sum over the properties of a set. -/
def idsCountedSet (s : Stream) : List (Nat × (Nat × PropertyValue)) → Nat
  | [] => 0
  | (_, _, v) :: x => idsCounted s v + idsCountedSet s x
end

/-- The identifiers of the property `word` start at position `pos` of the stream: after those of the
properties stored before it. -/
def StartsAt (s : Stream) (ps : PropertySet) (word pos : Nat) : Prop :=
  ∃ i, ps.index word = some i ∧
    pos = ((ps.filter fun e => decide (e.2.1 < i)).map fun e => idsCounted s e.2.2).sum

/-- The single reference of the property `word`: the identifier at its position, resolved by the
object's mapping table (see `C20`). `none`: the property is absent, or the table has no entry. -/
def Ref (o : Object) (word : Nat) (r : Option ExGuid) : Prop :=
  (o.props.properties.get word = none ∧ r = none) ∨
  ∃ pos id, o.props.properties.get word = some .objectId ∧ StartsAt .objects o.props.properties word pos ∧
    o.props.objectIds[pos]? = some id ∧ r = o.mapping.getObject pos id

/-- The list of references of the property `word`, which is stored: the identifiers from its position
on, resolved by the mapping table. Identifiers that are missing or that the table does not have are
left out. -/
def RefList (o : Object) (word : Nat) (ids : List ExGuid) : Prop :=
  ∃ n pos, o.props.properties.get word = some (.objectIds n) ∧
    StartsAt .objects o.props.properties word pos ∧
    ids = (List.range n).filterMap fun j =>
      o.props.objectIds[pos + j]?.bind (o.mapping.getObject (pos + j))

/-- The same; no references when the property is absent. -/
def Refs (o : Object) (word : Nat) (ids : List ExGuid) : Prop :=
  (o.props.properties.get word = none ∧ ids = []) ∨ RefList o word ids

/-- The references to object spaces of the property `word`, none when it is absent. The table is
asked for the place in the list, not in the stream (this is the finding of `C18`). -/
def CellRefs (o : Object) (word : Nat) (ids : List CellId) : Prop :=
  (o.props.properties.get word = none ∧ ids = []) ∨
  ∃ n pos, o.props.properties.get word = some (.objectSpaceIds n) ∧
    StartsAt .spaces o.props.properties word pos ∧
    ids = (List.range n).filterMap fun j =>
      o.props.objectSpaceIds[pos + j]?.bind (o.mapping.getObjectSpace j)

/-- `inner` stands for a set of properties nested in the property `word` of `o`: these properties,
with the references that start at the property's position (this is the finding of `C19`). -/
def Inside (o : Object) (word kind : Nat) (set : PropertySet) (inner : Object) : Prop :=
  ∃ pos pos', StartsAt .objects o.props.properties word pos ∧
    StartsAt .spaces o.props.properties word pos' ∧ inner =
      { contextId := o.contextId, jcId := kind, fileData := none, mapping := o.mapping
        props :=
          { objectIds := (o.props.objectIds.drop pos).take (idsCountedSet .objects set)
            objectSpaceIds := (o.props.objectIds.drop pos').take (idsCountedSet .spaces set)
            contextIds := []
            properties := set } }

/-- The nested property sets of the property `word`, none when it is absent. -/
def Nested (o : Object) (word : Nat) (inners : List Object) : Prop :=
  (o.props.properties.get word = none ∧ inners = []) ∨
  ∃ kind sets, o.props.properties.get word = some (.propertyValues kind sets) ∧
    Each (Inside o word kind) sets inners

end OneNote.Spec.Fields
