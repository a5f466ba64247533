/-
[MS-ONESTORE] 2.6.1 and 2.6.6: which identifiers of an object's identifier
streams belong to which property. Nothing here mentions the model's functions.
-/
import Verif.Spec.PropSet

namespace OneNote.Spec

/-- The two identifier streams. -/
inductive Stream where
  | objects
  | spaces
  deriving DecidableEq

mutual
/-- How many identifiers of a stream a property's value takes: one for an id, `n` for an array of
`n` ids, and for nested property sets what their properties take. -/
def idsUsed (s : Stream) : PropertyValue → Nat
  | .objectId => if s = .objects then 1 else 0
  | .objectIds n => if s = .objects then n else 0
  | .objectSpaceId => if s = .spaces then 1 else 0
  | .objectSpaceIds n => if s = .spaces then n else 0
  | .propertyValues _ sets => idsUsedSets s sets
  | .propertySet set => idsUsedSet s set
  | _ => 0

/-- Sum over the sets of an array of property sets. -/
def idsUsedSets (s : Stream) : List (List (Nat × (Nat × PropertyValue))) → Nat
  | [] => 0
  | x :: xs => idsUsedSet s x + idsUsedSets s xs

/-- Sum over the properties of a set. -/
def idsUsedSet (s : Stream) : List (Nat × (Nat × PropertyValue)) → Nat
  | [] => 0
  | (_, _, v) :: x => idsUsed s v + idsUsedSet s x
end

mutual
/-- No single nested property set (type 0x11) inside the value takes an identifier of the stream.
(Arrays of property sets, type 0x10, may.) -/
def SingleSetsFree (s : Stream) : PropertyValue → Prop
  | .propertyValues _ sets => SingleSetsFreeSets s sets
  | .propertySet set => idsUsedSet s set = 0
  | _ => True

def SingleSetsFreeSets (s : Stream) : List (List (Nat × (Nat × PropertyValue))) → Prop
  | [] => True
  | x :: xs => SingleSetsFreeSet s x ∧ SingleSetsFreeSets s xs

def SingleSetsFreeSet (s : Stream) : List (Nat × (Nat × PropertyValue)) → Prop
  | [] => True
  | (_, _, v) :: x => SingleSetsFree s v ∧ SingleSetsFreeSet s x
end

/-- How many identifiers a list of properties takes. -/
def idsUsedBy (s : Stream) (es : List (Nat × PropertyValue)) : Nat :=
  (es.map fun e => idsUsed s e.2).sum

/-- No two properties have the same identifier. -/
def DistinctIds (es : List (Nat × PropertyValue)) : Prop := (es.map Prod.fst).Nodup

end OneNote.Spec
