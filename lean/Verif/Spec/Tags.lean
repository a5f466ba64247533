/-
Which definition belongs to which note tag of an object. The tags are stored as an array of property
sets ([MS-ONE] 2.3.86), each with at most one reference to its definition. The identifiers of the
sets stand one after the other in the stream of the object ([MS-ONESTORE] 2.6.1).
-/
import Verif.Spec.Document

namespace OneNote.Spec.Tags

open Fields Document

/-- The identifiers of the property `word` start at position `pos` of the identifiers of its set. -/
def TrueStart (ps : PropertySet) (word pos : Nat) : Prop :=
  ∃ i, ps.index word = some i ∧
    pos = ((ps.filter fun e => decide (e.2.1 < i)).map fun e => idsUsed .objects e.2.2).sum

/-- The identifiers of the first `k` sets. -/
def before (sets : List PropertySet) (k : Nat) : Nat :=
  ((sets.take k).map (idsUsedSet .objects)).sum

/-- The reference of the `k`-th note tag of `o` to its definition: the identifier at its own position
in the stream, resolved by the object's mapping table. `none`: the tag has none, or the table has no
entry. -/
def OwnDefinition (o : Object) (sets : List PropertySet) (k : Nat) (r : Option ExGuid) : Prop :=
  ∃ set, sets[k]? = some set ∧
    ((set.get Word.noteTagDefinitionOid = none ∧ r = none) ∨
    ∃ start inside id, TrueStart o.props.properties Word.noteTags start ∧
      TrueStart set Word.noteTagDefinitionOid inside ∧
      o.props.objectIds[start + before sets k + inside]? = some id ∧
      r = o.mapping.getObject (start + before sets k + inside) id)

/-- The tag shows the definition that is stored for it. -/
def ShowsOwn (space : ObjectSpace) (o : Object) (sets : List PropertySet) (k : Nat) (tag : NoteTag) :
    Prop := ∃ r, OwnDefinition o sets k r ∧ Maybe (DefinitionIs space) r tag.definition

/-- No compact identifier of the object is recorded twice. -/
def Once (o : Object) : Prop :=
  ∀ cid entries, o.mapping.objects.get? cid = some entries → entries.length ≤ 1

/-- One tag is shown for each stored set, in order, with the time and the status that its set says. It
shows its own definition if no compact identifier is recorded twice, no single nested property set
takes identifiers and no set before it does (so always if it is the first). -/
def TagsShown (space : ObjectSpace) (o : Object) (tags : List NoteTag) : Prop :=
  (o.props.properties.get Word.noteTags = none ∧ tags = []) ∨
  ∃ kind sets, o.props.properties.get Word.noteTags = some (.propertyValues kind sets) ∧
    tags.length = sets.length ∧
    ∀ k tag set, tags[k]? = some tag → sets[k]? = some set →
      Optional set Word.noteTagCompleted Value.u32 tag.completedAt ∧
      Required set Word.actionItemStatus Value.itemStatus tag.itemStatus ∧
      (SingleSetsFreeSet .objects o.props.properties → Once o → before sets k = 0 →
        ShowsOwn space o sets k tag)

/-- The object is stored in an object space of the file. -/
def StoredIn (store : Store) (space : ObjectSpace) (id : ExGuid) (o : Object) : Prop :=
  (∃ cell, store.objectSpace cell = some space) ∧ At space id o

end OneNote.Spec.Tags
