/-
The graph of the objects of an object space, and the objects whose shape makes the parser panic.
-/
import Verif.Spec.Tree

namespace OneNote.Spec

/-- `b` is a child, a content or a table of contents entry of the object `a`. -/
def ChildOf (space : ObjectSpace) (a b : ExGuid) : Prop :=
  ∃ o t ids, space.getObject a = some o ∧
    t ∈ [PropertyType.elementChildNodes, .contentChildNodes, .tocChildren] ∧
    References o t ids ∧ b ∈ ids

/-- One or more steps from a node to a child. -/
abbrev Descendant (space : ObjectSpace) : ExGuid → ExGuid → Prop :=
  Relation.TransGen (ChildOf space)

/-- No object is its own descendant. -/
def Acyclic (space : ObjectSpace) : Prop := ∀ id, ¬ Descendant space id id

/-- Every object space of a store is acyclic. -/
def AcyclicStore (store : Store) : Prop :=
  Acyclic store.dataRoot ∧ ∀ cell space, store.objectSpace cell = some space → Acyclic space

/-- A number list (JCID 0x00060012) whose format is stored but has no first character. -/
def EmptyFormat (o : Object) : Prop :=
  o.jcId = 0x00060012 ∧ ∃ v, o.props.get .numberListFormat = some (.vec v) ∧ v.length < 2

/-- The run of a text is an embedded object without a type: a reference to ink. -/
def IsInkRun (style : ParagraphStyleObject) : Bool :=
  style.textRunIsEmbeddedObject && style.textRunObjectType.isNone

/-- A text (JCID 0x0006000E) with references to ink, but fewer than its runs need. -/
def MissingInk (space : ObjectSpace) (o : Object) : Prop :=
  o.jcId = 0x0006000E ∧ ∃ refs ids styles runs, References o .textRunDataObject refs ∧ refs ≠ [] ∧
    References o .textRunFormatting ids ∧
    Each (fun id style => parseStyleObject space id = .ok style) ids styles ∧
    nestedObjects .textRunData o = .ok (some runs) ∧
    refs.length < ((runs.zip styles).filter fun r => IsInkRun r.2).length

/-- No object of the space is of one of the two shapes. -/
def NoPanicShape (space : ObjectSpace) : Prop :=
  ∀ id o, space.getObject id = some o → ¬ EmptyFormat o ∧ ¬ MissingInk space o

end OneNote.Spec
