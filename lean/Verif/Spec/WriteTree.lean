/-
A writer for section files ([MS-ONESTORE] 2.6 and 2.7): trees of objects, each with its properties,
become the objects of the cells of a file. Nothing here mentions the model's parsers.
-/
import Verif.Spec.SampleStore
import Verif.Spec.PropSet
import Verif.Spec.Schema

namespace OneNote.Spec.Writer

/-- A value of a property. -/
inductive Val where
  | bool (b : Bool)
  | u8 (n : Nat)
  | u16 (n : Nat)
  | u32 (n : Nat)
  | u64 (n : Nat)
  | vec (data : Bytes)
  /-- a reference to an object -/
  | ref
  /-- references to objects -/
  | refs (count : Nat)
  /-- references to cells -/
  | cells (count : Nat)

/-- The type code of a value ([MS-ONESTORE] 2.6.6). -/
def Val.type : Val → Nat
  | .bool _ => 0x2
  | .u8 _ => 0x3
  | .u16 _ => 0x4
  | .u32 _ => 0x5
  | .u64 _ => 0x6
  | .vec _ => 0x7
  | .ref => 0x8
  | .refs _ => 0x9
  | .cells _ => 0xB

/-- The top bit of the id word. -/
def Val.top : Val → Bool
  | .bool b => b
  | _ => false

/-- The bytes of a value. -/
def Val.bytes : Val → Bytes
  | .bool _ => []
  | .u8 n => leBytes 1 n
  | .u16 n => leBytes 2 n
  | .u32 n => leBytes 4 n
  | .u64 n => leBytes 8 n
  | .vec data => leBytes 4 data.length ++ data
  | .ref => []
  | .refs n => leBytes 4 n
  | .cells n => leBytes 4 n

/-- What the value is read as. -/
def Val.value : Val → PropertyValue
  | .bool b => .bool b
  | .u8 n => .u8 n
  | .u16 n => .u16 n
  | .u32 n => .u32 n
  | .u64 n => .u64 n
  | .vec data => .vec data
  | .ref => .objectId
  | .refs n => .objectIds n
  | .cells n => .objectSpaceIds n

/-- A property: a value or an array of property sets. -/
inductive Entry where
  | val (v : Val)
  | sets (kind : Nat) (ss : List (List (Nat × Val)))

/-- The identifier part of a property's word. -/
def key (word : Nat) : Nat := word % 2 ^ 26

/-- The bytes of a set of properties, given by their words. -/
def setBytes (s : List (Nat × Val)) : Bytes :=
  leBytes 2 s.length ++ ((s.flatMap fun e => leBytes 4 (idWord (key e.1) e.2.type e.2.top)) ++
    s.flatMap fun e => e.2.bytes)

def setValue (s : List (Nat × Val)) : PropertySet := setOf (s.map fun e => (key e.1, e.2.value))

def Entry.type : Entry → Nat
  | .val v => v.type
  | .sets _ _ => 0x10

def Entry.top : Entry → Bool
  | .val v => v.top
  | .sets _ _ => false

def Entry.bytes : Entry → Bytes
  | .val v => v.bytes
  | .sets kind ss => leBytes 4 ss.length ++ (leBytes 4 kind ++ ss.flatMap setBytes)

def Entry.value : Entry → PropertyValue
  | .val v => v.value
  | .sets kind ss => .propertyValues kind (ss.map setValue)

/-- The compact id of the reference number `i`. -/
def compactOf (i : Nat) : CompactId := ⟨i % 256, i / 256⟩

/-- The property streams of an object with so many references to objects and to cells. -/
def propsBytes (refs cells : Nat) (props : List (Nat × Entry)) : Bytes :=
  streamHeader refs 0 false false ++ (compactIds ((List.range refs).map compactOf) ++
    (streamHeader cells 0 false false ++ (compactIds ((List.range cells).map compactOf) ++
      (leBytes 2 props.length ++
        ((props.flatMap fun e => leBytes 4 (idWord (key e.1) e.2.type e.2.top)) ++
          props.flatMap fun e => e.2.bytes)))))

/-- An object with its kind ([MS-ONE] 2.1.13), file data, properties, cells and the objects it refers
to. The properties take cells and children in order. -/
inductive Tree where
  | mk (kind : Nat) (blob : Option Bytes) (props : List (Nat × Entry)) (cells : List CellId)
      (children : List Tree)

/-- A numbered object. -/
structure Obj where
  id : Nat
  kind : Nat
  blob : Option Bytes
  props : List (Nat × Entry)
  cells : List CellId
  refs : List Nat

mutual
/-- The number of objects of a tree. -/
def Tree.size : Tree → Nat
  | .mk _ _ _ _ children => sizes children + 1

def sizes : List Tree → Nat
  | [] => 0
  | t :: ts => t.size + sizes ts
end

/-- The numbers of the roots of trees that are numbered from `n` on. -/
def starts (n : Nat) : List Tree → List Nat
  | [] => []
  | t :: ts => n :: starts (n + t.size) ts

mutual
/-- The objects of a tree, numbered from `n` on. -/
def Tree.objects (n : Nat) : Tree → List Obj
  | .mk kind blob props cells children =>
    ⟨n, kind, blob, props, cells, starts (n + 1) children⟩ :: objectsOf (n + 1) children

def objectsOf (n : Nat) : List Tree → List Obj
  | [] => []
  | t :: ts => t.objects n ++ objectsOf (n + t.size) ts
end

/-- The declarations and data of an object: its kind in partition 4, its properties in partition 1 and
its file data in partition 2. -/
def Obj.parts (o : Obj) : List (Declaration × GroupData) :=
  [(.object (sx o.id) 4 0 0 0, .object [] [] (leBytes 4 o.kind)),
   (.object (sx o.id) 1 0 0 0,
    .object (o.refs.map sx) o.cells (propsBytes o.refs.length o.cells.length o.props))] ++
  match o.blob with
  | none => []
  | some _ => [(.blob (sx o.id) (sx o.id) 2 0 0, .blobReference [] [] (sx o.id))]

def groupBody (objects : List Obj) : Body :=
  .objectGroup ((objects.flatMap Obj.parts).map Prod.fst) ((objects.flatMap Obj.parts).map Prod.snd)

/-- A cell: its number, its roots and its objects. -/
structure Cell where
  num : Nat
  content : Nat
  info : Nat
  objects : List Obj

def cellId (num : Nat) : CellId := ⟨sx num, sx num⟩

/-- The elements of a cell with one revision. -/
def cellElements (num : Nat) (roots : List RevisionItem) (group : Body) : List Element :=
  [⟨sx num, .cellManifest (sx num)⟩,
   ⟨sx num, .revisionManifest (sx num) ExGuid.nil (roots ++ [.group (sx num)])⟩,
   ⟨sx num, group⟩]

def Cell.elements (c : Cell) : List Element :=
  cellElements c.num [.root contentRole (sx c.content), .root metadataRole (sx c.info)]
    (groupBody c.objects)

def Cell.blobs (c : Cell) : List Element :=
  c.objects.filterMap fun o => o.blob.map fun d => ⟨sx o.id, .blob d⟩

/-- The elements of a file with the given schema and cells, of which number 2 is the data root. -/
def fileElements (schema : Guid) (cells : List Cell) : List Element :=
  [⟨sx 1, .storageManifest schema [(fileHeaderRoot, cellId 1), (fileDataRoot, cellId 2)]⟩,
   ⟨sx 1, .storageIndex (.cell (cellId 1) (sx 1) ⟨sampleGuid, 1⟩ ::
    cells.map fun c => .cell (cellId c.num) (sx c.num) ⟨sampleGuid, c.num⟩)⟩] ++
  cellElements 1 [] (.objectGroup [.object (sx 1) 1 0 0 0] [.object [] [] headerProps]) ++
  cells.flatMap Cell.elements ++ cells.flatMap Cell.blobs

/-- Cells numbered from `num` on for pairs of content and metadata, whose objects are numbered from
`id` on. -/
def cellsFrom (num id : Nat) : List (Tree × Tree) → List Cell
  | [] => []
  | (c, i) :: ps =>
    ⟨num, id, id + c.size, objectsOf id [c, i]⟩ :: cellsFrom (num + 1) (id + c.size + i.size) ps

/-- A file with the given schema and contents of its data root and of its pages, which are the cells from
number 3 on. -/
def treeFile (schema : Guid) (root : Tree × Tree) (pages : List (Tree × Tree)) : Bytes :=
  fileW (sx 1) schema (fileElements schema (cellsFrom 2 1 (root :: pages)))

/-! ### What fits -/

/-- The numbers fit their fields. -/
def Val.Fits : Val → Prop
  | .u8 n => n < 2 ^ 8
  | .u16 n => n < 2 ^ 16
  | .u32 n => n < 2 ^ 32
  | .u64 n => n < 2 ^ 64
  | _ => True

/-- The data and the lists of references are not too long. -/
def Val.Short : Val → Prop
  | .vec data => data.length < 2 ^ 32
  | .refs n => n < 2 ^ 32
  | .cells n => n < 2 ^ 32
  | _ => True

def Entry.Fits : Entry → Prop
  | .val v => v.Fits
  | .sets kind ss => kind < 2 ^ 32 ∧ ∀ s ∈ ss, s.length < 2 ^ 16 ∧ ∀ e ∈ s, e.2.Fits

def Entry.Short : Entry → Prop
  | .val v => v.Short
  | .sets _ ss => ss.length < 2 ^ 32 ∧ ∀ s ∈ ss, ∀ e ∈ s, e.2.Short

/-- The value refers to at most so many objects and cells. -/
def Val.Within (refs cells : Nat) : Val → Prop
  | .refs n => n ≤ refs
  | .cells n => n ≤ cells
  | _ => True

def Entry.Within (refs cells : Nat) : Entry → Prop
  | .val v => v.Within refs cells
  | .sets _ ss => ∀ s ∈ ss, ∀ e ∈ s, e.2.Within refs cells

/-- All numbers of all objects fit, and no object refers to the cell `num` it is stored in. -/
inductive Tree.Fits (num : Nat) : Tree → Prop where
  | mk {kind : Nat} {blob : Option Bytes} {props : List (Nat × Entry)} {cells : List CellId}
      {children : List Tree} : kind < 2 ^ 32 → props.length < 2 ^ 16 →
      (∀ e ∈ props, e.2.Fits ∧ e.2.Within children.length cells.length) →
      (∀ c ∈ cells, (CellIdFits c ∧ c.fst.guid ≠ Guid.nil) ∧ c.snd ≠ sx num) → (∀ t ∈ children, Tree.Fits num t) →
      Tree.Fits num (.mk kind blob props cells children)

/-- All data and all lists of all objects are short enough. -/
inductive Tree.Short : Tree → Prop where
  | mk {kind : Nat} {blob : Option Bytes} {props : List (Nat × Entry)} {cells : List CellId}
      {children : List Tree} : (∀ d, blob = some d → d.length < 2 ^ 64) →
      (∀ e ∈ props, e.2.Short) → (propsBytes children.length cells.length props).length < 2 ^ 64 →
      cells.length < 2 ^ 24 → children.length < 2 ^ 24 →
      (∀ t ∈ children, Tree.Short t) → Tree.Short (.mk kind blob props cells children)

end OneNote.Spec.Writer
