/-
An object with its fields: values, references to objects and cells, and arrays of property sets. A
field that is absent is not stored.
-/
import Verif.Spec.WriteTree

namespace OneNote.Spec.Writer

/-- A value that is not a reference. Numbers are cut to their size. -/
inductive Scalar where
  | bool (b : Bool)
  | u8 (n : Nat)
  | u16 (n : Nat)
  | u32 (n : Nat)
  | u64 (n : Nat)
  | vec (data : Bytes)

def Scalar.val : Scalar → Val
  | .bool b => .bool b
  | .u8 n => .u8 (n % 2 ^ 8)
  | .u16 n => .u16 (n % 2 ^ 16)
  | .u32 n => .u32 (n % 2 ^ 32)
  | .u64 n => .u64 (n % 2 ^ 64)
  | .vec data => .vec data

/-- A field of an object. -/
inductive Field where
  /-- a value, if there is one -/
  | val (v : Option Scalar)
  /-- a reference, if there is one -/
  | one (t : Option Tree)
  /-- a list of references -/
  | many (ts : List Tree)
  /-- an array of property sets, which refer to `ts` -/
  | sets (kind : Nat) (ss : List (List (Nat × Val))) (ts : List Tree)
  /-- a list of references to cells -/
  | cells (cs : List CellId)

/-- The property of a field. -/
def Field.entry : Field → Option Entry
  | .val v => v.map fun s => .val s.val
  | .one t => t.map fun _ => .val .ref
  | .many ts => some (.val (.refs ts.length))
  | .sets kind ss _ => some (.sets kind ss)
  | .cells cs => some (.val (.cells cs.length))

def Field.children : Field → List Tree
  | .one t => t.toList
  | .many ts => ts
  | .sets _ _ ts => ts
  | _ => []

def Field.cellIds : Field → List CellId
  | .cells cs => cs
  | _ => []

/-- The object with the given fields, each under the word of its property. -/
def node (kind : Nat) (blob : Option Bytes) (fields : List (Nat × Field)) : Tree :=
  .mk kind blob (fields.filterMap fun f => f.2.entry.map fun e => (f.1, e))
    (fields.flatMap fun f => f.2.cellIds) (fields.flatMap fun f => f.2.children)

/-- The property set with the values that are there. -/
def inner (fields : List (Nat × Option Val)) : List (Nat × Val) :=
  fields.filterMap fun f => f.2.map fun v => (f.1, v)

end OneNote.Spec.Writer
