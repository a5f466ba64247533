/-
Renaming the identifiers of a file. Identifiers ([MS-FSSHTTPB] 2.2.1.7, extended GUIDs) only connect
the parts of a file with each other, except for a few that have a meaning of their own.
-/
import Verif.Spec.Accepted
import Verif.Spec.StoreContents

namespace OneNote.Spec

open StoreContents

/-- The identifiers with a meaning: "nothing", the names of the two roots of a file and the roles of
the roots of an object space. -/
def reservedIds : List ExGuid :=
  [ExGuid.nil, headerRootId, defaultRootId,
   ⟨rootGuid, 1⟩, ⟨rootGuid, 2⟩, ⟨rootGuid, 3⟩, ⟨rootGuid, 4⟩]

/-- A one-to-one renaming of identifiers that keeps those with a meaning. -/
structure Renaming where
  new : ExGuid → ExGuid
  old : ExGuid → ExGuid
  old_new : ∀ i, old (new i) = i
  new_old : ∀ i, new (old i) = i
  reserved : ∀ i ∈ reservedIds, new i = i

namespace Renaming

variable (r : Renaming)

def cell (c : CellId) : CellId := ⟨r.new c.fst, r.new c.snd⟩

def indexItem : IndexItem → IndexItem
  | .manifest i s => .manifest (r.new i) s
  | .cell c i s => .cell (r.cell c) (r.new i) s
  | .revision i m s => .revision (r.new i) (r.new m) s

def revisionItem : RevisionItem → RevisionItem
  | .root role o => .root (r.new role) (r.new o)
  | .group g => .group (r.new g)

def declaration : Declaration → Declaration
  | .object i p d o c => .object (r.new i) p d o c
  | .blob i b p o c => .blob (r.new i) (r.new b) p o c

/-- The data of an object: the references beside it are renamed, its bytes stay as they are. -/
def groupData : GroupData → GroupData
  | .object g c d => .object (g.map r.new) (c.map r.cell) d
  | .excluded g c n => .excluded (g.map r.new) (c.map r.cell) n
  | .blobReference g c b => .blobReference (g.map r.new) (c.map r.cell) (r.new b)

def body : Body → Body
  | .storageIndex items => .storageIndex (items.map r.indexItem)
  | .storageManifest g roots => .storageManifest g (roots.map fun e => (r.new e.1, r.cell e.2))
  | .cellManifest i => .cellManifest (r.new i)
  | .revisionManifest i b items => .revisionManifest (r.new i) (r.new b) (items.map r.revisionItem)
  | .objectGroup ds os => .objectGroup (ds.map r.declaration) (os.map r.groupData)
  | .blob d => .blob d

def contents : LaxContents → LaxContents
  | .body b => .body (r.body b)
  | .fragment f => .fragment { f with id := r.new f.id }

/-- A data element with all its identifiers renamed. -/
def element (e : LaxElement) : LaxElement := ⟨r.new e.id, r.contents e.piece⟩

end Renaming

end OneNote.Spec
