/-
How much a parsed container holds: identifiers, cells, mappings, declarations,
objects and payload bytes, each counted as 1.
-/
import Verif.Model.Container

namespace OneNote.Spec

def sizeStorageIndex (si : StorageIndex) : Nat :=
  si.manifestMappings.length + si.cellMappings.length + si.revisionMappings.length

def sizeStorageManifest (m : StorageManifest) : Nat := 1 + m.roots.length

def sizeRevisionManifest (m : RevisionManifest) : Nat :=
  2 + m.rootDeclare.length + m.groupReferences.length

def sizeGroupData : GroupData → Nat
  | .object g c d => 1 + g.length + c.length + d.length
  | .excluded g c _ => 1 + g.length + c.length
  | .blobReference g c _ => 2 + g.length + c.length

def sizeObjectGroup (g : ObjectGroup) : Nat :=
  g.declarations.length + g.metadata.length + (g.objects.map sizeGroupData).sum

def sizeFragment (f : Fragment) : Nat := 1 + f.data.length

/-- An entry counts 1 for its identifier plus the size of its value. -/
def sizeMap {V : Type} (size : V → Nat) (m : Map ExGuid V) : Nat :=
  (m.map (fun e => 1 + size e.2)).sum

def sizePackage (p : Package) : Nat :=
  sizeMap sizeStorageIndex p.storageIndexes + sizeMap sizeStorageManifest p.storageManifests +
  sizeMap (fun _ => 1) p.cellManifests + sizeMap sizeRevisionManifest p.revisionManifests +
  sizeMap sizeObjectGroup p.objectGroups + sizeMap sizeFragment p.fragments +
  sizeMap List.length p.blobs

end OneNote.Spec
