/-
Complete small files: a header cell and a data root cell, each with one
revision, written with the writer of `Spec/Write.lean`. Used for examples and
counterexamples.
-/
import Verif.Spec.Write
import Verif.Spec.Revisions

namespace OneNote.Spec

def sx (n : Nat) : ExGuid := ⟨sampleGuid, n⟩

/-- `{1A5A319C-C26B-41AA-B9C5-9BD8C44E07D4}`: root of the file header. -/
def fileHeaderRoot : ExGuid :=
  ⟨⟨0x1A, 0x5A, 0x31, 0x9C, 0xC2, 0x6B, 0x41, 0xAA, 0xB9, 0xC5, 0x9B, 0xD8, 0xC4, 0x4E, 0x07, 0xD4⟩, 1⟩

/-- `{84DEFAB9-AAA3-4A0D-A3A8-520C77AC7073}`: root of the data. -/
def fileDataRoot : ExGuid :=
  ⟨⟨0x84, 0xDE, 0xFA, 0xB9, 0xAA, 0xA3, 0x4A, 0x0D, 0xA3, 0xA8, 0x52, 0x0C, 0x77, 0xAC, 0x70, 0x73⟩, 2⟩

def headerCell : CellId := ⟨sx 1, sx 1⟩
def dataCell : CellId := ⟨sx 2, sx 2⟩

/-- The header object: file identity, ancestor identity, name checksum. -/
def headerProps : Bytes :=
  [0, 0, 0, 0x80] ++ [3, 0] ++ leBytes 4 0x1C001D94 ++ leBytes 4 0x1C001D95 ++
    leBytes 4 0x14001D93 ++ leBytes 4 16 ++ guid sampleGuid ++ leBytes 4 16 ++ guid Guid.nil ++
    leBytes 4 7

/-- An object of the data root: id, type, references, cells, property data. -/
structure SampleObject where
  id : Nat
  jcid : Nat
  refs : List ExGuid := []
  cells : List CellId := []
  props : Bytes

def groupOf (objects : List SampleObject) : Body :=
  .objectGroup
    (objects.flatMap fun o => [.object (sx o.id) 4 0 0 0, .object (sx o.id) 1 0 0 0])
    (objects.flatMap fun o => [.object [] [] (leBytes 4 o.jcid), .object o.refs o.cells o.props])

/-- A storage manifest naming the two cells. -/
def manifestOf (schema : Guid) : Body :=
  .storageManifest schema [(fileHeaderRoot, headerCell), (fileDataRoot, dataCell)]

/-- A cell with one revision: cell manifest `100 + n`, revision manifest `200 + n`, object group
`400 + n`. -/
def cellOf (n : Nat) (roots : List RevisionItem) (group : Body) : List Element :=
  [⟨sx (100 + n), .cellManifest (sx (200 + n))⟩,
   ⟨sx (200 + n), .revisionManifest (sx (200 + n)) ExGuid.nil (roots ++ [.group (sx (400 + n))])⟩,
   ⟨sx (400 + n), group⟩]

/-- The elements of a file: index, header cell, data root cell with content root `content` and
(optionally) metadata root, further cells. -/
def storeElements (roots : List RevisionItem) (objects : List SampleObject)
    (more : List (CellId × Nat × List RevisionItem × List SampleObject) := []) : List Element :=
  [⟨sx 3, .storageIndex ([.cell headerCell (sx 101) ⟨sampleGuid, 1⟩,
      .cell dataCell (sx 102) ⟨sampleGuid, 2⟩] ++
      more.map fun m => .cell m.1 (sx (100 + m.2.1)) ⟨sampleGuid, m.2.1⟩)⟩] ++
  cellOf 1 [] (.objectGroup [.object (sx 900) 1 0 0 0] [.object [] [] headerProps]) ++
  cellOf 2 roots (groupOf objects) ++
  more.flatMap fun m => cellOf m.2.1 m.2.2.1 (groupOf m.2.2.2)

/-- A file with the given schema. -/
def storeFile (schema : Guid) (roots : List RevisionItem) (objects : List SampleObject)
    (more : List (CellId × Nat × List RevisionItem × List SampleObject) := []) : Bytes :=
  fileW (sx 3) schema (⟨sx 4, manifestOf schema⟩ :: storeElements roots objects more)

/-- A metadata-free data root: one object of type 5 with a boolean property. -/
def sampleObjects : List SampleObject := [⟨1000, 5, [], [], [0, 0, 0, 0x80, 1, 0, 5, 0, 0, 0x88]⟩]
def sampleRoots : List RevisionItem := [.root contentRole (sx 1000)]

end OneNote.Spec
