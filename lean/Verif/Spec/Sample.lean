/-
A small concrete container, written with the format's encoders. It is used to
show that the theorems' hypotheses are met.
-/
import Verif.Spec.Container

namespace OneNote.Spec

def sampleGuid : Guid :=
  ⟨0xAA, 0xBB, 0xCC, 0xDD, 1, 2, 3, 4, 5, 6, 7, 8, 9, 10, 11, 12⟩

/-- The four leading GUIDs of a package store. -/
def sampleHead : Bytes :=
  guid sampleGuid ++ (guid Guid.nil ++ (guid Guid.nil ++ guid Packaging.packageStoreFormat))

def hdr16 (ty : ObjectType) : Bytes := header16 true (typeCode ty) 0
def hdr32 (ty : ObjectType) : Bytes := header32 true (typeCode ty) 0

/-- A storage index with one entry of each kind. -/
def sampleIndex : List IndexItem :=
  [.manifest ⟨sampleGuid, 1⟩ ⟨Guid.nil, 0⟩,
   .cell ⟨⟨sampleGuid, 2⟩, ExGuid.nil⟩ ⟨sampleGuid, 40⟩ ⟨sampleGuid, 7⟩,
   .revision ⟨sampleGuid, 3⟩ ⟨sampleGuid, 4⟩ ⟨Guid.nil, 0⟩]

/-- An object group with one object carrying three payload bytes. -/
def sampleGroup : Body :=
  .objectGroup [.object ⟨sampleGuid, 9⟩ 1 3 1 0] [.object [⟨sampleGuid, 10⟩] [] [1, 2, 3]]

/-- Two elements; the second blob replaces nothing. -/
def sampleElements : List Element :=
  [⟨⟨sampleGuid, 1⟩, .storageIndex sampleIndex⟩, ⟨⟨sampleGuid, 2⟩, sampleGroup⟩,
   ⟨⟨sampleGuid, 3⟩, .blob [0xFF]⟩]

def sampleTail : Bytes :=
  leBytes 4 0 ++ (hdr32 .oneNotePackaging ++ (exGuid ⟨sampleGuid, 1⟩ ++ (guid sampleGuid ++
  ((hdr16 .dataElementPackage ++ (0 :: (
    ((hdr16 .dataElement ++ (exGuid ⟨sampleGuid, 1⟩ ++ ([0] ++ (compact 1 ++
      (((hdr16 .storageIndexManifestMapping ++ (exGuid ⟨sampleGuid, 1⟩ ++ [0])) ++
       ((hdr16 .storageIndexCellMapping ++ ((exGuid ⟨sampleGuid, 2⟩ ++ [0]) ++
          (exGuid ⟨sampleGuid, 40⟩ ++ (0x80 :: (guid sampleGuid ++ leBytes 8 7))))) ++
       ((hdr16 .storageIndexRevisionMapping ++ (exGuid ⟨sampleGuid, 3⟩ ++
          (exGuid ⟨sampleGuid, 4⟩ ++ [0]))) ++ []))) ++ dataElementEnd))))) ++
    ((hdr16 .dataElement ++ (exGuid ⟨sampleGuid, 2⟩ ++ ([0] ++ (compact 5 ++
      (hdr16 .objectGroupDeclaration ++
        (((hdr16 .objectGroupObject ++ (exGuid ⟨sampleGuid, 9⟩ ++ (compact 1 ++ (compact 3 ++
          (compact 1 ++ compact 0))))) ++ []) ++
        (end8 (typeCode .objectGroupDeclaration) ++
        (hdr16 .objectGroupData ++
        (((hdr16 .objectGroupDataObject ++ ((compact 1 ++ (exGuid ⟨sampleGuid, 10⟩ ++ [])) ++
          ((compact 0 ++ []) ++ (compact 3 ++ [1, 2, 3])))) ++ []) ++
        (end8 (typeCode .objectGroupData) ++ dataElementEnd)))))))))) ++
    ((hdr16 .dataElement ++ (exGuid ⟨sampleGuid, 3⟩ ++ ([0] ++ (compact 10 ++
      (hdr16 .objectDataBlob ++ ((compact 1 ++ [0xFF]) ++ dataElementEnd)))))) ++ []))) ++
    end8 (typeCode .dataElementPackage)))) ++ end16 (typeCode .oneNotePackaging)))))

def sampleFile : Bytes := sampleHead ++ sampleTail

end OneNote.Spec
