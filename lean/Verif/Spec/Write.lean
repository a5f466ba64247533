/-
A writer for package-store files: one particular legal serialisation of every
list of data elements whose numbers fit their fields. It is used to turn
structured counterexamples and examples into files.
-/
import Verif.Spec.Sample
import Verif.Spec.Store

namespace OneNote.Spec

def serialW (s : SerialNumber) : Bytes := 0x80 :: (guid s.guid ++ leBytes 8 s.serial)
def cellIdW (c : CellId) : Bytes := exGuid c.fst ++ exGuid c.snd
def listW {α : Type} (f : α → Bytes) : List α → Bytes
  | [] => []
  | a :: as => f a ++ listW f as
def arrayW {α : Type} (f : α → Bytes) (as : List α) : Bytes := compact as.length ++ listW f as
def binaryW (d : Bytes) : Bytes := compact d.length ++ d

def indexItemW : IndexItem → Bytes
  | .manifest i s => hdr16 .storageIndexManifestMapping ++ (exGuid i ++ serialW s)
  | .cell c i s => hdr16 .storageIndexCellMapping ++ (cellIdW c ++ (exGuid i ++ serialW s))
  | .revision i m s => hdr16 .storageIndexRevisionMapping ++ (exGuid i ++ (exGuid m ++ serialW s))

def rootW (r : ExGuid × CellId) : Bytes :=
  hdr16 .storageManifestRoot ++ (exGuid r.1 ++ cellIdW r.2)

def revisionItemW : RevisionItem → Bytes
  | .root r o => hdr16 .revisionManifestRoot ++ (exGuid r ++ exGuid o)
  | .group g => hdr16 .revisionManifestGroupReference ++ exGuid g

def declarationW : Declaration → Bytes
  | .object i p d o c => hdr16 .objectGroupObject ++
      (exGuid i ++ (compact p ++ (compact d ++ (compact o ++ compact c))))
  | .blob i b p o c => hdr16 .objectGroupDataBlob ++
      (exGuid i ++ (exGuid b ++ (compact p ++ (compact o ++ compact c))))

def groupDataW : GroupData → Bytes
  | .object g c d => hdr16 .objectGroupDataObject ++
      (arrayW exGuid g ++ (arrayW cellIdW c ++ binaryW d))
  | .excluded g c n => hdr16 .objectGroupDataExcluded ++
      (arrayW exGuid g ++ (arrayW cellIdW c ++ compact n))
  | .blobReference g c b => hdr16 .objectGroupBlobReference ++
      (arrayW exGuid g ++ (arrayW cellIdW c ++ exGuid b))

def bodyW : Body → Bytes
  | .storageIndex items => listW indexItemW items ++ dataElementEnd
  | .storageManifest id roots =>
    hdr16 .storageManifest ++ (guid id ++ (listW rootW roots ++ dataElementEnd))
  | .cellManifest id => hdr16 .cellManifest ++ (exGuid id ++ dataElementEnd)
  | .revisionManifest r b items =>
    hdr16 .revisionManifest ++ (exGuid r ++ (exGuid b ++ (listW revisionItemW items ++ dataElementEnd)))
  | .objectGroup ds os =>
    hdr16 .objectGroupDeclaration ++ (listW declarationW ds ++
      (end8 (typeCode .objectGroupDeclaration) ++ (hdr16 .objectGroupData ++
        (listW groupDataW os ++ (end8 (typeCode .objectGroupData) ++ dataElementEnd)))))
  | .blob d => hdr16 .objectDataBlob ++ (binaryW d ++ dataElementEnd)

def elementW (e : Element) : Bytes :=
  hdr16 .dataElement ++ (exGuid e.id ++ ([0] ++ (compact (bodyType e.body) ++ bodyW e.body)))

def packageW (es : List Element) : Bytes :=
  hdr16 .dataElementPackage ++ (0 :: (listW elementW es ++ end8 (typeCode .dataElementPackage)))

def tailW (si : ExGuid) (schema : Guid) (es : List Element) : Bytes :=
  leBytes 4 0 ++ (hdr32 .oneNotePackaging ++ (exGuid si ++ (guid schema ++
    (packageW es ++ end16 (typeCode .oneNotePackaging)))))

/-- A package-store file with the given schema, storage index and elements. -/
def fileW (si : ExGuid) (schema : Guid) (es : List Element) : Bytes :=
  guid schema ++ (guid Guid.nil ++ (guid Guid.nil ++ (guid packageStore ++ tailW si schema es)))

/-! ### Which elements can be written: numbers fit their fields -/

def ExGuidFits (e : ExGuid) : Prop := e.value < 2 ^ 32
def CellIdFits (c : CellId) : Prop := ExGuidFits c.fst ∧ ExGuidFits c.snd
def SerialFits (s : SerialNumber) : Prop := s.serial < 2 ^ 64
def Fits64 (n : Nat) : Prop := n < 2 ^ 64

def IndexItemFits : IndexItem → Prop
  | .manifest i s => ExGuidFits i ∧ SerialFits s
  | .cell c i s => CellIdFits c ∧ ExGuidFits i ∧ SerialFits s
  | .revision i m s => ExGuidFits i ∧ ExGuidFits m ∧ SerialFits s

def RootFits (r : ExGuid × CellId) : Prop := ExGuidFits r.1 ∧ CellIdFits r.2

def RevisionItemFits : RevisionItem → Prop
  | .root r o => ExGuidFits r ∧ ExGuidFits o
  | .group g => ExGuidFits g

def DeclarationFits : Declaration → Prop
  | .object i p d o c => ExGuidFits i ∧ Fits64 p ∧ Fits64 d ∧ Fits64 o ∧ Fits64 c
  | .blob i b p o c => ExGuidFits i ∧ ExGuidFits b ∧ Fits64 p ∧ Fits64 o ∧ Fits64 c

def RefsFit (g : List ExGuid) (c : List CellId) : Prop :=
  Fits64 g.length ∧ (∀ e ∈ g, ExGuidFits e) ∧ Fits64 c.length ∧ ∀ e ∈ c, CellIdFits e

def GroupDataFits : GroupData → Prop
  | .object g c d => RefsFit g c ∧ Fits64 d.length
  | .excluded g c n => RefsFit g c ∧ Fits64 n
  | .blobReference g c b => RefsFit g c ∧ ExGuidFits b

def BodyFits : Body → Prop
  | .storageIndex items => ∀ i ∈ items, IndexItemFits i
  | .storageManifest _ roots => ∀ r ∈ roots, RootFits r
  | .cellManifest id => ExGuidFits id
  | .revisionManifest r b items =>
    ExGuidFits r ∧ ExGuidFits b ∧ ∀ i ∈ items, RevisionItemFits i
  | .objectGroup ds os => (∀ d ∈ ds, DeclarationFits d) ∧ ∀ o ∈ os, GroupDataFits o
  | .blob d => Fits64 d.length

def ElementFits (e : Element) : Prop := ExGuidFits e.id ∧ BodyFits e.body

instance (e) : Decidable (ExGuidFits e) := inferInstanceAs (Decidable (_ < _))
instance (e) : Decidable (CellIdFits e) := inferInstanceAs (Decidable (_ ∧ _))
instance (e) : Decidable (SerialFits e) := inferInstanceAs (Decidable (_ < _))
instance (e) : Decidable (Fits64 e) := inferInstanceAs (Decidable (_ < _))
instance (e) : Decidable (RootFits e) := inferInstanceAs (Decidable (_ ∧ _))
instance (g c) : Decidable (RefsFit g c) := inferInstanceAs (Decidable (_ ∧ _))
instance : (e : IndexItem) → Decidable (IndexItemFits e)
  | .manifest _ _ => inferInstanceAs (Decidable (_ ∧ _))
  | .cell _ _ _ => inferInstanceAs (Decidable (_ ∧ _))
  | .revision _ _ _ => inferInstanceAs (Decidable (_ ∧ _))
instance : (e : RevisionItem) → Decidable (RevisionItemFits e)
  | .root _ _ => inferInstanceAs (Decidable (_ ∧ _))
  | .group g => inferInstanceAs (Decidable (ExGuidFits g))
instance : (e : Declaration) → Decidable (DeclarationFits e)
  | .object _ _ _ _ _ => inferInstanceAs (Decidable (_ ∧ _))
  | .blob _ _ _ _ _ => inferInstanceAs (Decidable (_ ∧ _))
instance : (e : GroupData) → Decidable (GroupDataFits e)
  | .object _ _ _ => inferInstanceAs (Decidable (_ ∧ _))
  | .excluded _ _ _ => inferInstanceAs (Decidable (_ ∧ _))
  | .blobReference _ _ _ => inferInstanceAs (Decidable (_ ∧ _))
instance : (e : Body) → Decidable (BodyFits e)
  | .storageIndex items => inferInstanceAs (Decidable (∀ i ∈ items, IndexItemFits i))
  | .storageManifest _ roots => inferInstanceAs (Decidable (∀ r ∈ roots, RootFits r))
  | .cellManifest g => inferInstanceAs (Decidable (ExGuidFits g))
  | .revisionManifest _ _ _ => inferInstanceAs (Decidable (_ ∧ _ ∧ _))
  | .objectGroup ds os => inferInstanceAs
      (Decidable ((∀ d ∈ ds, DeclarationFits d) ∧ ∀ o ∈ os, GroupDataFits o))
  | .blob d => inferInstanceAs (Decidable (Fits64 d.length))
instance (e) : Decidable (ElementFits e) := inferInstanceAs (Decidable (_ ∧ _))

end OneNote.Spec
