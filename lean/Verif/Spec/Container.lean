/-
The container format as a writer may produce it: [MS-FSSHTTPB] 2.2.1.12 (data
elements) and [MS-ONESTORE] 2.8.1 (packaging). The relations say which byte
strings are legal serialisations of a list of data elements; every
variable-width field may use any of its legal encodings. No parser is
mentioned.
-/
import Verif.Spec.Encode
import Verif.Model.Container

namespace OneNote.Spec

/-- Concatenation of encodings of the members of a list. -/
inductive ListEnc {α : Type} (R : α → Bytes → Prop) : List α → Bytes → Prop where
  | nil : ListEnc R [] []
  | cons {a : α} {b : Bytes} {as : List α} {bs : Bytes} (h : R a b) (t : ListEnc R as bs) :
      ListEnc R (a :: as) (b ++ bs)

/-- A 16-bit start header of the given type (any compound bit, any length field). -/
inductive Start16 (ty : ObjectType) : Bytes → Prop where
  | mk (compound : Bool) (len : Nat) (h : len < 2 ^ 7) :
      Start16 ty (header16 compound (typeCode ty) len)

/-- A 32-bit start header of the given type. -/
inductive Start32 (ty : ObjectType) : Bytes → Prop where
  | mk (compound : Bool) (len : Nat) (bs : Bytes) (h : Header32 compound (typeCode ty) len bs) :
      Start32 ty bs

/-- A start header of either size; only types below 0x40 have a 16-bit form. -/
inductive Start (ty : ObjectType) : Bytes → Prop where
  | s16 (bs : Bytes) (ht : typeCode ty < 2 ^ 6) (h : Start16 ty bs) : Start ty bs
  | s32 (bs : Bytes) (h : Start32 ty bs) : Start ty bs

/-- [MS-FSSHTTPB] 2.2.1.9: serial number. -/
inductive SerialEnc : SerialNumber → Bytes → Prop where
  | null : SerialEnc ⟨Guid.nil, 0⟩ [0]
  | value (g : Guid) (n : Nat) (h : n < 2 ^ 64) : SerialEnc ⟨g, n⟩ (0x80 :: (guid g ++ leBytes 8 n))

/-- [MS-FSSHTTPB] 2.2.1.10: cell id. -/
inductive CellIdEnc : CellId → Bytes → Prop where
  | mk (a b : ExGuid) (x y : Bytes) (hx : ExGuidEnc a x) (hy : ExGuidEnc b y) :
      CellIdEnc ⟨a, b⟩ (x ++ y)

/-- [MS-FSSHTTPB] 2.2.1.8 and 2.2.1.11: counted arrays. -/
inductive ArrayEnc {α : Type} (R : α → Bytes → Prop) : List α → Bytes → Prop where
  | mk (as : List α) (c bs : Bytes) (hc : Compact as.length c) (h : ListEnc R as bs) :
      ArrayEnc R as (c ++ bs)

/-- [MS-FSSHTTPB] 2.2.1.3: binary item. -/
inductive BinaryEnc : Bytes → Bytes → Prop where
  | mk (d c : Bytes) (hc : Compact d.length c) : BinaryEnc d (c ++ d)

/-! ### Storage index -/

/-- One entry of a storage index. -/
inductive IndexItem where
  | manifest (id : ExGuid) (serial : SerialNumber)
  | cell (cell : CellId) (id : ExGuid) (serial : SerialNumber)
  | revision (id mapping : ExGuid) (serial : SerialNumber)

inductive IndexItemEnc : IndexItem → Bytes → Prop where
  | manifest (i s h bi bs) (hh : Start16 .storageIndexManifestMapping h) (hi : ExGuidEnc i bi)
      (hs : SerialEnc s bs) : IndexItemEnc (.manifest i s) (h ++ (bi ++ bs))
  | cell (c i s h bc bi bs) (hh : Start16 .storageIndexCellMapping h) (hc : CellIdEnc c bc)
      (hi : ExGuidEnc i bi) (hs : SerialEnc s bs) :
      IndexItemEnc (.cell c i s) (h ++ (bc ++ (bi ++ bs)))
  | revision (i m s h bi bm bs) (hh : Start16 .storageIndexRevisionMapping h) (hi : ExGuidEnc i bi)
      (hm : ExGuidEnc m bm) (hs : SerialEnc s bs) :
      IndexItemEnc (.revision i m s) (h ++ (bi ++ (bm ++ bs)))

/-- The storage index with the given entries. -/
def indexOf (items : List IndexItem) : StorageIndex where
  manifestMappings := items.filterMap fun
    | .manifest i s => some ⟨i, s⟩
    | _ => none
  cellMappings := Map.ofList (items.filterMap fun
    | .cell c i s => some (c, ⟨c, i, s⟩)
    | _ => none)
  revisionMappings := Map.ofList (items.filterMap fun
    | .revision i m s => some (i, ⟨m, s⟩)
    | _ => none)

/-! ### Storage manifest -/

inductive RootEnc : ExGuid × CellId → Bytes → Prop where
  | mk (r c h br bc) (hh : Start16 .storageManifestRoot h) (hr : ExGuidEnc r br)
      (hc : CellIdEnc c bc) : RootEnc (r, c) (h ++ (br ++ bc))

/-! ### Revision manifest -/

inductive RevisionItem where
  | root (rootId objectId : ExGuid)
  | group (id : ExGuid)

inductive RevisionItemEnc : RevisionItem → Bytes → Prop where
  | root (r o h br bo) (hh : Start16 .revisionManifestRoot h) (hr : ExGuidEnc r br)
      (ho : ExGuidEnc o bo) : RevisionItemEnc (.root r o) (h ++ (br ++ bo))
  | group (g h bg) (hh : Start16 .revisionManifestGroupReference h) (hg : ExGuidEnc g bg) :
      RevisionItemEnc (.group g) (h ++ bg)

def revisionOf (revId baseRevId : ExGuid) (items : List RevisionItem) : RevisionManifest where
  revId := revId
  baseRevId := baseRevId
  rootDeclare := items.filterMap fun
    | .root r o => some ⟨r, o⟩
    | _ => none
  groupReferences := items.filterMap fun
    | .group g => some g
    | _ => none

/-! ### Object group -/

inductive DeclarationEnc : Declaration → Bytes → Prop where
  | object (i p d o c h bi bp bd bo bc) (hh : Start .objectGroupObject h) (hi : ExGuidEnc i bi)
      (hp : Compact p bp) (hd : Compact d bd) (ho : Compact o bo) (hc : Compact c bc) :
      DeclarationEnc (.object i p d o c) (h ++ (bi ++ (bp ++ (bd ++ (bo ++ bc)))))
  | blob (i b p o c h bi bb bp bo bc) (hh : Start .objectGroupDataBlob h) (hi : ExGuidEnc i bi)
      (hb : ExGuidEnc b bb) (hp : Compact p bp) (ho : Compact o bo) (hc : Compact c bc) :
      DeclarationEnc (.blob i b p o c) (h ++ (bi ++ (bb ++ (bp ++ (bo ++ bc)))))

inductive GroupDataEnc : GroupData → Bytes → Prop where
  | object (g c d h bg bc bd) (hh : Start .objectGroupDataObject h)
      (hg : ArrayEnc ExGuidEnc g bg) (hc : ArrayEnc CellIdEnc c bc) (hd : BinaryEnc d bd) :
      GroupDataEnc (.object g c d) (h ++ (bg ++ (bc ++ bd)))
  | excluded (g c n h bg bc bn) (hh : Start .objectGroupDataExcluded h)
      (hg : ArrayEnc ExGuidEnc g bg) (hc : ArrayEnc CellIdEnc c bc) (hn : Compact n bn) :
      GroupDataEnc (.excluded g c n) (h ++ (bg ++ (bc ++ bn)))
  | blobReference (g c b h bg bc bb) (hh : Start .objectGroupBlobReference h)
      (hg : ArrayEnc ExGuidEnc g bg) (hc : ArrayEnc CellIdEnc c bc) (hb : ExGuidEnc b bb) :
      GroupDataEnc (.blobReference g c b) (h ++ (bg ++ (bc ++ bb)))

/-! ### Data elements -/

/-- The contents of a data element. -/
inductive Body where
  | storageIndex (items : List IndexItem)
  | storageManifest (id : Guid) (roots : List (ExGuid × CellId))
  | cellManifest (id : ExGuid)
  | revisionManifest (revId baseRevId : ExGuid) (items : List RevisionItem)
  | objectGroup (declarations : List Declaration) (objects : List GroupData)
  | blob (data : Bytes)

/-- A data element: its identifier and contents. -/
structure Element where
  id : ExGuid
  body : Body

/-- [MS-FSSHTTPB] 2.2.1.12.1: data element types. -/
def bodyType : Body → Nat
  | .storageIndex _ => 1
  | .storageManifest _ _ => 2
  | .cellManifest _ => 3
  | .revisionManifest _ _ _ => 4
  | .objectGroup _ _ => 5
  | .blob _ => 10

/-- The 8-bit end header of a data element. -/
def dataElementEnd : Bytes := end8 (typeCode .dataElement)

inductive BodyEnc : Body → Bytes → Prop where
  | storageIndex (items bs) (h : ListEnc IndexItemEnc items bs) :
      BodyEnc (.storageIndex items) (bs ++ dataElementEnd)
  | storageManifest (id roots h bs) (hh : Start16 .storageManifest h)
      (hr : ListEnc RootEnc roots bs) :
      BodyEnc (.storageManifest id roots) (h ++ (guid id ++ (bs ++ dataElementEnd)))
  | cellManifest (id h bi) (hh : Start16 .cellManifest h) (hi : ExGuidEnc id bi) :
      BodyEnc (.cellManifest id) (h ++ (bi ++ dataElementEnd))
  | revisionManifest (r b items h br bb bs) (hh : Start16 .revisionManifest h)
      (hr : ExGuidEnc r br) (hb : ExGuidEnc b bb) (hi : ListEnc RevisionItemEnc items bs) :
      BodyEnc (.revisionManifest r b items) (h ++ (br ++ (bb ++ (bs ++ dataElementEnd))))
  | objectGroup (ds os h bd h' bo) (hh : Start .objectGroupDeclaration h)
      (hd : ListEnc DeclarationEnc ds bd) (hh' : Start .objectGroupData h')
      (ho : ListEnc GroupDataEnc os bo) :
      BodyEnc (.objectGroup ds os)
        (h ++ (bd ++ (end8 (typeCode .objectGroupDeclaration) ++
          (h' ++ (bo ++ (end8 (typeCode .objectGroupData) ++ dataElementEnd))))))
  | blob (d h bd) (hh : Start .objectDataBlob h) (hd : BinaryEnc d bd) :
      BodyEnc (.blob d) (h ++ (bd ++ dataElementEnd))

inductive ElementEnc : Element → Bytes → Prop where
  | mk (id body serial h bi bs bt bb) (hh : Start16 .dataElement h) (hi : ExGuidEnc id bi)
      (hs : SerialEnc serial bs) (ht : Compact (bodyType body) bt) (hb : BodyEnc body bb) :
      ElementEnc ⟨id, body⟩ (h ++ (bi ++ (bs ++ (bt ++ bb))))

/-- [MS-FSSHTTPB] 2.2.1.12: the data element package. -/
inductive PackageEnc : List Element → Bytes → Prop where
  | mk (es h bs) (hh : Start16 .dataElementPackage h) (he : ListEnc ElementEnc es bs) :
      PackageEnc es (h ++ (0 :: (bs ++ end8 (typeCode .dataElementPackage))))

/-- The elements of one kind with their identifiers, in file order. -/
def storageIndexes (es : List Element) : List (ExGuid × StorageIndex) :=
  es.filterMap fun
    | ⟨id, .storageIndex items⟩ => some (id, indexOf items)
    | _ => none

def storageManifests (es : List Element) : List (ExGuid × StorageManifest) :=
  es.filterMap fun
    | ⟨id, .storageManifest g roots⟩ => some (id, ⟨g, Map.ofList roots⟩)
    | _ => none

def cellManifests (es : List Element) : List (ExGuid × ExGuid) :=
  es.filterMap fun
    | ⟨id, .cellManifest g⟩ => some (id, g)
    | _ => none

def revisionManifests (es : List Element) : List (ExGuid × RevisionManifest) :=
  es.filterMap fun
    | ⟨id, .revisionManifest r b items⟩ => some (id, revisionOf r b items)
    | _ => none

def objectGroups (es : List Element) : List (ExGuid × ObjectGroup) :=
  es.filterMap fun
    | ⟨id, .objectGroup ds os⟩ => some (id, ⟨ds, [], os⟩)
    | _ => none

def blobs (es : List Element) : List (ExGuid × Bytes) :=
  es.filterMap fun
    | ⟨id, .blob d⟩ => some (id, d)
    | _ => none

/-- The package holding the given elements. -/
def packageOf (es : List Element) : Package where
  storageIndexes := Map.ofList (storageIndexes es)
  storageManifests := Map.ofList (storageManifests es)
  cellManifests := Map.ofList (cellManifests es)
  revisionManifests := Map.ofList (revisionManifests es)
  objectGroups := Map.ofList (objectGroups es)
  fragments := []
  blobs := Map.ofList (blobs es)

/-- [MS-ONESTORE] 2.8.1: everything after the four leading GUIDs. -/
inductive PackagingTailEnc (si : ExGuid) (schema : Guid) (es : List Element) : Bytes → Prop where
  | mk (h bi bp) (hh : Start32 .oneNotePackaging h) (hi : ExGuidEnc si bi)
      (hp : PackageEnc es bp) :
      PackagingTailEnc si schema es
        (leBytes 4 0 ++ (h ++ (bi ++ (guid schema ++ (bp ++ end16 (typeCode .oneNotePackaging))))))

/-- The last value recorded for a key. -/
def lastWith {K V : Type} [DecidableEq K] (es : List (K × V)) (k : K) : Option V :=
  (es.reverse.find? (fun e => decide (e.1 = k))).map Prod.snd

end OneNote.Spec
