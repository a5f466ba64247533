/-
Which byte strings the code takes for a container. This is the format of Spec/Container with two
deviations: a serial number may begin with any non-zero byte (the format has 0x80), and a data
element fragment must not be followed by the end header the format requires.
-/
import Verif.Spec.Container
import Verif.Spec.Store
import Verif.Spec.Fragment

namespace OneNote.Spec

/-- A serial number with an arbitrary non-zero type byte. -/
inductive LaxSerial : SerialNumber → Bytes → Prop where
  | null : LaxSerial ⟨Guid.nil, 0⟩ [0]
  | value (t : UInt8) (g : Guid) (n : Nat) (ht : t ≠ 0) (h : n < 2 ^ 64) :
      LaxSerial ⟨g, n⟩ (t :: (guid g ++ leBytes 8 n))

inductive LaxIndexItem : IndexItem → Bytes → Prop where
  | manifest (i s h bi bs) (hh : Start16 .storageIndexManifestMapping h) (hi : ExGuidEnc i bi)
      (hs : LaxSerial s bs) : LaxIndexItem (.manifest i s) (h ++ (bi ++ bs))
  | cell (c i s h bc bi bs) (hh : Start16 .storageIndexCellMapping h) (hc : CellIdEnc c bc)
      (hi : ExGuidEnc i bi) (hs : LaxSerial s bs) :
      LaxIndexItem (.cell c i s) (h ++ (bc ++ (bi ++ bs)))
  | revision (i m s h bi bm bs) (hh : Start16 .storageIndexRevisionMapping h) (hi : ExGuidEnc i bi)
      (hm : ExGuidEnc m bm) (hs : LaxSerial s bs) :
      LaxIndexItem (.revision i m s) (h ++ (bi ++ (bm ++ bs)))

/-- A fragment without end header. -/
inductive OpenFragment : Fragment → Bytes → Prop where
  | mk (i size offset length data h bi bs bo bl) (hh : Start .dataElementFragment h)
      (hi : ExGuidEnc i bi) (hs : Compact size bs) (ho : Compact offset bo)
      (hl : Compact length bl) (hd : data.length = size) :
      OpenFragment ⟨i, size, offset, length, data⟩ (h ++ (bi ++ (bs ++ (bo ++ (bl ++ data)))))

/-- The contents of a data element, or a fragment. -/
inductive LaxContents where
  | body (b : Body)
  | fragment (f : Fragment)

def contentsType : LaxContents → Nat
  | .body b => bodyType b
  | .fragment _ => 6

inductive LaxContentsEnc : LaxContents → Bytes → Prop where
  | storageIndex (items bs) (h : ListEnc LaxIndexItem items bs) :
      LaxContentsEnc (.body (.storageIndex items)) (bs ++ dataElementEnd)
  | legal (b bs) (h : BodyEnc b bs) : LaxContentsEnc (.body b) bs
  | fragment (f bs) (h : OpenFragment f bs) : LaxContentsEnc (.fragment f) bs

structure LaxElement where
  id : ExGuid
  piece : LaxContents

inductive LaxElementEnc : LaxElement → Bytes → Prop where
  | mk (id piece serial h bi bs bt bb) (hh : Start16 .dataElement h) (hi : ExGuidEnc id bi)
      (hs : LaxSerial serial bs) (ht : Compact (contentsType piece) bt) (hb : LaxContentsEnc piece bb) :
      LaxElementEnc ⟨id, piece⟩ (h ++ (bi ++ (bs ++ (bt ++ bb))))

inductive LaxPackage : List LaxElement → Bytes → Prop where
  | mk (es h bs) (hh : Start16 .dataElementPackage h) (he : ListEnc LaxElementEnc es bs) :
      LaxPackage es (h ++ (0 :: (bs ++ end8 (typeCode .dataElementPackage))))

/-- The data elements that are not fragments. -/
def wholeElements (es : List LaxElement) : List Element :=
  es.filterMap fun
    | ⟨id, .body b⟩ => some ⟨id, b⟩
    | _ => none

/-- The fragments with their identifiers. -/
def fragmentsOf (es : List LaxElement) : List (ExGuid × Fragment) :=
  es.filterMap fun
    | ⟨id, .fragment f⟩ => some (id, f)
    | _ => none

/-- The package holding the given elements and fragments. -/
def laxPackageOf (es : List LaxElement) : Package :=
  { packageOf (wholeElements es) with fragments := Map.ofList (fragmentsOf es) }

/-- Everything behind the four leading GUIDs. -/
inductive LaxTail (si : ExGuid) (schema : Guid) (es : List LaxElement) : Bytes → Prop where
  | mk (h bi bp) (hh : Start32 .oneNotePackaging h) (hi : ExGuidEnc si bi)
      (hp : LaxPackage es bp) :
      LaxTail si schema es
        (leBytes 4 0 ++ (h ++ (bi ++ (guid schema ++ (bp ++ end16 (typeCode .oneNotePackaging))))))

/-- The four GUIDs, then the container. -/
inductive LaxContainer (a b c d : Guid) (si : ExGuid) (schema : Guid) (es : List LaxElement) :
    Bytes → Prop where
  | mk (bs) (h : LaxTail si schema es bs) :
      LaxContainer a b c d si schema es (guid a ++ (guid b ++ (guid c ++ (guid d ++ bs))))

/-- A file the code accepts, without what follows the container:
* a package store, or a revision store with a legacy file version: the container itself;
* a revision store without one: the header with its known version numbers, then anything up to
  the end of the transaction log, then the container (whose format field may be anything). -/
inductive LaxFile (a b c d : Guid) (si : ExGuid) (schema : Guid) (es : List LaxElement) :
    Bytes → Prop where
  | packageStore (bs) (hd : d = packageStore) (h : LaxContainer a b c d si schema es bs) :
      LaxFile a b c d si schema es bs
  | legacy (bs) (hd : d = revisionStore) (hc : c ≠ Guid.nil)
      (h : LaxContainer a b c d si schema es bs) : LaxFile a b c d si schema es bs
  | embedded (fileType file : Guid) (f : StoreFields) (skipped bs : Bytes)
      (h1 : KnownVersion f.lastWriterVersion) (h2 : KnownVersion f.oldestWriterVersion)
      (h3 : KnownVersion f.newestWriterVersion) (h4 : KnownVersion f.oldestReaderVersion)
      (hs : f.logStart < 2 ^ 64) (hl : f.logLength < 2 ^ 32)
      (hp : f.logStart + f.logLength < 2 ^ 64)
      (hk : 172 + skipped.length = f.logStart + f.logLength)
      (h : LaxContainer a b c d si schema es bs) :
      LaxFile a b c d si schema es (revisionStoreHead fileType file f ++ (skipped ++ bs))

/-! The legal format, with fragments. -/

/-- A legal data element: an ordinary one, or one that holds a fragment with its end header. -/
inductive LegalElement : Bytes → Prop where
  | ordinary (e : Element) (bs) (h : ElementEnc e bs) : LegalElement bs
  | fragment (id : ExGuid) (f : Fragment) (bs) (h : FragmentElementEnc id f bs) : LegalElement bs

inductive LegalElements : Bytes → Prop where
  | nil : LegalElements []
  | cons (b bs) (h : LegalElement b) (hs : LegalElements bs) : LegalElements (b ++ bs)

/-- A legal data element package. -/
inductive LegalPackage : Bytes → Prop where
  | mk (h bs) (hh : Start16 .dataElementPackage h) (he : LegalElements bs) :
      LegalPackage (h ++ (0 :: (bs ++ end8 (typeCode .dataElementPackage))))

end OneNote.Spec
