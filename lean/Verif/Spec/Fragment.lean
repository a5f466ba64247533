/-
Data element fragments and object groups with a metadata block, as
[MS-FSSHTTPB] 2.2.1.12.7 and 2.2.1.12.6.3 describe them.
-/
import Verif.Spec.Container

namespace OneNote.Spec

/-- A data element fragment that holds its whole data element: header, identifier, size, chunk
reference (offset, length), data, and the end header of the data element. -/
inductive FragmentEnc : Fragment → Bytes → Prop where
  | mk (id : ExGuid) (offset length : Nat) (data h bi bs bo bl : Bytes)
      (hh : Start .dataElementFragment h) (hi : ExGuidEnc id bi) (hs : Compact data.length bs)
      (ho : Compact offset bo) (hl : Compact length bl) :
      FragmentEnc ⟨id, data.length, offset, length, data⟩
        (h ++ (bi ++ (bs ++ (bo ++ (bl ++ (data ++ dataElementEnd))))))

/-- A data element of type 6 around a fragment. -/
inductive FragmentElementEnc (id : ExGuid) (f : Fragment) : Bytes → Prop where
  | mk (serial h bi bs bt bb) (hh : Start16 .dataElement h) (hi : ExGuidEnc id bi)
      (hs : SerialEnc serial bs) (ht : Compact 6 bt) (hb : FragmentEnc f bb) :
      FragmentElementEnc id f (h ++ (bi ++ (bs ++ (bt ++ bb))))

/-- The beginning of an object group with a metadata block: the declarations, then the start header
of the metadata block. What follows is unconstrained. -/
inductive MetadataGroupStart (ds : List Declaration) : Bytes → Prop where
  | mk (h bd h') (hh : Start .objectGroupDeclaration h) (hd : ListEnc DeclarationEnc ds bd)
      (hm : Start .objectGroupMetadataBlock h') :
      MetadataGroupStart ds (h ++ (bd ++ (end8 (typeCode .objectGroupDeclaration) ++ h')))

/-- A data element of type 5 starting with such a group. -/
inductive MetadataElementStart (id : ExGuid) (ds : List Declaration) : Bytes → Prop where
  | mk (serial h bi bs bt bb) (hh : Start16 .dataElement h) (hi : ExGuidEnc id bi)
      (hs : SerialEnc serial bs) (ht : Compact 5 bt) (hb : MetadataGroupStart ds bb) :
      MetadataElementStart id ds (h ++ (bi ++ (bs ++ (bt ++ bb))))

end OneNote.Spec
