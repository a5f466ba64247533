/-
Complete section and notebook files with given objects, as bytes. Used for examples and
counterexamples about whole files.
-/
import Verif.Model.Nodes
import Verif.Model.Section
import Verif.Spec.PropSet
import Verif.Spec.Schema
import Verif.Spec.SampleStore
import Verif.Spec.Utf16

namespace OneNote.Spec

mutual

/-- The data bytes of a property. -/
def valueW : PropertyValue → Bytes
  | .u8 v => leBytes 1 v
  | .u16 v => leBytes 2 v
  | .u32 v => leBytes 4 v
  | .u64 v => leBytes 8 v
  | .vec data => leBytes 4 data.length ++ data
  | .objectIds n => leBytes 4 n
  | .objectSpaceIds n => leBytes 4 n
  | .contextIds n => leBytes 4 n
  | .propertyValues id sets => leBytes 4 sets.length ++ (leBytes 4 id ++ setsW sets)
  | .propertySet set => leBytes 2 set.length ++ (idsW set ++ valuesW set)
  | _ => []

/-- The id words of a nested set, whose identifiers are taken to be whole words. -/
def idsW : List (Nat × (Nat × PropertyValue)) → Bytes
  | [] => []
  | (w, _) :: es => leBytes 4 w ++ idsW es

/-- The values of a nested set. -/
def valuesW : List (Nat × (Nat × PropertyValue)) → Bytes
  | [] => []
  | (_, _, v) :: es => valueW v ++ valuesW es

/-- Nested sets, one after the other. -/
def setsW : List (List (Nat × (Nat × PropertyValue))) → Bytes
  | [] => []
  | s :: ss => (leBytes 2 s.length ++ (idsW s ++ valuesW s)) ++ setsW ss

end

/-- The id word of a property: its code, with the top bit for `true`. -/
def wordW (e : PropertyType × PropertyValue) : Nat :=
  match e.2 with
  | .bool true => e.1.code % 2 ^ 31 + 2 ^ 31
  | _ => e.1.code % 2 ^ 31

/-- A nested property set for `PropertyValue.propertyValues`. -/
def nestedW (props : List (PropertyType × PropertyValue)) : List (Nat × (Nat × PropertyValue)) :=
  props.map fun e => (wordW e, (0, e.2))

/-- The property streams of an object whose references have the compact ids 0, 1, 2, … -/
def propsW (refs spaces : Nat) (props : List (PropertyType × PropertyValue)) : Bytes :=
  streamHeader refs 0 false (spaces == 0) ++ (compactIds ((List.range refs).map (⟨·, 0⟩)) ++
    ((if spaces = 0 then [] else
      streamHeader spaces 0 false false ++ compactIds ((List.range spaces).map (⟨·, 1⟩))) ++
    (leBytes 2 props.length ++ ((props.flatMap fun e => leBytes 4 (wordW e)) ++
      props.flatMap fun e => valueW e.2))))

/-- An object with the given number, kind, properties and references. -/
def objectW (id : Nat) (kind : PropertySetId) (props : List (PropertyType × PropertyValue))
    (refs : List Nat := []) (cells : List CellId := []) : SampleObject :=
  { id, jcid := kind.asJcid, refs := refs.map sx, cells,
    props := propsW refs.length cells.length props }

/-- A stored string. -/
def stringW (t : Text) : PropertyValue := .vec (utf16 t ++ [0, 0])

/-- The metadata object of a section. -/
def sectionMetadataW (name : Option Text) : SampleObject :=
  objectW 1001 .sectionMetadata
    ([(.schemaRevisionInOrderToRead, .u32 1), (.schemaRevisionInOrderToWrite, .u32 1)] ++
      (name.map fun n => (PropertyType.sectionDisplayName, stringW n)).toList)

/-- The cell of the sample page. -/
def pageCell : CellId := ⟨sx 5, sx 5⟩

/-- The objects of the data root of a section: metadata, the section and one page series with the
given number of references to the sample page. -/
def sectionObjects (name : Option Text) (pages : Nat) : List SampleObject :=
  [sectionMetadataW name,
   objectW 1000 .sectionNode
     [(.notebookManagementEntityGuid, .vec (guid sampleGuid)), (.elementChildNodes, .objectIds 1),
      (.topologyCreationTimeStamp, .u64 0)] [1002],
   objectW 1002 .pageSeriesNode
     [(.notebookManagementEntityGuid, .vec (guid sampleGuid)),
      (.childGraphSpaceElementNodes, .objectSpaceIds pages)] [] (List.replicate pages pageCell)]

/-- The objects of a page with the given contents. -/
def pageObjects (contents : List Nat) (objects : List SampleObject) : List SampleObject :=
  [objectW 2001 .pageMetadata
     [(.notebookManagementEntityGuid, .vec (guid sampleGuid)), (.cachedTitleString, stringW ['t']),
      (.topologyCreationTimeStamp, .u64 0)],
   objectW 2002 .pageManifestNode [(.contentChildNodes, .objectIds 1)] [2003],
   objectW 2003 .pageNode [(.elementChildNodes, .objectIds contents.length)] contents] ++ objects

/-- A section file without pages. -/
def emptySectionFile (name : Option Text) : Bytes :=
  storeFile sectionGuid [.root contentRole (sx 1000), .root metadataRole (sx 1001)]
    (sectionObjects name 0)

/-- A section file with one page, which has the given contents and further objects. -/
def sectionFile (name : Option Text) (contents : List Nat) (objects : List SampleObject) : Bytes :=
  storeFile sectionGuid [.root contentRole (sx 1000), .root metadataRole (sx 1001)]
    (sectionObjects name 1)
    [(pageCell, 5, [.root contentRole (sx 2002), .root metadataRole (sx 2001)],
      pageObjects contents objects)]

/-- An outline with the given items. -/
def outlineW (id : Nat) (items : List Nat) : SampleObject :=
  objectW id .outlineNode
    [(.lastModifiedTime, .u32 0), (.elementChildNodes, .objectIds items.length),
     (.outlineElementChildLevel, .u8 1), (.rgOutlineIndentDistance, .vec [0, 0, 0, 0])] items

/-- An outline element with children, contents and list nodes. Its authors are object 3000, which
need not exist. -/
def outlineElementW (id : Nat) (children contents lists : List Nat) : SampleObject :=
  objectW id .outlineElementNode
    [(.creationTimeStamp, .u32 0), (.lastModifiedTime, .u32 0),
     (.elementChildNodes, .objectIds children.length), (.outlineElementChildLevel, .u8 1),
     (.contentChildNodes, .objectIds contents.length), (.listNodes, .objectIds lists.length),
     (.authorOriginal, .objectId), (.authorMostRecent, .objectId)]
    (children ++ contents ++ lists ++ [3000, 3000])

/-- A table of contents with one folder of files. -/
def tocFile (entries : List (Nat × Text)) : Bytes :=
  storeFile tocGuid [.root contentRole (sx 1000)]
    (objectW 1000 .tocContainer [(.tocChildren, .objectIds entries.length)]
        ((List.range entries.length).map (4000 + ·)) ::
      entries.zipIdx.map fun e => objectW (4000 + e.2) .tocContainer
        [(.folderChildFilename, stringW e.1.2), (.notebookElementOrderingId, .u32 e.1.1)])

end OneNote.Spec
