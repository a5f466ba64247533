/-
Tables of contents with given entries, for the concrete cases beside the theorems.
-/
import Verif.Model.Notebook
import Verif.Spec.SampleObject
import Verif.Spec.Utf16

namespace OneNote.Spec

/-- Identifier of the `n`-th sample object. -/
def sampleId (n : Nat) : ExGuid := ⟨default, n⟩

/-- A leaf of a table of contents. -/
def tocLeaf (e : Nat × Text) : Object :=
  sampleObject PropertySetId.tocContainer.asJcid
    [(.folderChildFilename, .vec (utf16 e.2 ++ [0, 0])), (.notebookElementOrderingId, .u32 e.1)]

/-- A folder of a table of contents. -/
def tocFolder (children : List ExGuid) : Object :=
  sampleObject PropertySetId.tocContainer.asJcid [(.tocChildren, .objectIds children.length)] children

/-- A table of contents: a root with the first entry and a folder with the other entries. -/
def sampleToc (first : Nat × Text) (rest : List (Nat × Text)) : ObjectSpace :=
  { id := sampleId 0, context := sampleId 0
    roots := [(.defaultContent, sampleId 1)]
    objects :=
      (sampleId 1, tocFolder [sampleId 2, sampleId 3]) ::
      (sampleId 2, tocLeaf first) ::
      (sampleId 3, tocFolder ((List.range rest.length).map fun i => sampleId (4 + i))) ::
      rest.zipIdx.map fun e => (sampleId (4 + e.2), tocLeaf e.1) }

end OneNote.Spec
