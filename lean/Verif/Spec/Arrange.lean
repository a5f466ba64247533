/-
How data elements are arranged in a file, and which data elements refer to which.
-/
import Verif.Spec.Accepted

namespace OneNote.Spec

/-- The bytes begin with a container that names the storage index `si` and holds the data elements
`es` in this order. The other fields of the container may be anything. -/
def HoldsElements (data : Bytes) (si : ExGuid) (es : List LaxElement) : Prop :=
  ∃ a b c d schema bs rest, LaxFile a b c d si schema es bs ∧ data = bs ++ rest

/-- No two data elements of the same type have the same identifier. -/
def Distinct (es : List LaxElement) : Prop :=
  (es.map fun e => (contentsType e.piece, e.id)).Nodup

/-- A data element with these contents refers to the data element `id`: a storage index to cell
manifests and revisions, a cell manifest to its current revision, a revision to its base and its
object groups, an object group to file data. -/
inductive Refers : LaxContents → ExGuid → Prop where
  | cell {items : List IndexItem} {c : CellId} {id : ExGuid} {serial : SerialNumber} :
      .cell c id serial ∈ items → Refers (.body (.storageIndex items)) id
  | revision {items : List IndexItem} {i id : ExGuid} {serial : SerialNumber} :
      .revision i id serial ∈ items → Refers (.body (.storageIndex items)) id
  | current {id : ExGuid} : Refers (.body (.cellManifest id)) id
  | base {r id : ExGuid} {items : List RevisionItem} : Refers (.body (.revisionManifest r id items)) id
  | group {r b id : ExGuid} {items : List RevisionItem} :
      .group id ∈ items → Refers (.body (.revisionManifest r b items)) id
  | fileData {ds : List Declaration} {os : List GroupData} {refs : List ExGuid} {cells : List CellId}
      {id : ExGuid} : .blobReference refs cells id ∈ os → Refers (.body (.objectGroup ds os)) id

/-- Storage indexes and storage manifests are where reading begins. -/
def IsStart : LaxContents → Prop
  | .body (.storageIndex _) => True
  | .body (.storageManifest _ _) => True
  | _ => False

/-- An ordinary data element. -/
def ordinary (e : Element) : LaxElement := ⟨e.id, .body e.body⟩

end OneNote.Spec
