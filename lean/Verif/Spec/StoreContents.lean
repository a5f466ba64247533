/-
What the object store of a file contains ([MS-ONESTORE] 2.7): its header, its objects and its roots,
in terms of the data elements of the package. Nothing here mentions the model's parsing functions.
-/
import Verif.Spec.Determinism
import Verif.Spec.PropSet
import Verif.Spec.Fields

namespace OneNote.Spec.StoreContents

open Fields

/-! ### Objects -/

/-- A stream of identifiers whose numbers fit their fields. -/
def StreamFits (l : List CompactId) : Prop := l.length < 2 ^ 24 ∧ ∀ c ∈ l, CompactIdOk c

/-- The bytes begin with these property streams ([MS-ONESTORE] 2.6.1). -/
def PropsAre (data : Bytes) (props : ObjectPropSet) : Prop :=
  ∃ es bs rest, ObjectPropSetEnc props.objectIds props.objectSpaceIds props.contextIds es bs ∧
    StreamFits props.objectIds ∧ StreamFits props.objectSpaceIds ∧ StreamFits props.contextIds ∧
    props.properties = setOf es ∧ data = bs ++ rest

/-- The object's table of references: its identifiers in order, paired with the references of the
object data; a context reference is a cell in the object's own space, any other cell is a reference
to an object space. `C20` says what the table answers. -/
def tableOf (props : ObjectPropSet) (space : ExGuid) (refs : List ExGuid) (cells : List CellId) :
    MappingTable :=
  .fromEntries
    (props.objectIds.zip refs ++
      props.contextIds.zip ((cells.filter fun c => decide (c.snd = space)).map (·.fst)))
    (props.objectSpaceIds.zip (cells.filter fun c => decide (c.snd ≠ space)))

/-- The object `id` as the object group stores it: its kind in partition 4, its properties in
partition 1, and possibly a reference to file data in partition 2. -/
structure ObjectIs (pkg : Package) (cell : CellId) (g : ObjectGroup) (id : ExGuid) (o : Object) :
    Prop where
  context : o.contextId = cell.fst
  kind : ∃ r c rest, storedData g id 4 = some (.object r c (leBytes 4 o.jcId ++ rest)) ∧
    o.jcId < 2 ^ 32
  properties : ∃ refs cells data, storedData g id 1 = some (.object refs cells data) ∧
    PropsAre data o.props ∧ refs.length ≤ o.props.objectIds.length ∧
    o.props.contextIds.length + o.props.objectSpaceIds.length = cells.length ∧
    o.mapping = tableOf o.props cell.snd refs cells
  file : (storedData g id 2 = none ∧ o.fileData = none) ∨
    ∃ r c b blob, storedData g id 2 = some (.blobReference r c b) ∧
      pkg.blobs.get? b = some blob ∧ o.fileData = some blob

/-! ### Object spaces -/

/-- The number of a root role: 1 content, 2 metadata, 3 encryption key, 4 version metadata. -/
def roleNumber : RevisionRole → Nat
  | .defaultContent => 1
  | .metadata => 2
  | .encryptionKey => 3
  | .versionMetadata => 4

/-- The history of an object space, newest revision first. -/
structure HistoryIs (pkg : Package) (cell : CellId) (ms : List RevisionManifest) (s : ObjectSpace) :
    Prop where
  /-- Every object group that is referred to exists. -/
  groups : ∀ m ∈ ms, ∀ gid ∈ m.groupReferences, ∃ g, pkg.objectGroups.get? gid = some g
  /-- Every root has one of the four roles. -/
  roles : ∀ m ∈ ms, ∀ d ∈ m.rootDeclare, ∃ role, d.rootId = ⟨rootGuid, roleNumber role⟩
  /-- The root of a role is the one the oldest revision declares (the finding of `C22`). -/
  roots : ∀ role, s.roots.get? role = lastWith (rootsOf ms) ⟨rootGuid, roleNumber role⟩
  /-- An object is the one in the first group that declares it. -/
  present : ∀ id pre g post, groupsOf pkg ms = pre ++ g :: post → (∀ g' ∈ pre, ¬ Declares g' id) →
    Declares g id → g.declarations.length = g.objects.length ∧
      ∃ o, s.getObject id = some o ∧ ObjectIs pkg cell g id o
  /-- There are no other objects. -/
  absent : ∀ id, (∀ g ∈ groupsOf pkg ms, ¬ Declares g id) → s.getObject id = none

/-- The cell manifest `id` leads to the revision `r`: through the manifest's current revision, or
else by being itself the name of a revision. -/
def LeadsTo (pkg : Package) (si : StorageIndex) (id r : ExGuid) : Prop :=
  (∃ c, pkg.cellManifests.get? id = some c ∧ Resolves pkg si c r) ∨
  (¬ (∃ c r', pkg.cellManifests.get? id = some c ∧ Resolves pkg si c r') ∧ Resolves pkg si id r)

/-- Some revision recorded under this serial number. -/
def UnderSerial (si : StorageIndex) (serial : SerialNumber) (r : ExGuid) : Prop :=
  ∃ a m, (a, m) ∈ si.revisionMappings ∧ m.serial = serial ∧ m.revisionMapping = r

/-- The newest revision of a cell: where its cell manifest leads; if it leads nowhere, a revision
recorded under the mapping's serial number. -/
def Newest (pkg : Package) (si : StorageIndex) (m : CellMapping) (r : ExGuid) : Prop :=
  LeadsTo pkg si m.id r ∨
  (¬ (∃ r', LeadsTo pkg si m.id r') ∧ UnderSerial si m.serial r)

/-- The object space of a cell. A cell without a revision is an empty object space if its cell
manifest says so. -/
structure SpaceIs (pkg : Package) (si : StorageIndex) (m : CellMapping) (s : ObjectSpace) : Prop where
  id : s.id = m.cellId.snd
  context : s.context = m.cellId.fst
  contents :
    (∃ r ms, Newest pkg si m r ∧ RevisionChain pkg si r ms ∧ HistoryIs pkg m.cellId ms s) ∨
    ((¬ ∃ r, Newest pkg si m r) ∧ pkg.cellManifests.get? m.id = some ExGuid.nil ∧
      (∀ id, s.getObject id = none) ∧ ∀ role, s.roots.get? role = none)

/-! ### The header -/

/-- [MS-ONESTORE] 2.7.4: the properties of the store's header. -/
structure HeaderProps (ps : PropertySet) (h : StoreHeader) : Prop where
  fileIdentity : Required ps 0x1C001D94 Value.guid h.fileIdentity
  ancestorIdentity : Required ps 0x1C001D95 Value.guid h.ancestorIdentity
  lastCodeVersion : Optional ps 0x14001D99 Value.u32 h.lastCodeVersionThatWroteToIt
  fileNameCrc : Required ps 0x14001D93 Value.u32 h.fileNameCrc

/-- The header is the first object data (partition 1) of the object group. -/
def HeaderIn (g : ObjectGroup) (h : StoreHeader) : Prop :=
  ∃ pre d refs cells data post props,
    g.declarations.zip g.objects = pre ++ (d, .object refs cells data) :: post ∧
    (∀ e ∈ pre, (declared e.1).2 ≠ 1) ∧ (declared d).2 = 1 ∧
    PropsAre data props ∧ HeaderProps props.properties h

/-- The revision of the header cell: as `Newest`, except that the serial number may be that of any
cell mapping with the same cell manifest. -/
def HeaderRevision (pkg : Package) (si : StorageIndex) (id r : ExGuid) : Prop :=
  LeadsTo pkg si id r ∨
  (¬ (∃ r', LeadsTo pkg si id r') ∧
    ∃ c m, (c, m) ∈ si.cellMappings ∧ m.id = id ∧ UnderSerial si m.serial r)

/-- The header is in the first object group of the revision; all its groups must exist. -/
def HeaderIs (pkg : Package) (si : StorageIndex) (id : ExGuid) (h : StoreHeader) : Prop :=
  ∃ r rm gid gids g, HeaderRevision pkg si id r ∧ pkg.revisionManifests.get? r = some rm ∧
    rm.groupReferences = gid :: gids ∧ pkg.objectGroups.get? gid = some g ∧
    (∀ i ∈ gids, ∃ g', pkg.objectGroups.get? i = some g') ∧ HeaderIn g h

/-! ### The store -/

/-- The storage index: the one the packaging header names, or else any. -/
def IndexIs (p : Packaging) (si : StorageIndex) : Prop :=
  p.package.storageIndexes.get? p.storageIndex = some si ∨
  (p.package.storageIndexes.get? p.storageIndex = none ∧ ∃ i, (i, si) ∈ p.package.storageIndexes)

/-- `{{1A5A319C-C26B-41AA-B9C5-9BD8C44E07D4}, 1}` -/
def headerRootId : ExGuid :=
  ⟨⟨0x1A, 0x5A, 0x31, 0x9C, 0xC2, 0x6B, 0x41, 0xAA, 0xB9, 0xC5, 0x9B, 0xD8, 0xC4, 0x4E, 0x07, 0xD4⟩, 1⟩

/-- `{{84DEFAB9-AAA3-4A0D-A3A8-520C77AC7073}, 2}` -/
def defaultRootId : ExGuid :=
  ⟨⟨0x84, 0xDE, 0xFA, 0xB9, 0xAA, 0xA3, 0x4A, 0x0D, 0xA3, 0xA8, 0x52, 0x0C, 0x77, 0xAC, 0x70, 0x73⟩, 2⟩

/-- The cells other than the header and the data root that are not empty. -/
def IsOther (si : StorageIndex) (hc dc c : CellId) (m : CellMapping) : Prop :=
  si.cellMappings.get? c = some m ∧ m.id ≠ ExGuid.nil ∧ c ≠ hc ∧ c ≠ dc

/-- The store a package holds. -/
def StoreIs (p : Packaging) (s : Store) : Prop :=
  ∃ si sm hc dc, IndexIs p si ∧ (∃ i, (i, sm) ∈ p.package.storageManifests) ∧
    s.schema = sm.id ∧
    sm.roots.get? headerRootId = some hc ∧
    (∃ m, si.cellMappings.get? hc = some m ∧ HeaderIs p.package si m.id s.header) ∧
    sm.roots.get? defaultRootId = some dc ∧
    (∃ m, si.cellMappings.get? dc = some m ∧ SpaceIs p.package si m s.dataRoot) ∧
    (∀ c m, IsOther si hc dc c m →
      ∃ space, s.objectSpaces.get? c = some space ∧ SpaceIs p.package si m space) ∧
    ∀ c, (¬ ∃ m, IsOther si hc dc c m) → s.objectSpaces.get? c = none

/-! ### Equality up to the order of hash maps -/

/-- Two object spaces answer every question in the same way. -/
structure SameSpace (s s' : ObjectSpace) : Prop where
  id : s.id = s'.id
  context : s.context = s'.context
  roots : ∀ role, s.roots.get? role = s'.roots.get? role
  objects : ∀ id, s.getObject id = s'.getObject id

/-- Both absent, or both present and the same. -/
def SameOption (R : α → α → Prop) : Option α → Option α → Prop
  | none, none => True
  | some a, some b => R a b
  | _, _ => False

/-- Two stores answer every question in the same way. -/
structure SameContents (s s' : Store) : Prop where
  schema : s.schema = s'.schema
  header : s.header = s'.header
  dataRoot : SameSpace s.dataRoot s'.dataRoot
  spaces : ∀ c, SameOption SameSpace (s.objectSpaces.get? c) (s'.objectSpaces.get? c)

end OneNote.Spec.StoreContents
