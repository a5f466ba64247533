/-
Renaming the identifiers of a file renames those of its store.
-/
import Verif.Lemmas.Arrange
import Verif.Spec.Rename

namespace OneNote.Rename

open Spec Spec.StoreContents

/-! ### Maps -/

section
variable {K K' V V' : Type} [DecidableEq K] [DecidableEq K']

/-- A map with other keys and values. -/
def both (f : K → K') (g : V → V') (m : Map K V) : Map K' V' := m.map fun e => (f e.1, g e.2)

variable {f : K → K'} (hf : ∀ a b, f a = f b → a = b) (g : V → V')

include hf in
theorem get?_both (m : Map K V) (k : K) : (both f g m).get? (f k) = (m.get? k).map g := by
  induction m with
  | nil => rfl
  | cons e m ih =>
    simp only [both, List.map_cons, Map.get?]
    by_cases h : e.1 = k
    · rw [if_pos h, if_pos (congrArg f h)]; rfl
    · rw [if_neg h, if_neg fun h' => h (hf _ _ h')]
      exact ih

include hf in
theorem insert_both (m : Map K V) (k : K) (v : V) :
    (both f g m).insert (f k) (g v) = both f g (m.insert k v) := by
  simp only [both, Map.insert, List.map_append, List.map_cons, List.map_nil, List.filter_map]
  congr 2
  refine List.filter_congr fun e _ => ?_
  by_cases h : e.1 = k
  · simp [h]
  · have : f e.1 ≠ f k := fun h' => h (hf _ _ h')
    simp [h, this]

include hf in
theorem extend_both (m : Map K V) (es : List (K × V)) :
    (both f g m).extend (es.map fun e => (f e.1, g e.2)) = both f g (m.extend es) := by
  induction es generalizing m with
  | nil => rfl
  | cons e es ih =>
    show ((both f g m).insert (f e.1) (g e.2)).extend _ = both f g ((m.insert e.1 e.2).extend es)
    rw [insert_both hf g]
    exact ih _

include hf in
theorem ofList_both (es : List (K × V)) :
    Map.ofList (es.map fun e => (f e.1, g e.2)) = both f g (Map.ofList es) :=
  extend_both hf g [] es

include hf in
theorem lastWith_both (es : List (K × V)) (k : K) :
    lastWith (es.map fun e => (f e.1, g e.2)) (f k) = (lastWith es k).map g := by
  rw [← Map.get?_ofList, ofList_both hf g, get?_both hf g, Map.get?_ofList]

theorem mem_both {m : Map K V} {k' : K'} {v' : V'} :
    (k', v') ∈ both f g m ↔ ∃ k v, (k, v) ∈ m ∧ f k = k' ∧ g v = v' := by
  simp only [both, List.mem_map, Prod.mk.injEq, Prod.exists]

end

/-! ### Mapping tables -/

/-- A table with other values. -/
def table {T T' : Type} (g : T → T') (t : IdTable T) : IdTable T' :=
  both (fun c => c) (fun l => l.map fun e => (e.1, g e.2)) t

theorem id_inj {α : Type} (a b : α) (h : (fun c : α => c) a = (fun c => c) b) : a = b := h

theorem foldl_push {T T' : Type} (g : T → T') (es : List ((CompactId × T) × Nat)) (t : IdTable T) :
    (es.map fun e => ((e.1.1, g e.1.2), e.2)).foldl MappingTable.push (table g t) =
      table g (es.foldl MappingTable.push t) := by
  induction es generalizing t with
  | nil => rfl
  | cons e es ih =>
    rw [List.map_cons, List.foldl_cons, List.foldl_cons, ← ih]
    congr 1
    simp only [MappingTable.push, table]
    rw [get?_both id_inj, ← insert_both id_inj]
    congr 1
    cases t.get? e.1.1 <;> simp

theorem tableOf_map {T T' : Type} (g : T → T') (es : List (CompactId × T)) :
    MappingTable.tableOf (es.map fun e => (e.1, g e.2)) = table g (MappingTable.tableOf es) := by
  have := foldl_push g es.zipIdx []
  rw [MappingTable.tableOf, MappingTable.tableOf, ← this, List.zipIdx_map]
  rfl

theorem lookup_table {T T' : Type} (g : T → T') (i : Nat) (c : CompactId) (t : IdTable T) :
    MappingTable.lookup i c (table g t) = (MappingTable.lookup i c t).map g := by
  have h : (table g t).get? c = (t.get? c).map _ := get?_both id_inj _ t c
  unfold MappingTable.lookup
  rw [h]
  match t.get? c with
  | none => rfl
  | some [] => rfl
  | some [(_, _)] => rfl
  | some (a :: b :: l) =>
    show Option.map Prod.snd (List.find? (fun e => decide (e.1 = i))
      ((a :: b :: l).map fun e => (e.1, g e.2))) = _
    rw [List.find?_map, Option.map_map]
    show _ = Option.map g (Option.map Prod.snd (List.find? (fun e => decide (e.1 = i)) (a :: b :: l)))
    rw [Option.map_map]
    rfl

/-! ### The renamed store -/

variable (r : Renaming)

theorem new_inj (a b : ExGuid) (h : r.new a = r.new b) : a = b := by
  rw [← r.old_new a, h, r.old_new]

theorem cell_inj (a b : CellId) (h : r.cell a = r.cell b) : a = b := by
  obtain ⟨a1, a2⟩ := a
  obtain ⟨b1, b2⟩ := b
  simp only [Renaming.cell, CellId.mk.injEq] at h
  rw [new_inj r _ _ h.1, new_inj r _ _ h.2]

theorem new_eq {a b : ExGuid} : r.new a = r.new b ↔ a = b := ⟨new_inj r a b, fun h => h ▸ rfl⟩

theorem new_nil {a : ExGuid} : r.new a = ExGuid.nil ↔ a = ExGuid.nil := by
  conv => lhs; rw [← r.reserved ExGuid.nil (by simp [reservedIds])]
  exact new_eq r

theorem new_role (role : RevisionRole) :
    r.new ⟨rootGuid, roleNumber role⟩ = ⟨rootGuid, roleNumber role⟩ :=
  r.reserved _ (by cases role <;> simp [reservedIds, roleNumber])

theorem exists_new {p : ExGuid → Prop} : (∃ i, p i) ↔ ∃ i, p (r.new i) :=
  ⟨fun ⟨i, h⟩ => ⟨r.old i, by rw [r.new_old]; exact h⟩, fun ⟨i, h⟩ => ⟨_, h⟩⟩

theorem cell_old (c : CellId) : r.cell ⟨r.old c.fst, r.old c.snd⟩ = c := by
  simp only [Renaming.cell, r.new_old]

def mapping (m : CellMapping) : CellMapping := ⟨r.cell m.cellId, r.new m.id, m.serial⟩

def revisionMapping (m : RevisionMapping) : RevisionMapping := ⟨r.new m.revisionMapping, m.serial⟩

def index (si : StorageIndex) : StorageIndex where
  manifestMappings := si.manifestMappings.map fun m => ⟨r.new m.mappingId, m.serial⟩
  cellMappings := both r.cell (mapping r) si.cellMappings
  revisionMappings := both r.new (revisionMapping r) si.revisionMappings

def storageManifest (sm : StorageManifest) : StorageManifest := ⟨sm.id, both r.new r.cell sm.roots⟩

def revision (m : RevisionManifest) : RevisionManifest where
  revId := r.new m.revId
  baseRevId := r.new m.baseRevId
  rootDeclare := m.rootDeclare.map fun d => ⟨r.new d.rootId, r.new d.objectId⟩
  groupReferences := m.groupReferences.map r.new

def group (g : ObjectGroup) : ObjectGroup :=
  ⟨g.declarations.map r.declaration, g.metadata, g.objects.map r.groupData⟩

def package (pkg : Package) : Package where
  storageIndexes := both r.new (index r) pkg.storageIndexes
  storageManifests := both r.new (storageManifest r) pkg.storageManifests
  cellManifests := both r.new r.new pkg.cellManifests
  revisionManifests := both r.new (revision r) pkg.revisionManifests
  objectGroups := both r.new (group r) pkg.objectGroups
  fragments := both r.new (fun f => { f with id := r.new f.id }) pkg.fragments
  blobs := both r.new (fun b => b) pkg.blobs

/-- An object with its references renamed. -/
@[reducible] def object (o : Object) : Object where
  contextId := r.new o.contextId
  jcId := o.jcId
  props := o.props
  fileData := o.fileData
  mapping := ⟨table r.new o.mapping.objects, table r.cell o.mapping.objectSpaces⟩

def space (s : ObjectSpace) : ObjectSpace where
  id := r.new s.id
  context := r.new s.context
  roots := both (fun role => role) r.new s.roots
  objects := both r.new (object r) s.objects

def store (s : Store) : Store where
  schema := s.schema
  header := s.header
  dataRoot := space r s.dataRoot
  objectSpaces := both r.cell (space r) s.objectSpaces

theorem space_object (s : ObjectSpace) (id : ExGuid) :
    (space r s).getObject (r.new id) = (s.getObject id).map (object r) :=
  get?_both (new_inj r) _ _ _

theorem space_root (s : ObjectSpace) (role : RevisionRole) :
    (space r s).roots.get? role = (s.roots.get? role).map r.new :=
  get?_both id_inj _ _ _

theorem store_space (s : Store) (c : CellId) :
    (store r s).objectSpace (r.cell c) = (s.objectSpace c).map (space r) :=
  get?_both (cell_inj r) _ _ _

/-! ### The package -/

theorem filterMap_map_comm {α α' β β' : Type} {f : α → Option β} {f' : α' → Option β'} {g : α → α'}
    {h : β → β'} (hx : ∀ a, f' (g a) = (f a).map h) (l : List α) :
    (l.map g).filterMap f' = (l.filterMap f).map h := by
  induction l with
  | nil => rfl
  | cons a l ih =>
    rw [List.map_cons, List.filterMap_cons, List.filterMap_cons, hx]
    cases f a <;> simp [ih]

theorem index_of (items : List IndexItem) :
    indexOf (items.map r.indexItem) = index r (indexOf items) := by
  unfold indexOf index
  congr 1
  · exact filterMap_map_comm (fun a => by cases a <;> rfl) _
  · rw [← ofList_both (cell_inj r)]
    exact congrArg Map.ofList (filterMap_map_comm (fun a => by cases a <;> rfl) _)
  · rw [← ofList_both (new_inj r)]
    exact congrArg Map.ofList (filterMap_map_comm (fun a => by cases a <;> rfl) _)

theorem revision_of (i b : ExGuid) (items : List RevisionItem) :
    revisionOf (r.new i) (r.new b) (items.map r.revisionItem) = revision r (revisionOf i b items) := by
  unfold revisionOf revision
  congr 1
  · exact filterMap_map_comm (fun a => by cases a <;> rfl) _
  · exact filterMap_map_comm (fun a => by cases a <;> rfl) _

theorem whole_map (es : List LaxElement) :
    wholeElements (es.map r.element) =
      (wholeElements es).map fun e => ⟨r.new e.id, r.body e.body⟩ :=
  filterMap_map_comm (fun e => by obtain ⟨i, b | f⟩ := e <;> rfl) _

theorem package_of (es : List LaxElement) :
    laxPackageOf (es.map r.element) = package r (laxPackageOf es) := by
  unfold laxPackageOf packageOf package
  simp only [whole_map]
  generalize wholeElements es = ws
  congr 1
  · rw [← ofList_both (new_inj r)]
    refine congrArg Map.ofList (filterMap_map_comm (fun e => ?_) _)
    obtain ⟨i, b⟩ := e
    cases b <;> first | rfl | (simp only [Renaming.body, index_of]; rfl)
  · rw [← ofList_both (new_inj r)]
    refine congrArg Map.ofList (filterMap_map_comm (fun e => ?_) _)
    obtain ⟨i, b⟩ := e
    cases b <;> first
      | rfl
      | (simp only [Renaming.body, ofList_both (new_inj r)]; rfl)
  · rw [← ofList_both (new_inj r)]
    refine congrArg Map.ofList (filterMap_map_comm (fun e => ?_) _)
    obtain ⟨i, b⟩ := e
    cases b <;> rfl
  · rw [← ofList_both (new_inj r)]
    refine congrArg Map.ofList (filterMap_map_comm (fun e => ?_) _)
    obtain ⟨i, b⟩ := e
    cases b <;> first | rfl | (simp only [Renaming.body, revision_of]; rfl)
  · rw [← ofList_both (new_inj r)]
    refine congrArg Map.ofList (filterMap_map_comm (fun e => ?_) _)
    obtain ⟨i, b⟩ := e
    cases b <;> rfl
  · rw [← ofList_both (new_inj r)]
    refine congrArg Map.ofList (filterMap_map_comm (fun e => ?_) _)
    obtain ⟨i, b | f⟩ := e <;> rfl
  · rw [← ofList_both (new_inj r)]
    refine congrArg Map.ofList (filterMap_map_comm (fun e => ?_) _)
    obtain ⟨i, b⟩ := e
    cases b <;> rfl

/-! ### What the package describes -/

section
variable {pkg : Package} {si : StorageIndex}

theorem resolves {id x : ExGuid} :
    Resolves (package r pkg) (index r si) (r.new id) (r.new x) ↔ Resolves pkg si id x := by
  have h : (index r si).revisionMappings.get? (r.new id) = (si.revisionMappings.get? id).map _ :=
    get?_both (new_inj r) _ _ _
  have h' : (package r pkg).revisionManifests.get? (r.new id) = (pkg.revisionManifests.get? id).map _ :=
    get?_both (new_inj r) _ _ _
  unfold Resolves
  rw [h, h']
  cases si.revisionMappings.get? id with
  | none => simp [new_eq]
  | some m => exact new_eq r

theorem chain {x : ExGuid} {ms : List RevisionManifest} (h : RevisionChain pkg si x ms) :
    RevisionChain (package r pkg) (index r si) (r.new x) (ms.map (revision r)) := by
  have get : ∀ {id m}, pkg.revisionManifests.get? id = some m →
      (package r pkg).revisionManifests.get? (r.new id) = some (revision r m) := by
    intro id m h
    have := get?_both (new_inj r) (revision r) pkg.revisionManifests id
    rw [h] at this
    exact this
  induction h with
  | oldest x m hm hb => exact .oldest _ _ (get hm) ((new_nil r).2 hb)
  | based x b m ms hm hb hr _ ih =>
    exact .based _ _ _ _ (get hm) (fun h => hb ((new_nil r).1 h)) ((resolves r).2 hr) ih

theorem cellManifest (id : ExGuid) :
    (package r pkg).cellManifests.get? (r.new id) = (pkg.cellManifests.get? id).map r.new :=
  get?_both (new_inj r) _ _ _

theorem current {id : ExGuid} {p p' : ExGuid → Prop} (h : ∀ c, p' (r.new c) ↔ p c) :
    (∃ c, (package r pkg).cellManifests.get? (r.new id) = some c ∧ p' c) ↔
      ∃ c, pkg.cellManifests.get? id = some c ∧ p c := by
  rw [cellManifest]
  constructor
  · rintro ⟨c, hc, hp⟩
    obtain ⟨c0, h0, rfl⟩ := Option.map_eq_some_iff.1 hc
    exact ⟨c0, h0, (h c0).1 hp⟩
  · rintro ⟨c, hc, hp⟩
    exact ⟨r.new c, by rw [hc]; rfl, (h c).2 hp⟩

theorem resolves_some {id : ExGuid} :
    (∃ x, Resolves (package r pkg) (index r si) (r.new id) x) ↔ ∃ x, Resolves pkg si id x := by
  rw [exists_new r]
  simp only [resolves]

theorem leadsTo {id x : ExGuid} :
    LeadsTo (package r pkg) (index r si) (r.new id) (r.new x) ↔ LeadsTo pkg si id x := by
  unfold LeadsTo
  simp only [exists_and_left]
  rw [current r (p := fun c => Resolves pkg si c x) (fun c => resolves r),
    current r (p := fun c => ∃ y, Resolves pkg si c y) (fun c => resolves_some r), resolves]

theorem leadsTo_some {id : ExGuid} :
    (∃ x, LeadsTo (package r pkg) (index r si) (r.new id) x) ↔ ∃ x, LeadsTo pkg si id x := by
  rw [exists_new r]
  simp only [leadsTo]

theorem underSerial {serial : SerialNumber} {x : ExGuid} :
    UnderSerial (index r si) serial (r.new x) ↔ UnderSerial si serial x := by
  constructor
  · rintro ⟨a, m, hm, hs, hx⟩
    obtain ⟨a0, m0, h0, rfl, rfl⟩ := (mem_both _).1 hm
    exact ⟨a0, m0, h0, hs, new_inj r _ _ hx⟩
  · rintro ⟨a, m, hm, hs, rfl⟩
    exact ⟨_, _, (mem_both _).2 ⟨a, m, hm, rfl, rfl⟩, hs, rfl⟩

theorem newest {m : CellMapping} {x : ExGuid} :
    Newest (package r pkg) (index r si) (mapping r m) (r.new x) ↔ Newest pkg si m x := by
  unfold Newest
  rw [show (mapping r m).id = r.new m.id from rfl, show (mapping r m).serial = m.serial from rfl,
    leadsTo, leadsTo_some, underSerial]

theorem newest_some {m : CellMapping} :
    (∃ x, Newest (package r pkg) (index r si) (mapping r m) x) ↔ ∃ x, Newest pkg si m x := by
  rw [exists_new r]
  simp only [newest]

/-! Objects -/

theorem groups_of (ms : List RevisionManifest) :
    groupsOf (package r pkg) (ms.map (revision r)) = (groupsOf pkg ms).map (group r) := by
  unfold groupsOf
  induction ms with
  | nil => rfl
  | cons m ms ih =>
    rw [List.map_cons, List.flatMap_cons, List.flatMap_cons, ih, List.map_append]
    congr 1
    exact filterMap_map_comm (fun a => get?_both (new_inj r) _ _ _) _

theorem declared_new (d : Declaration) :
    declared (r.declaration d) = (r.new (declared d).1, (declared d).2) := by
  cases d <;> rfl

theorem declares {g : ObjectGroup} {id : ExGuid} : Declares (group r g) (r.new id) ↔ Declares g id := by
  constructor
  · rintro ⟨d, hd, hi⟩
    obtain ⟨d0, h0, rfl⟩ := List.mem_map.1 hd
    rw [declared_new] at hi
    exact ⟨d0, h0, new_inj r _ _ hi⟩
  · rintro ⟨d, hd, rfl⟩
    exact ⟨_, List.mem_map.2 ⟨d, hd, rfl⟩, by rw [declared_new]⟩

theorem pair_inj (a b : ExGuid × Nat) (h : (fun e : ExGuid × Nat => (r.new e.1, e.2)) a =
    (fun e => (r.new e.1, e.2)) b) : a = b := by
  obtain ⟨a1, a2⟩ := a
  obtain ⟨b1, b2⟩ := b
  simp only [Prod.mk.injEq] at h
  rw [new_inj r _ _ h.1, h.2]

theorem zip_map (g : ObjectGroup) :
    (group r g).declarations.zip (group r g).objects =
      (g.declarations.zip g.objects).map fun e => (r.declaration e.1, r.groupData e.2) :=
  List.zip_map ..

theorem stored_data (g : ObjectGroup) (id : ExGuid) (part : Nat) :
    storedData (group r g) (r.new id) part = (storedData g id part).map r.groupData := by
  unfold storedData
  rw [← lastWith_both (pair_inj r), zip_map, List.map_map, List.map_map]
  congr 1
  refine List.map_congr_left fun e _ => ?_
  simp only [Function.comp, declared_new]

theorem table_of (props : ObjectPropSet) (sp : ExGuid) (refs : List ExGuid) (cells : List CellId) :
    tableOf props (r.new sp) (refs.map r.new) (cells.map r.cell) =
      ⟨table r.new (tableOf props sp refs cells).objects,
        table r.cell (tableOf props sp refs cells).objectSpaces⟩ := by
  have h1 : ∀ c : CellId, ((r.cell c).snd = r.new sp) = (c.snd = sp) := fun c =>
    propext (new_eq r)
  simp only [tableOf, MappingTable.fromEntries]
  congr 1
  · rw [← tableOf_map]
    congr 1
    rw [List.map_append]
    congr 1
    · rw [List.zip_map_right]; rfl
    · simp only [List.filter_map, Function.comp_def, h1, List.map_map]
      rw [show (fun x : CellId => (r.cell x).fst) = r.new ∘ (fun x => x.fst) from rfl, ← List.map_map,
        List.zip_map_right]
      rfl
  · rw [← tableOf_map]
    congr 1
    simp only [List.filter_map, Function.comp_def, ne_eq, h1]
    rw [List.zip_map_right]
    rfl

theorem object_is {cell : CellId} {g : ObjectGroup} {id : ExGuid} {o : Object}
    (h : ObjectIs pkg cell g id o) :
    ObjectIs (package r pkg) (r.cell cell) (group r g) (r.new id) (object r o) := by
  constructor
  · show r.new o.contextId = _
    rw [h.context]
    rfl
  · obtain ⟨a, c, rest, hs, hj⟩ := h.kind
    exact ⟨_, _, rest, by rw [stored_data, hs]; rfl, hj⟩
  · obtain ⟨refs, cells, data, hs, hp, hl, hc, ht⟩ := h.properties
    refine ⟨_, _, data, by rw [stored_data, hs]; rfl, hp, by rw [List.length_map]; exact hl,
      by rw [List.length_map]; exact hc, ?_⟩
    show MappingTable.mk _ _ = _
    rw [ht]
    exact (table_of r _ _ _ _).symm
  · rcases h.file with ⟨hs, hf⟩ | ⟨a, c, b, blob, hs, hb, hf⟩
    · exact .inl ⟨by rw [stored_data, hs]; rfl, hf⟩
    · refine .inr ⟨_, _, _, blob, by rw [stored_data, hs]; rfl, ?_, hf⟩
      have := get?_both (new_inj r) (fun b : Bytes => b) pkg.blobs b
      rw [hb] at this
      exact this

theorem roots_of (ms : List RevisionManifest) :
    rootsOf (ms.map (revision r)) = (rootsOf ms).map fun e => (r.new e.1, r.new e.2) := by
  unfold rootsOf
  induction ms with
  | nil => rfl
  | cons m ms ih =>
    rw [List.map_cons, List.flatMap_cons, List.flatMap_cons, ih, List.map_append]
    congr 1
    simp [revision]

theorem history_is {cell : CellId} {ms : List RevisionManifest} {s : ObjectSpace}
    (h : HistoryIs pkg cell ms s) :
    HistoryIs (package r pkg) (r.cell cell) (ms.map (revision r)) (space r s) := by
  constructor
  · intro m' hm' gid' hg'
    obtain ⟨m, hm, rfl⟩ := List.mem_map.1 hm'
    obtain ⟨gid, hg, rfl⟩ := List.mem_map.1 hg'
    obtain ⟨g, hgg⟩ := h.groups m hm gid hg
    have := get?_both (new_inj r) (group r) pkg.objectGroups gid
    rw [hgg] at this
    exact ⟨_, this⟩
  · intro m' hm' d' hd'
    obtain ⟨m, hm, rfl⟩ := List.mem_map.1 hm'
    obtain ⟨d, hd, rfl⟩ := List.mem_map.1 hd'
    obtain ⟨role, hr⟩ := h.roles m hm d hd
    exact ⟨role, by show r.new d.rootId = _; rw [hr, new_role]⟩
  · intro role
    rw [space_root, h.roots role, roots_of, ← lastWith_both (new_inj r), new_role]
  · intro id' pre' g' post' hs hpre hd
    rw [groups_of] at hs
    obtain ⟨pre, l, hl, rfl, hl'⟩ := List.map_eq_append_iff.1 hs
    obtain ⟨g, post, rfl, rfl, rfl⟩ := List.map_eq_cons_iff.1 hl'
    rw [← r.new_old id'] at hpre hd ⊢
    obtain ⟨h1, o, ho, hi⟩ := h.present (r.old id') pre g post hl
      (fun g hg hd => hpre _ (List.mem_map.2 ⟨g, hg, rfl⟩) ((declares r).2 hd)) ((declares r).1 hd)
    refine ⟨by simpa [group] using h1, object r o, by rw [space_object, ho]; rfl, object_is r hi⟩
  · intro id' hn
    rw [← r.new_old id'] at hn ⊢
    rw [space_object, h.absent (r.old id')]
    · rfl
    · intro g hg hd
      refine hn (group r g) ?_ ((declares r).2 hd)
      rw [groups_of]
      exact List.mem_map.2 ⟨g, hg, rfl⟩

theorem space_is {m : CellMapping} {s : ObjectSpace} (h : SpaceIs pkg si m s) :
    SpaceIs (package r pkg) (index r si) (mapping r m) (space r s) := by
  constructor
  · exact congrArg r.new h.id
  · exact congrArg r.new h.context
  · rcases h.contents with ⟨x, ms, hn, hc, hh⟩ | ⟨hn, hm, ho, hr⟩
    · exact .inl ⟨_, _, (newest r).2 hn, chain r hc, history_is r hh⟩
    · refine .inr ⟨by rw [newest_some]; exact hn, ?_, ?_, ?_⟩
      · show (package r pkg).cellManifests.get? (r.new m.id) = _
        rw [cellManifest, hm]
        exact congrArg some ((new_nil r).2 rfl)
      · intro id
        rw [← r.new_old id, space_object, ho]
        rfl
      · intro role
        rw [space_root, hr]
        rfl

/-! The header -/

theorem header_in {g : ObjectGroup} {h : StoreHeader} (hh : HeaderIn g h) : HeaderIn (group r g) h := by
  obtain ⟨pre, d, refs, cells, data, post, props, hz, hpre, hd, hp, hs⟩ := hh
  refine ⟨pre.map fun e => (r.declaration e.1, r.groupData e.2), r.declaration d, refs.map r.new,
    cells.map r.cell, data, post.map fun e => (r.declaration e.1, r.groupData e.2), props, ?_, ?_, ?_,
    hp, hs⟩
  · rw [zip_map, hz, List.map_append, List.map_cons]
    rfl
  · intro e he
    obtain ⟨e0, h0, rfl⟩ := List.mem_map.1 he
    rw [declared_new]
    exact hpre e0 h0
  · rw [declared_new]
    exact hd

theorem header_revision {id x : ExGuid} (h : HeaderRevision pkg si id x) :
    HeaderRevision (package r pkg) (index r si) (r.new id) (r.new x) := by
  rcases h with h | ⟨hn, c, m, hm, rfl, hu⟩
  · exact .inl ((leadsTo r).2 h)
  · exact .inr ⟨by rw [leadsTo_some]; exact hn, _, _, (mem_both _).2 ⟨c, m, hm, rfl, rfl⟩, rfl,
      (underSerial r).2 hu⟩

theorem header_is {id : ExGuid} {h : StoreHeader} (hh : HeaderIs pkg si id h) :
    HeaderIs (package r pkg) (index r si) (r.new id) h := by
  obtain ⟨x, rm, gid, gids, g, hx, hm, hg, hgg, ha, hi⟩ := hh
  have get : ∀ {id g}, pkg.objectGroups.get? id = some g →
      (package r pkg).objectGroups.get? (r.new id) = some (group r g) := by
    intro id m h
    have := get?_both (new_inj r) (group r) pkg.objectGroups id
    rw [h] at this
    exact this
  refine ⟨r.new x, revision r rm, r.new gid, gids.map r.new, group r g, header_revision r hx, ?_, ?_,
    get hgg, ?_, header_in r hi⟩
  · have := get?_both (new_inj r) (revision r) pkg.revisionManifests x
    rw [hm] at this
    exact this
  · show rm.groupReferences.map r.new = _
    rw [hg]
    rfl
  · intro i hi
    obtain ⟨i0, h0, rfl⟩ := List.mem_map.1 hi
    obtain ⟨g', hg'⟩ := ha i0 h0
    exact ⟨_, get hg'⟩

end

/-! The store -/

/-- The packaging with its identifiers renamed (the GUIDs of the file itself do not matter). -/
structure Renamed (p p' : Packaging) : Prop where
  index : p'.storageIndex = r.new p.storageIndex
  package : p'.package = package r p.package

theorem is_other {si : StorageIndex} {hc dc c : CellId} {m : CellMapping} (h : IsOther si hc dc c m) :
    IsOther (index r si) (r.cell hc) (r.cell dc) (r.cell c) (mapping r m) := by
  obtain ⟨hm, hn, h1, h2⟩ := h
  refine ⟨?_, fun h => hn ((new_nil r).1 h), fun h => h1 (cell_inj r _ _ h),
    fun h => h2 (cell_inj r _ _ h)⟩
  have := get?_both (cell_inj r) (mapping r) si.cellMappings c
  rw [hm] at this
  exact this

theorem is_other' {si : StorageIndex} {hc dc c : CellId} {m' : CellMapping}
    (h : IsOther (index r si) (r.cell hc) (r.cell dc) (r.cell c) m') :
    ∃ m, m' = mapping r m ∧ IsOther si hc dc c m := by
  obtain ⟨hm, hn, h1, h2⟩ := h
  have := get?_both (cell_inj r) (mapping r) si.cellMappings c
  have hm : (both r.cell (mapping r) si.cellMappings).get? (r.cell c) = some m' := hm
  rw [this] at hm
  obtain ⟨m, hm', rfl⟩ := Option.map_eq_some_iff.1 hm
  exact ⟨m, rfl, hm', fun h => hn ((new_nil r).2 h), fun h => h1 (h ▸ rfl), fun h => h2 (h ▸ rfl)⟩

theorem store_is {p p' : Packaging} {s : Store} (hp : Renamed r p p') (h : StoreIs p s) :
    StoreIs p' (store r s) := by
  obtain ⟨si, sm, hc, dc, hi, ⟨i, hsm⟩, h3, h4, ⟨m, hm, hh⟩, h6, ⟨m', hm', hd⟩, h8, h9⟩ := h
  have cellGet : ∀ {c m}, si.cellMappings.get? c = some m →
      (index r si).cellMappings.get? (r.cell c) = some (mapping r m) := by
    intro c m h
    have := get?_both (cell_inj r) (mapping r) si.cellMappings c
    rw [h] at this
    exact this
  have rootGet : ∀ {k c}, sm.roots.get? k = some c → k ∈ reservedIds →
      (storageManifest r sm).roots.get? k = some (r.cell c) := by
    intro k c h hk
    have := get?_both (new_inj r) r.cell sm.roots k
    rw [h, r.reserved k hk] at this
    exact this
  unfold StoreIs
  rw [show IndexIs p' = IndexIs ⟨p'.fileType, p'.file, p'.legacyFileVersion, p'.fileFormat,
    r.new p.storageIndex, p'.cellSchema, package r p.package⟩ by rw [← hp.index, ← hp.package], hp.package]
  refine ⟨index r si, storageManifest r sm, r.cell hc, r.cell dc, ?_, ⟨r.new i, ?_⟩, h3,
    rootGet h4 (by simp [reservedIds]), ⟨mapping r m, cellGet hm, header_is r hh⟩,
    rootGet h6 (by simp [reservedIds]), ⟨mapping r m', cellGet hm', space_is r hd⟩, ?_, ?_⟩
  · have := get?_both (new_inj r) (index r) p.package.storageIndexes p.storageIndex
    rcases hi with hi | ⟨hn, i, hi⟩
    · rw [hi] at this
      exact .inl this
    · rw [hn] at this
      exact .inr ⟨this, r.new i, (mem_both _).2 ⟨_, _, hi, rfl, rfl⟩⟩
  · exact (mem_both _).2 ⟨_, _, hsm, rfl, rfl⟩
  · intro c x hx
    rw [← cell_old r c] at hx ⊢
    obtain ⟨x, rfl, hx'⟩ := is_other' r hx
    obtain ⟨sp, hs, hsp⟩ := h8 _ _ hx'
    refine ⟨space r sp, ?_, space_is r hsp⟩
    have := store_space r s ⟨r.old c.fst, r.old c.snd⟩
    rw [show s.objectSpace ⟨r.old c.fst, r.old c.snd⟩ = some sp from hs] at this
    exact this
  · intro c hn
    rw [← cell_old r c] at hn ⊢
    have := store_space r s ⟨r.old c.fst, r.old c.snd⟩
    rw [show s.objectSpace ⟨r.old c.fst, r.old c.snd⟩ = none from
      h9 _ fun ⟨x, hx⟩ => hn ⟨_, is_other r hx⟩] at this
    exact this

/-! ### No ambiguities -/

theorem leadsToRevision {pkg : Package} {si : StorageIndex} {id : ExGuid} :
    LeadsToRevision (package r pkg) (index r si) (r.new id) ↔ LeadsToRevision pkg si id := by
  unfold LeadsToRevision
  simp only [exists_and_left]
  rw [current r (p := fun c => ∃ y, Resolves pkg si c y) (fun c => resolves_some r), resolves_some]

theorem settled {pkg : Package} {si : StorageIndex} {m : CellMapping} (h : Settled pkg si m) :
    Settled (package r pkg) (index r si) (mapping r m) := by
  rcases h with h | ⟨h1, h2⟩
  · exact .inl ((leadsToRevision r).2 h)
  · refine .inr ⟨?_, ?_⟩
    · intro c x hx hi
      obtain ⟨c, x, hx', rfl, rfl⟩ := (mem_both _).1 hx
      exact h1 c x hx' (new_inj r _ _ hi)
    · intro a x a' x' hx hx' hs hs'
      obtain ⟨a, x, h3, rfl, rfl⟩ := (mem_both _).1 hx
      obtain ⟨a', x', h4, rfl, rfl⟩ := (mem_both _).1 hx'
      exact congrArg r.new (h2 a x a' x' h3 h4 hs hs')

theorem unambiguous {p p' : Packaging} (hp : Renamed r p p') (h : Unambiguous p) : Unambiguous p' := by
  constructor
  · rw [hp.index, hp.package]
    rcases h.index with ⟨si, hs⟩ | hl
    · have := get?_both (new_inj r) (index r) p.package.storageIndexes p.storageIndex
      rw [hs] at this
      exact .inl ⟨_, this⟩
    · exact .inr (by simpa [package, both] using hl)
  · rw [hp.package]
    simpa [package, both] using h.manifest
  · rw [hp.package]
    intro i si c m hi hm
    obtain ⟨i, si, hi', rfl, rfl⟩ := (mem_both _).1 hi
    obtain ⟨c, m, hm', rfl, rfl⟩ := (mem_both _).1 hm
    rcases h.cells i si c m hi' hm' with ⟨h1, h2⟩ | h1
    · refine .inl ⟨(new_nil r).2 h1, ?_⟩
      intro j sm root hj hroot
      obtain ⟨j, sm, hj', rfl, rfl⟩ := (mem_both _).1 hj
      obtain ⟨root, c', hroot', rfl, hc⟩ := (mem_both _).1 hroot
      rw [cell_inj r _ _ hc] at hroot'
      exact h2 j sm root hj' hroot'
    · exact .inr (settled r h1)

/-! ### The way back -/

/-- The renaming undone. -/
def undo : Renaming where
  new := r.old
  old := r.new
  old_new := r.new_old
  new_old := r.old_new
  reserved := fun i hi => by
    conv => lhs; rw [← r.reserved i hi]
    exact r.old_new i

theorem undo_cell (c : CellId) : (undo r).cell (r.cell c) = c := by
  simp only [Renaming.cell, undo, r.old_new]

theorem map_undo {α : Type} {f g : α → α} (h : ∀ a, g (f a) = a) (l : List α) :
    (l.map f).map g = l := by
  rw [List.map_map]
  exact (List.map_congr_left fun a _ => h a).trans (List.map_id l)

theorem undo_element (e : LaxElement) : (undo r).element (r.element e) = e := by
  have hn : ∀ i, (undo r).new (r.new i) = i := r.old_new
  have hd : ∀ d, (undo r).declaration (r.declaration d) = d := by
    intro d; cases d <;> simp only [Renaming.declaration, hn]
  have hi : ∀ d, (undo r).indexItem (r.indexItem d) = d := by
    intro d; cases d <;> simp only [Renaming.indexItem, hn, undo_cell]
  have hr : ∀ d, (undo r).revisionItem (r.revisionItem d) = d := by
    intro d; cases d <;> simp only [Renaming.revisionItem, hn]
  have hg : ∀ d, (undo r).groupData (r.groupData d) = d := by
    intro d
    cases d <;> simp only [Renaming.groupData, hn, map_undo hn, map_undo (undo_cell r)]
  obtain ⟨i, b | f⟩ := e
  · simp only [Renaming.element, Renaming.contents, hn]
    congr 2
    cases b with
    | storageManifest g roots =>
      simp only [Renaming.body]
      rw [map_undo fun e => by simp only [hn, undo_cell]]
    | _ => simp only [Renaming.body, hn, map_undo hi, map_undo hr, map_undo hd, map_undo hg]
  · simp only [Renaming.element, Renaming.contents, hn]

theorem undo_elements (es : List LaxElement) : (es.map r.element).map (undo r).element = es :=
  map_undo (undo_element r) es

/-! ### Files -/

theorem files {data data' : Bytes} {si : ExGuid} {es : List LaxElement} (h : HoldsElements data si es)
    (h' : HoldsElements data' (r.new si) (es.map r.element)) :
    (PlainFile data → PlainFile data') ∧ ∀ s, FileStore data s → FileStore data' (store r s) := by
  obtain ⟨a, b, c, d, schema, bs, rest, hl, hd⟩ := h
  obtain ⟨a', b', c', d', schema', bs', rest', hl', hd'⟩ := h'
  have hc : Contains data ⟨a, b, c, d, si, schema, laxPackageOf es⟩ :=
    ⟨a, b, c, d, si, schema, es, bs, rest, hl, hd, rfl⟩
  have hc' : Contains data' ⟨a', b', c', d', r.new si, schema', laxPackageOf (es.map r.element)⟩ :=
    ⟨a', b', c', d', r.new si, schema', es.map r.element, bs', rest', hl', hd', rfl⟩
  have u : ∀ p, Contains data p ↔ p = ⟨a, b, c, d, si, schema, laxPackageOf es⟩ := by
    intro p
    rw [holds_iff, holds_iff.1 hc, Except.ok.injEq, eq_comm]
  have u' : ∀ p, Contains data' p ↔
      p = ⟨a', b', c', d', r.new si, schema', laxPackageOf (es.map r.element)⟩ := by
    intro p
    rw [holds_iff, holds_iff.1 hc', Except.ok.injEq, eq_comm]
  have hr : Renamed r ⟨a, b, c, d, si, schema, laxPackageOf es⟩
      ⟨a', b', c', d', r.new si, schema', laxPackageOf (es.map r.element)⟩ := ⟨rfl, package_of r es⟩
  constructor
  · simp only [PlainFile, u, u', forall_eq]
    exact unambiguous r hr
  · intro s
    simp only [FileStore, u, u', exists_eq_left]
    exact store_is r hr

end OneNote.Rename
