/-
What is read back from a file written with `Spec.Writer`: its store.
-/
import Verif.Lemmas.WriteObject

namespace OneNote.Writer

open Spec Spec.Writer Spec.StoreContents Spec.Document

/-- The object group of the objects. -/
def groupIn (objs : List Obj) : ObjectGroup :=
  ⟨(objs.flatMap Obj.parts).map Prod.fst, [], (objs.flatMap Obj.parts).map Prod.snd⟩

/-- The object space of a cell. -/
def spaceIn (c : Cell) : ObjectSpace :=
  ⟨sx c.num, sx c.num, [(.defaultContent, sx c.content), (.metadata, sx c.info)],
    c.objects.map fun o => (sx o.id, objectIn c.num o)⟩

/-- The object can be written. -/
structure ObjFits (o : Obj) : Prop where
  id : o.id < 2 ^ 32
  kind : o.kind < 2 ^ 32
  count : o.props.length < 2 ^ 16
  props : ∀ e ∈ o.props, e.2.Fits
  short : ∀ e ∈ o.props, e.2.Short
  bytes : (propsBytes o.refs.length o.cells.length o.props).length < 2 ^ 64
  refs : o.refs.length < 2 ^ 24
  cells : o.cells.length < 2 ^ 24
  refsFit : ∀ r ∈ o.refs, r < 2 ^ 32
  cellsFit : ∀ c ∈ o.cells, CellIdFits c
  blob : ∀ d, o.blob = some d → d.length < 2 ^ 64

theorem same_of_nodup {α β : Type _} {f : α → β} {l : List α} (h : (l.map f).Nodup) {a b : α}
    (ha : a ∈ l) (hb : b ∈ l) (he : f a = f b) : a = b := by
  induction l with
  | nil => exact absurd ha List.not_mem_nil
  | cons x l ih =>
    simp only [List.map_cons, List.nodup_cons] at h
    rcases List.mem_cons.1 ha with rfl | ha' <;> rcases List.mem_cons.1 hb with rfl | hb'
    · rfl
    · exact absurd (List.mem_map.2 ⟨b, hb', he.symm⟩) h.1
    · exact absurd (List.mem_map.2 ⟨a, ha', he⟩) h.1
    · exact ih h.2 ha' hb'

/-! ### Objects -/

/-- The data of the group by object and partition. -/
def partsBy (objs : List Obj) : List ((ExGuid × Nat) × GroupData) :=
  (objs.flatMap Obj.parts).map fun e => (declared e.1, e.2)

theorem stored_eq (objs : List Obj) (id : ExGuid) (part : Nat) :
    storedData (groupIn objs) id part = lastWith (partsBy objs) (id, part) := by
  unfold storedData groupIn partsBy
  simp only [Written.zip_unzip]

theorem part_key {o : Obj} {e : Declaration × GroupData} (h : e ∈ o.parts) :
    (declared e.1).1 = sx o.id := by
  unfold Obj.parts at h
  cases hb : o.blob with
  | none =>
    rw [hb] at h
    simp only [List.cons_append, List.nil_append, List.mem_cons, List.not_mem_nil,
      or_false] at h
    rcases h with rfl | rfl <;> rfl
  | some d =>
    rw [hb] at h
    simp only [List.cons_append, List.nil_append, List.mem_cons, List.not_mem_nil,
      or_false] at h
    rcases h with rfl | rfl | rfl <;> rfl

theorem parts_nodup (o : Obj) : ((o.parts.map fun e => (declared e.1, e.2)).map Prod.fst).Nodup := by
  unfold Obj.parts
  cases o.blob <;> simp [declared]

theorem partsBy_nodup {objs : List Obj} (h : (objs.map (·.id)).Nodup) :
    ((partsBy objs).map Prod.fst).Nodup := by
  induction objs with
  | nil => exact List.nodup_nil
  | cons o objs ih =>
    simp only [List.map_cons, List.nodup_cons] at h
    unfold partsBy at ih ⊢
    rw [List.flatMap_cons, List.map_append, List.map_append, List.nodup_append]
    refine ⟨parts_nodup o, ih h.2, ?_⟩
    intro x hx y hy he
    subst he
    simp only [List.mem_map, List.mem_flatMap] at hx hy
    obtain ⟨_, ⟨e, he, rfl⟩, rfl⟩ := hx
    obtain ⟨_, ⟨e', ⟨o', ho', he'⟩, rfl⟩, hk⟩ := hy
    have h1 := part_key he
    have h2 := part_key he'
    have hk : declared e'.1 = declared e.1 := hk
    rw [hk, h1] at h2
    exact h.1 (List.mem_map.2 ⟨o', ho', (Written.sx_inj h2).symm⟩)

theorem stored {objs : List Obj} (h : (objs.map (·.id)).Nodup) {o : Obj} (ho : o ∈ objs)
    {e : Declaration × GroupData} (he : e ∈ o.parts) :
    storedData (groupIn objs) (declared e.1).1 (declared e.1).2 = some e.2 := by
  rw [stored_eq, lastWith_iff (partsBy_nodup h)]
  exact List.mem_map.2 ⟨e, List.mem_flatMap.2 ⟨o, ho, he⟩, rfl⟩

theorem not_stored {objs : List Obj} (h : (objs.map (·.id)).Nodup) {o : Obj} (ho : o ∈ objs)
    (hb : o.blob = none) : storedData (groupIn objs) (sx o.id) 2 = none := by
  rw [stored_eq]
  cases hl : lastWith (partsBy objs) (sx o.id, 2) with
  | none => rfl
  | some x =>
    exfalso
    obtain ⟨e, he, hx⟩ := List.mem_map.1 (lastWith_mem hl)
    obtain ⟨o', ho', he⟩ := List.mem_flatMap.1 he
    have hd := (Prod.mk.inj hx).1
    have hk := part_key he
    rw [hd] at hk
    have hid : o'.id = o.id := (Written.sx_inj hk).symm
    have ho : o' = o := same_of_nodup h ho' ho hid
    subst ho
    unfold Obj.parts at he
    rw [hb] at he
    simp only [List.append_nil, List.mem_cons, List.not_mem_nil, or_false] at he
    rcases he with rfl | rfl
    · exact absurd (Prod.mk.inj hd).2 (by decide)
    · exact absurd (Prod.mk.inj hd).2 (by decide)

theorem object_is {pkg : Package} {num : Nat} {objs : List Obj} (h : (objs.map (·.id)).Nodup)
    {o : Obj} (ho : o ∈ objs) (hf : ObjFits o)
    (hb : ∀ d, o.blob = some d → pkg.blobs.get? (sx o.id) = some d) :
    ObjectIs pkg (cellId num) (groupIn objs) (sx o.id) (objectIn num o) := by
  refine ⟨rfl, ⟨[], [], [], ?_, hf.kind⟩,
    ⟨o.refs.map sx, o.cells, propsBytes o.refs.length o.cells.length o.props, ?_, ?_, ?_, ?_, rfl⟩, ?_⟩
  · rw [List.append_nil]
    exact stored h ho (e := (.object (sx o.id) 4 0 0 0, .object [] [] (leBytes 4 o.kind))) (by simp [Obj.parts])
  · exact stored h ho (e := (.object (sx o.id) 1 0 0 0, .object (o.refs.map sx) o.cells
      (propsBytes o.refs.length o.cells.length o.props))) (by simp [Obj.parts])
  · exact props_are hf.count hf.props hf.short hf.refs hf.cells
  · show (o.refs.map sx).length ≤ ((List.range o.refs.length).map compactOf).length
    simp
  · show 0 + ((List.range o.cells.length).map compactOf).length = _
    simp
  · cases hd : o.blob with
    | none => exact .inl ⟨not_stored h ho hd, hd⟩
    | some d =>
      refine .inr ⟨[], [], sx o.id, d, ?_, hb d hd, hd⟩
      exact stored h ho (e := (.blob (sx o.id) (sx o.id) 2 0 0, .blobReference [] [] (sx o.id)))
        (by simp [Obj.parts, hd])

/-! ### Cells -/

theorem declares_iff {objs : List Obj} {id : ExGuid} :
    Declares (groupIn objs) id ↔ ∃ o ∈ objs, sx o.id = id := by
  unfold Declares groupIn
  simp only [List.mem_map, List.mem_flatMap]
  constructor
  · rintro ⟨d, ⟨x, ⟨o, ho, hx⟩, rfl⟩, hd⟩
    exact ⟨o, ho, (part_key hx).symm.trans hd⟩
  · rintro ⟨o, ho, rfl⟩
    exact ⟨.object (sx o.id) 4 0 0 0, ⟨_, ⟨o, ho, List.mem_cons_self⟩, rfl⟩, rfl⟩

theorem space_nodup {num : Nat} {objs : List Obj} (h : (objs.map (·.id)).Nodup) :
    ((objs.map fun o => (sx o.id, objectIn num o)).map Prod.fst).Nodup := by
  rw [List.map_map]
  exact List.Pairwise.map _ (fun a b hab he => hab (Written.sx_inj he))
    (List.Pairwise.of_map (S := (· ≠ ·)) _ (fun a b hab he => hab he) h)

theorem get_space {c : Cell} (h : (c.objects.map (·.id)).Nodup) {o : Obj} (ho : o ∈ c.objects) :
    (spaceIn c).getObject (sx o.id) = some (objectIn c.num o) :=
  Map.get?_of_mem (space_nodup h) (List.mem_map.2 ⟨o, ho, rfl⟩)

theorem get_none {c : Cell} {id : ExGuid} (h : ∀ o ∈ c.objects, sx o.id ≠ id) :
    (spaceIn c).getObject id = none := by
  cases hs : (spaceIn c).getObject id with
  | none => rfl
  | some o =>
    obtain ⟨x, hx, he⟩ := List.mem_map.1 (Map.mem_of_get? hs)
    exact absurd (Prod.mk.inj he).1 (h x hx)

/-- The revision of a cell. -/
def revisionFor (c : Cell) : RevisionManifest :=
  revisionOf (sx c.num) ExGuid.nil
    ([.root contentRole (sx c.content), .root metadataRole (sx c.info)] ++ [.group (sx c.num)])

theorem history_is {pkg : Package} {c : Cell} (hn : (c.objects.map (·.id)).Nodup)
    (hf : ∀ o ∈ c.objects, ObjFits o)
    (hb : ∀ o ∈ c.objects, ∀ d, o.blob = some d → pkg.blobs.get? (sx o.id) = some d)
    (hp : pkg.objectGroups.get? (sx c.num) = some (groupIn c.objects)) :
    HistoryIs pkg (cellId c.num) [revisionFor c] (spaceIn c) := by
  have gs : groupsOf pkg [revisionFor c] = [groupIn c.objects] := by
    show (([sx c.num].filterMap pkg.objectGroups.get?) ++ []) = _
    simp only [List.filterMap_cons, hp, List.filterMap_nil, List.append_nil]
  constructor
  · intro m hm gid hgid
    obtain rfl := List.mem_singleton.1 hm
    obtain rfl : gid = sx c.num := List.mem_singleton.1 hgid
    exact ⟨_, hp⟩
  · intro m hm d hd
    obtain rfl := List.mem_singleton.1 hm
    have hd : d ∈ [(⟨contentRole, sx c.content⟩ : RootDeclare), ⟨metadataRole, sx c.info⟩] := hd
    simp only [List.mem_cons, List.not_mem_nil, or_false] at hd
    rcases hd with rfl | rfl
    · exact ⟨.defaultContent, rfl⟩
    · exact ⟨.metadata, rfl⟩
  · intro role
    show _ = lastWith [(contentRole, sx c.content), (metadataRole, sx c.info)] _
    cases role <;> rfl
  · intro id pre g post hs _ hd
    rw [gs] at hs
    have hpre : pre = [] ∧ g = groupIn c.objects := by
      cases pre with
      | nil => exact ⟨rfl, (List.cons.inj hs).1.symm⟩
      | cons x pre =>
        have := congrArg List.length hs
        simp at this
    obtain ⟨-, rfl⟩ := hpre
    obtain ⟨o, ho, rfl⟩ := declares_iff.1 hd
    refine ⟨by simp [groupIn], _, get_space hn ho, object_is hn ho (hf o ho) (hb o ho)⟩
  · intro id h
    rw [gs] at h
    exact get_none fun o ho he => h _ (List.mem_singleton.2 rfl) (declares_iff.2 ⟨o, ho, he⟩)

/-! ### The package -/

/-- The storage index of the file. -/
def indexIn (cells : List Cell) : StorageIndex :=
  indexOf (.cell (cellId 1) (sx 1) ⟨sampleGuid, 1⟩ ::
    cells.map fun c => .cell (cellId c.num) (sx c.num) ⟨sampleGuid, c.num⟩)

def mappingFor (num : Nat) : CellMapping := ⟨cellId num, sx num, ⟨sampleGuid, num⟩⟩

theorem index_revisions (cells : List Cell) : (indexIn cells).revisionMappings = [] := by
  unfold indexIn indexOf
  simp only [List.filterMap_cons, List.filterMap_map]
  exact (congrArg Map.ofList (List.filterMap_eq_nil_iff.2 fun _ _ => rfl)).trans rfl

theorem index_cells (cells : List Cell) : (indexIn cells).cellMappings =
    Map.ofList ((cellId 1, mappingFor 1) :: cells.map fun c => (cellId c.num, mappingFor c.num)) := by
  unfold indexIn indexOf
  simp only [List.filterMap_cons, List.filterMap_map]
  refine congrArg (fun l => Map.ofList (_ :: l)) ?_
  rw [← List.filterMap_eq_map]
  rfl

variable {schema : Guid}

theorem pick_elements {α : Type} (f : Element → Option α) (cells : List Cell) :
    (fileElements schema cells).filterMap f =
      (([⟨sx 1, .storageManifest schema [(fileHeaderRoot, cellId 1), (fileDataRoot, cellId 2)]⟩,
        ⟨sx 1, .storageIndex (.cell (cellId 1) (sx 1) ⟨sampleGuid, 1⟩ ::
          cells.map fun c => .cell (cellId c.num) (sx c.num) ⟨sampleGuid, c.num⟩)⟩] : List Element).filterMap f ++
      (cellElements 1 [] (.objectGroup [.object (sx 1) 1 0 0 0] [.object [] [] headerProps])).filterMap f) ++
      (cells.flatMap (fun c => c.elements.filterMap f) ++ cells.flatMap (fun c => c.blobs.filterMap f)) := by
  unfold fileElements
  simp only [List.filterMap_append, List.filterMap_flatMap, List.append_assoc]

theorem no_blobs {α : Type} (f : Element → Option α) (h : ∀ id d, f ⟨id, .blob d⟩ = none)
    (cells : List Cell) : cells.flatMap (fun c => c.blobs.filterMap f) = [] := by
  rw [List.flatMap_eq_nil_iff]
  intro c _
  rw [List.filterMap_eq_nil_iff]
  intro e he
  obtain ⟨o, _, ho⟩ := List.mem_filterMap.1 he
  obtain ⟨d, _, rfl⟩ := Option.map_eq_some_iff.1 ho
  exact h _ _

theorem manifests_in (cells : List Cell) : cellManifests (fileElements schema cells) =
    (sx 1, sx 1) :: cells.map fun c => (sx c.num, sx c.num) := by
  unfold cellManifests
  rw [pick_elements, no_blobs _ (fun _ _ => rfl), List.append_nil, List.map_eq_flatMap (f := fun c : Cell => (sx c.num, sx c.num))]
  rfl

theorem revisions_in (cells : List Cell) : revisionManifests (fileElements schema cells) =
    (sx 1, revisionOf (sx 1) ExGuid.nil [.group (sx 1)]) ::
      cells.map fun c => (sx c.num, revisionFor c) := by
  unfold revisionManifests
  rw [pick_elements, no_blobs _ (fun _ _ => rfl), List.append_nil, List.map_eq_flatMap (f := fun c : Cell => (sx c.num, revisionFor c))]
  rfl

/-- The object group with the header. -/
def headerGroup : ObjectGroup := ⟨[.object (sx 1) 1 0 0 0], [], [.object [] [] headerProps]⟩

theorem groups_in (cells : List Cell) : objectGroups (fileElements schema cells) =
    (sx 1, headerGroup) :: cells.map fun c => (sx c.num, groupIn c.objects) := by
  unfold objectGroups
  rw [pick_elements, no_blobs _ (fun _ _ => rfl), List.append_nil, List.map_eq_flatMap (f := fun c : Cell => (sx c.num, groupIn c.objects))]
  rfl

theorem none_in {α : Type} (cells : List Cell) :
    cells.flatMap (fun _ => ([] : List α)) = [] := List.flatMap_eq_nil_iff.2 fun _ _ => rfl

theorem indexes_in (cells : List Cell) :
    storageIndexes (fileElements schema cells) = [(sx 1, indexIn cells)] := by
  unfold storageIndexes
  rw [pick_elements, no_blobs _ (fun _ _ => rfl), List.append_nil]
  exact (congrArg _ (none_in cells)).trans (List.append_nil _)

/-- The roots of the file. -/
def rootsIn : Map ExGuid CellId := [(fileHeaderRoot, cellId 1), (fileDataRoot, cellId 2)]

theorem storage_in (cells : List Cell) :
    storageManifests (fileElements schema cells) = [(sx 1, ⟨schema, rootsIn⟩)] := by
  unfold storageManifests
  rw [pick_elements, no_blobs _ (fun _ _ => rfl), List.append_nil]
  exact (congrArg _ (none_in cells)).trans (List.append_nil _)

theorem blobs_in (cells : List Cell) : blobs (fileElements schema cells) =
    cells.flatMap fun c => c.objects.filterMap fun o => o.blob.map fun d => (sx o.id, d) := by
  unfold blobs
  rw [pick_elements]
  have h1 : ∀ c : Cell, c.blobs.filterMap (fun | ⟨id, .blob d⟩ => some (id, d) | _ => none) =
      c.objects.filterMap fun o => o.blob.map fun d => (sx o.id, d) := by
    intro c
    unfold Cell.blobs
    rw [List.filterMap_filterMap]
    congr 1
    funext o
    cases o.blob <;> rfl
  have h1 : cells.flatMap (fun c => c.blobs.filterMap
      (fun | ⟨id, .blob d⟩ => some (id, d) | _ => none)) = cells.flatMap fun c =>
      c.objects.filterMap fun o => o.blob.map fun d => (sx o.id, d) :=
    congrArg (fun f => cells.flatMap f) (funext h1)
  have h2 : cells.flatMap (fun c => c.elements.filterMap
      (fun | ⟨id, .blob d⟩ => some (id, d) | _ => none)) = ([] : List (ExGuid × Bytes)) := none_in cells
  refine (List.nil_append _).trans ?_
  exact ((congr (congrArg _ h2) h1 : _ = [] ++ _)).trans (List.nil_append _)

/-! ### Lookups -/

/-- Cells that can be written. -/
structure CellsFit (cells : List Cell) : Prop where
  nums : (cells.map (·.num)).Nodup
  two : ∀ c ∈ cells, 2 ≤ c.num
  numsFit : ∀ c ∈ cells, c.num < 2 ^ 32
  ids : ((cells.flatMap (·.objects)).map (·.id)).Nodup
  objects : ∀ c ∈ cells, ∀ o ∈ c.objects, ObjFits o
  roots : ∀ c ∈ cells, c.content < 2 ^ 32 ∧ c.info < 2 ^ 32

theorem keys_nodup {K V : Type} {k : Nat → K} (hk : ∀ a b, k a = k b → a = b) {cells : List Cell}
    (h : CellsFit cells) (v : V) (f : Cell → V) :
    (((k 1, v) :: cells.map fun c => (k c.num, f c)).map Prod.fst).Nodup := by
  simp only [List.map_cons, List.map_map, List.nodup_cons]
  constructor
  · intro hm
    obtain ⟨c, hc, he⟩ := List.mem_map.1 hm
    have := hk _ _ he
    have := h.two c hc
    omega
  · have := List.pairwise_map.1 h.nums
    exact List.Pairwise.map _ (fun a b hab he => hab (hk _ _ he)) this

theorem cellId_inj (a b : Nat) (h : cellId a = cellId b) : a = b :=
  Written.sx_inj (CellId.mk.inj h).1

theorem ids_nodup {cells : List Cell} (h : ((cells.flatMap (·.objects)).map (·.id)).Nodup) {c : Cell}
    (hc : c ∈ cells) : (c.objects.map (·.id)).Nodup := by
  induction cells with
  | nil => exact absurd hc List.not_mem_nil
  | cons x cells ih =>
    rw [List.flatMap_cons, List.map_append, List.nodup_append] at h
    rcases List.mem_cons.1 hc with rfl | hc
    · exact h.1
    · exact ih h.2.1 hc

theorem blob_keys {objs : List Obj} (h : (objs.map (·.id)).Nodup) :
    ((objs.filterMap fun o => o.blob.map fun d => (sx o.id, d)).map Prod.fst).Nodup := by
  induction objs with
  | nil => exact List.nodup_nil
  | cons o objs ih =>
    simp only [List.map_cons, List.nodup_cons] at h
    rw [List.filterMap_cons]
    cases o.blob with
    | none => exact ih h.2
    | some d =>
      simp only [Option.map_some, List.map_cons, List.nodup_cons]
      refine ⟨fun hm => ?_, ih h.2⟩
      obtain ⟨x, hx, he⟩ := List.mem_map.1 hm
      obtain ⟨o', ho', hx⟩ := List.mem_filterMap.1 hx
      obtain ⟨d', _, rfl⟩ := Option.map_eq_some_iff.1 hx
      exact h.1 (List.mem_map.2 ⟨o', ho', Written.sx_inj he⟩)

theorem get_blob {cells : List Cell} (h : CellsFit cells) {c : Cell} (hc : c ∈ cells) {o : Obj}
    (ho : o ∈ c.objects) {d : Bytes} (hd : o.blob = some d) :
    (packageOf (fileElements schema cells)).blobs.get? (sx o.id) = some d := by
  show (Map.ofList (blobs (fileElements schema cells))).get? _ = _
  rw [Map.get?_ofList, blobs_in, ← List.filterMap_flatMap (l := cells) (g := fun c : Cell => c.objects)
      (f := fun o : Obj => o.blob.map fun d => (sx o.id, d)),
    lastWith_iff (blob_keys h.ids)]
  exact List.mem_filterMap.2 ⟨o, List.mem_flatMap.2 ⟨c, hc, ho⟩, by rw [hd]; rfl⟩

theorem sx_inj' (a b : Nat) (h : sx a = sx b) : a = b := Written.sx_inj h

theorem get_manifest {cells : List Cell} (h : CellsFit cells) {c : Cell} (hc : c ∈ cells) :
    (packageOf (fileElements schema cells)).cellManifests.get? (sx c.num) = some (sx c.num) := by
  show (Map.ofList (cellManifests (fileElements schema cells))).get? _ = _
  rw [Map.get?_ofList, manifests_in, lastWith_iff (keys_nodup sx_inj' h _ _)]
  exact List.mem_cons_of_mem _ (List.mem_map.2 ⟨c, hc, rfl⟩)

theorem get_revision {cells : List Cell} (h : CellsFit cells) {c : Cell} (hc : c ∈ cells) :
    (packageOf (fileElements schema cells)).revisionManifests.get? (sx c.num) = some (revisionFor c) := by
  show (Map.ofList (revisionManifests (fileElements schema cells))).get? _ = _
  rw [Map.get?_ofList, revisions_in, lastWith_iff (keys_nodup sx_inj' h _ _)]
  exact List.mem_cons_of_mem _ (List.mem_map.2 ⟨c, hc, rfl⟩)

theorem get_group {cells : List Cell} (h : CellsFit cells) {c : Cell} (hc : c ∈ cells) :
    (packageOf (fileElements schema cells)).objectGroups.get? (sx c.num) = some (groupIn c.objects) := by
  show (Map.ofList (objectGroups (fileElements schema cells))).get? _ = _
  rw [Map.get?_ofList, groups_in, lastWith_iff (keys_nodup sx_inj' h _ _)]
  exact List.mem_cons_of_mem _ (List.mem_map.2 ⟨c, hc, rfl⟩)

theorem get_header {cells : List Cell} (h : CellsFit cells) :
    (packageOf (fileElements schema cells)).cellManifests.get? (sx 1) = some (sx 1) ∧
    (packageOf (fileElements schema cells)).revisionManifests.get? (sx 1) =
      some (revisionOf (sx 1) ExGuid.nil [.group (sx 1)]) ∧
    (packageOf (fileElements schema cells)).objectGroups.get? (sx 1) = some headerGroup := by
  refine ⟨?_, ?_, ?_⟩
  · show (Map.ofList (cellManifests (fileElements schema cells))).get? _ = _
    rw [Map.get?_ofList, manifests_in, lastWith_iff (keys_nodup sx_inj' h _ _)]
    exact List.mem_cons_self
  · show (Map.ofList (revisionManifests (fileElements schema cells))).get? _ = _
    rw [Map.get?_ofList, revisions_in, lastWith_iff (keys_nodup sx_inj' h _ _)]
    exact List.mem_cons_self
  · show (Map.ofList (objectGroups (fileElements schema cells))).get? _ = _
    rw [Map.get?_ofList, groups_in, lastWith_iff (keys_nodup sx_inj' h _ _)]
    exact List.mem_cons_self

theorem get_mapping {cells : List Cell} (h : CellsFit cells) {id : CellId} {m : CellMapping} :
    (indexIn cells).cellMappings.get? id = some m ↔
      (id, m) ∈ (cellId 1, mappingFor 1) :: cells.map fun c => (cellId c.num, mappingFor c.num) := by
  rw [index_cells, Map.get?_ofList, lastWith_iff (keys_nodup cellId_inj h _ _)]

theorem resolves_self {pkg : Package} {cells : List Cell} {r : ExGuid} {m : RevisionManifest}
    (h : pkg.revisionManifests.get? r = some m) : Resolves pkg (indexIn cells) r r := by
  unfold Resolves
  rw [index_revisions]
  exact ⟨rfl, by rw [h]; rfl⟩

theorem space_is {cells : List Cell} (h : CellsFit cells) {c : Cell} (hc : c ∈ cells) :
    SpaceIs (packageOf (fileElements schema cells)) (indexIn cells) (mappingFor c.num) (spaceIn c) :=
  ⟨rfl, rfl, .inl ⟨_, _, .inl (.inl ⟨_, get_manifest h hc, resolves_self (get_revision h hc)⟩),
    .oldest _ _ (get_revision h hc) rfl,
    history_is (ids_nodup h.ids hc) (h.objects c hc) (fun _ ho _ hd => get_blob h hc ho hd)
      (get_group h hc)⟩⟩

theorem header_exists : ∃ h, StoreHeader.parse headerGroup = .ok h := by
  have h : (StoreHeader.parse headerGroup).toOption.isSome = true := by decide +kernel
  obtain ⟨x, hx⟩ := Option.isSome_iff_exists.1 h
  exact ⟨x, toOption_some hx⟩

/-- The package of the file. -/
def packagingIn (schema : Guid) (cells : List Cell) : Packaging :=
  ⟨schema, Guid.nil, Guid.nil, packageStore, sx 1, schema, packageOf (fileElements schema cells)⟩

theorem storage_eq (cells : List Cell) : (packageOf (fileElements schema cells)).storageManifests =
    [(sx 1, ⟨schema, rootsIn⟩)] := by
  show Map.ofList (storageManifests (fileElements schema cells)) = _
  rw [storage_in]
  rfl

theorem indexes_eq (cells : List Cell) : (packageOf (fileElements schema cells)).storageIndexes =
    [(sx 1, indexIn cells)] := by
  show Map.ofList (storageIndexes (fileElements schema cells)) = _
  rw [indexes_in]
  rfl

/-- The store of the file. -/
theorem store_is : ∃ header, ∀ (schema : Guid) (root : Cell) (pages : List Cell), root.num = 2 →
    CellsFit (root :: pages) →
    StoreIs (packagingIn schema (root :: pages)) ⟨schema, header, spaceIn root,
      pages.map fun c => (cellId c.num, spaceIn c)⟩ := by
  obtain ⟨header, hh⟩ := header_exists
  refine ⟨header, fun schema root pages h2 h => ?_⟩
  obtain ⟨m2, m3, m4⟩ := get_header h
  have hpages : ((pages.map fun c => (cellId c.num, spaceIn c)).map Prod.fst).Nodup := by
    have := keys_nodup cellId_inj h (spaceIn root) spaceIn
    simp only [List.map_cons, List.nodup_cons] at this ⊢
    exact this.2.2
  have hnot : ∀ c ∈ pages, c.num ≠ 2 := by
    intro c hc he
    have := h.nums
    simp only [List.map_cons, List.nodup_cons] at this
    exact this.1 (List.mem_map.2 ⟨c, hc, he.trans h2.symm⟩)
  refine ⟨indexIn (root :: pages), ⟨schema, rootsIn⟩, cellId 1, cellId 2, .inl ?_, ⟨sx 1, ?_⟩,
    rfl, rfl, ⟨mappingFor 1, ?_, ?_⟩, rfl, ⟨mappingFor 2, ?_, ?_⟩, ?_, ?_⟩
  · show (packageOf (fileElements schema (root :: pages))).storageIndexes.get? (sx 1) = _
    rw [indexes_eq]; rfl
  · show _ ∈ (packageOf (fileElements schema (root :: pages))).storageManifests
    rw [storage_eq]
    exact List.mem_singleton.2 rfl
  · exact (get_mapping h).2 List.mem_cons_self
  · exact ⟨_, _, _, [], _, .inl (.inl ⟨_, m2, resolves_self m3⟩), m3, rfl, m4, by simp,
      header_iff.1 hh⟩
  · exact (get_mapping h).2 (List.mem_cons_of_mem _ (by rw [← h2]; exact List.mem_cons_self))
  · rw [← h2]
    exact space_is h List.mem_cons_self
  · rintro c m ⟨hm, h0, h1, h3⟩
    rcases List.mem_cons.1 ((get_mapping h).1 hm) with he | he
    · exact absurd (Prod.mk.inj he).1 h1
    · obtain ⟨x, hx, he⟩ := List.mem_map.1 he
      obtain ⟨rfl, rfl⟩ := Prod.mk.inj he
      rcases List.mem_cons.1 hx with rfl | hx'
      · exact absurd (by rw [h2]) h3
      · exact ⟨_, Map.get?_of_mem hpages (List.mem_map.2 ⟨x, hx', rfl⟩), space_is h hx⟩
  · intro c hc
    show Map.get? (pages.map fun c => (cellId c.num, spaceIn c)) c = none
    cases hs : Map.get? (pages.map fun c => (cellId c.num, spaceIn c)) c with
    | none => rfl
    | some s =>
      obtain ⟨x, hx, he⟩ := List.mem_map.1 (Map.mem_of_get? hs)
      obtain ⟨rfl, -⟩ := Prod.mk.inj he
      refine absurd ⟨mappingFor x.num, (get_mapping h).2 (List.mem_cons_of_mem _
        (List.mem_map.2 ⟨x, List.mem_cons_of_mem _ hx, rfl⟩)), ?_, ?_, ?_⟩ hc
      · intro hn
        exact absurd hn (by unfold mappingFor sx ExGuid.nil; intro hn; exact absurd (ExGuid.mk.inj hn).1 (by decide))
      · intro hn
        have := cellId_inj _ _ hn
        have := h.two x (List.mem_cons_of_mem _ hx)
        omega
      · intro hn
        exact hnot x hx (cellId_inj _ _ hn)

theorem unambiguous_in {root : Cell} {pages : List Cell} (h : CellsFit (root :: pages)) :
    Unambiguous (packagingIn schema (root :: pages)) := by
  obtain ⟨m2, m3, m4⟩ := get_header h
  refine ⟨.inr ?_, ?_, ?_⟩
  · show (packageOf (fileElements schema (root :: pages))).storageIndexes.length ≤ 1
    rw [indexes_eq]; exact Nat.le_refl 1
  · show (packageOf (fileElements schema (root :: pages))).storageManifests.length ≤ 1
    rw [storage_eq]; exact Nat.le_refl 1
  · intro i si c m hi hm
    have hi : (i, si) ∈ (packageOf (fileElements schema (root :: pages))).storageIndexes := hi
    rw [indexes_eq, List.mem_singleton, Prod.mk.injEq] at hi
    obtain ⟨-, rfl⟩ := hi
    have hm : (c, m) ∈ (indexIn (root :: pages)).cellMappings := hm
    rw [index_cells] at hm
    have hm := lastWith_mem ((Map.get?_ofList _ _).symm.trans
      (Map.get?_of_mem (Map.nodup_ofList _) hm))
    rcases List.mem_cons.1 hm with he | he
    · obtain ⟨-, rfl⟩ := Prod.mk.inj he
      exact .inr (.inl (.inl ⟨_, _, m2, resolves_self m3⟩))
    · obtain ⟨x, hx, he⟩ := List.mem_map.1 he
      obtain ⟨-, rfl⟩ := Prod.mk.inj he
      exact .inr (.inl (.inl ⟨_, _, get_manifest h hx, resolves_self (get_revision h hx)⟩))

/-! ### The bytes -/

theorem parts_fit {o : Obj} (h : ObjFits o) : ∀ e ∈ o.parts, DeclarationFits e.1 ∧ GroupDataFits e.2 := by
  have h64 : ∀ n, n < 2 ^ 24 → Fits64 n := fun n hn => Nat.lt_trans hn (by decide)
  have hid : ExGuidFits (sx o.id) := h.id
  have h1 : ∀ e ∈ [((.object (sx o.id) 4 0 0 0 : Declaration),
      (.object [] [] (leBytes 4 o.kind) : GroupData)), (.object (sx o.id) 1 0 0 0,
      .object (o.refs.map sx) o.cells (propsBytes o.refs.length o.cells.length o.props))],
      DeclarationFits e.1 ∧ GroupDataFits e.2 := by
    intro e he
    simp only [List.mem_cons, List.not_mem_nil, or_false] at he
    rcases he with rfl | rfl
    · exact ⟨⟨hid, by decide, by decide, by decide, by decide⟩, by decide,
        by show (leBytes 4 _).length < _; simp⟩
    · refine ⟨⟨hid, by decide, by decide, by decide, by decide⟩, ⟨?_, ?_, h64 _ h.cells, h.cellsFit⟩, h.bytes⟩
      · rw [List.length_map]; exact h64 _ h.refs
      · intro e he
        obtain ⟨r, hr, rfl⟩ := List.mem_map.1 he
        exact h.refsFit r hr
  unfold Obj.parts
  cases o.blob with
  | none => rw [List.append_nil]; exact h1
  | some d =>
    intro e he
    rcases List.mem_append.1 he with he | he
    · exact h1 e he
    · obtain rfl := List.mem_singleton.1 he
      exact ⟨⟨hid, hid, by decide, by decide, by decide⟩, by decide, hid⟩

theorem elements_fit {cells : List Cell} (h : CellsFit cells) :
    ∀ e ∈ fileElements schema cells, ElementFits e := by
  intro e he
  unfold fileElements at he
  simp only [List.mem_append] at he
  rcases he with ((he | he) | he) | he
  · simp only [List.mem_cons, List.not_mem_nil, or_false] at he
    rcases he with rfl | rfl
    · exact (by decide : ElementFits ⟨sx 1, .storageManifest Guid.nil
        [(fileHeaderRoot, cellId 1), (fileDataRoot, cellId 2)]⟩)
    · refine ⟨by show 1 < _; decide, ?_⟩
      intro i hi
      rcases List.mem_cons.1 hi with rfl | hi
      · decide
      · obtain ⟨c, hc, rfl⟩ := List.mem_map.1 hi
        have hn : ExGuidFits (sx c.num) := h.numsFit c hc
        exact ⟨⟨hn, hn⟩, hn, Nat.lt_trans (h.numsFit c hc) (by decide)⟩
  · revert e
    decide +kernel
  · obtain ⟨c, hc, he⟩ := List.mem_flatMap.1 he
    have hn : ExGuidFits (sx c.num) := h.numsFit c hc
    simp only [Cell.elements, cellElements, List.mem_cons, List.not_mem_nil, or_false] at he
    rcases he with rfl | rfl | rfl
    · exact ⟨hn, hn⟩
    · refine ⟨hn, hn, by decide, ?_⟩
      intro i hi
      simp only [List.cons_append, List.nil_append, List.mem_cons, List.not_mem_nil, or_false] at hi
      rcases hi with rfl | rfl | rfl
      · exact ⟨by decide, (h.roots c hc).1⟩
      · exact ⟨by decide, (h.roots c hc).2⟩
      · exact hn
    · refine ⟨hn, ?_, ?_⟩
      · intro d hd
        obtain ⟨x, hx, rfl⟩ := List.mem_map.1 hd
        obtain ⟨o, ho, hx⟩ := List.mem_flatMap.1 hx
        exact (parts_fit (h.objects c hc o ho) x hx).1
      · intro d hd
        obtain ⟨x, hx, rfl⟩ := List.mem_map.1 hd
        obtain ⟨o, ho, hx⟩ := List.mem_flatMap.1 hx
        exact (parts_fit (h.objects c hc o ho) x hx).2
  · obtain ⟨c, hc, he⟩ := List.mem_flatMap.1 he
    obtain ⟨o, ho, he⟩ := List.mem_filterMap.1 he
    obtain ⟨d, hd, rfl⟩ := Option.map_eq_some_iff.1 he
    exact ⟨(h.objects c hc o ho).id, (h.objects c hc o ho).blob d hd⟩

theorem file_parse {cells : List Cell} (h : CellsFit cells) :
    Packaging.parse (fileW (sx 1) schema (fileElements schema cells)) = .ok (packagingIn schema cells, []) :=
  fileW_parse (by decide) (elements_fit h)

/-- The file has the store, and nothing in it is ambiguous. -/
theorem file_is : ∃ header, ∀ (schema : Guid) (root : Cell) (pages : List Cell), root.num = 2 →
    CellsFit (root :: pages) →
    PlainFile (fileW (sx 1) schema (fileElements schema (root :: pages))) ∧
    FileStore (fileW (sx 1) schema (fileElements schema (root :: pages))) ⟨schema, header,
      spaceIn root, pages.map fun c => (cellId c.num, spaceIn c)⟩ := by
  obtain ⟨header, hh⟩ := store_is
  refine ⟨header, fun schema root pages h2 h => ?_⟩
  have hc := Written.contains_parse (file_parse (schema := schema) h)
  exact ⟨fun q hq => by rw [(hc q).1 hq]; exact unambiguous_in h, _, (hc _).2 rfl, hh schema root pages h2 h⟩

end OneNote.Writer
