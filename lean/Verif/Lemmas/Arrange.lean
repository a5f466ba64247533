/-
The store of a package depends only on the answers of its maps at the identifiers that are referred
to.
-/
import Verif.Lemmas.Whole
import Verif.Spec.Arrange
import Verif.Lemmas.Write

namespace OneNote

open Spec Spec.StoreContents

/-- The identifier is looked up while reading the package. -/
inductive Mentioned (pkg : Package) : ExGuid → Prop where
  | cell {i si c m} : (i, si) ∈ pkg.storageIndexes → (c, m) ∈ si.cellMappings → Mentioned pkg m.id
  | revision {i si a m} : (i, si) ∈ pkg.storageIndexes → (a, m) ∈ si.revisionMappings →
      Mentioned pkg m.revisionMapping
  | current {k id} : pkg.cellManifests.get? k = some id → Mentioned pkg id
  | base {k rm} : pkg.revisionManifests.get? k = some rm → Mentioned pkg rm.baseRevId
  | group {k rm id} : pkg.revisionManifests.get? k = some rm → id ∈ rm.groupReferences →
      Mentioned pkg id
  | blob {k g refs cells id} : pkg.objectGroups.get? k = some g →
      GroupData.blobReference refs cells id ∈ g.objects → Mentioned pkg id

/-- The two packages answer in the same way. -/
structure Agree (pkg pkg' : Package) : Prop where
  indexes : pkg.storageIndexes.Perm pkg'.storageIndexes
  indexAt : ∀ id, pkg.storageIndexes.get? id = pkg'.storageIndexes.get? id
  manifests : pkg.storageManifests.Perm pkg'.storageManifests
  cells : ∀ id, Mentioned pkg id → pkg.cellManifests.get? id = pkg'.cellManifests.get? id
  revisions : ∀ id, Mentioned pkg id → pkg.revisionManifests.get? id = pkg'.revisionManifests.get? id
  groups : ∀ id, Mentioned pkg id → pkg.objectGroups.get? id = pkg'.objectGroups.get? id
  blobs : ∀ id, Mentioned pkg id → pkg.blobs.get? id = pkg'.blobs.get? id

section
variable {pkg pkg' : Package} {si : StorageIndex} {i : ExGuid}

theorem agree_resolves (h : Agree pkg pkg') {id r : ExGuid} (hm : Mentioned pkg id) :
    Resolves pkg si id r ↔ Resolves pkg' si id r := by
  unfold Resolves
  cases si.revisionMappings.get? id with
  | none => simp only [h.revisions id hm]
  | some m => exact Iff.rfl

theorem resolves_mentioned (hi : (i, si) ∈ pkg.storageIndexes) {id r : ExGuid}
    (hm : Mentioned pkg id) (h : Resolves pkg si id r) : Mentioned pkg r := by
  unfold Resolves at h
  cases hr : si.revisionMappings.get? id with
  | none => rw [hr] at h; obtain ⟨rfl, -⟩ := h; exact hm
  | some m => rw [hr] at h; subst h; exact .revision hi (Map.mem_of_get? hr)

theorem agree_chain (h : Agree pkg pkg') (hi : (i, si) ∈ pkg.storageIndexes) {r : ExGuid}
    {ms : List RevisionManifest} (hm : Mentioned pkg r) :
    RevisionChain pkg si r ms ↔ RevisionChain pkg' si r ms := by
  constructor
  · intro hc
    induction hc with
    | oldest r m h1 h2 => exact .oldest r m (h.revisions r hm ▸ h1) h2
    | based r b m ms h1 h2 h3 _ ih =>
      exact .based r b m ms (h.revisions r hm ▸ h1) h2 ((agree_resolves h (.base h1)).1 h3)
        (ih (resolves_mentioned hi (.base h1) h3))
  · intro hc
    induction hc with
    | oldest r m h1 h2 => exact .oldest r m (h.revisions r hm ▸ h1) h2
    | based r b m ms h1 h2 h3 _ ih =>
      rw [← h.revisions r hm] at h1
      have h3 := (agree_resolves h (.base h1)).2 h3
      exact .based r b m ms h1 h2 h3 (ih (resolves_mentioned hi (.base h1) h3))

/-- All manifests of a chain come from the package. -/
theorem chain_mentions {r : ExGuid} {ms : List RevisionManifest} (h : RevisionChain pkg si r ms) :
    ∀ m ∈ ms, ∀ id ∈ m.groupReferences, Mentioned pkg id := by
  induction h with
  | oldest r m h1 _ =>
    intro m' hm' id hid
    simp only [List.mem_singleton] at hm'
    subst hm'
    exact .group h1 hid
  | based r b m ms h1 _ _ _ ih =>
    intro m' hm' id hid
    rcases List.mem_cons.1 hm' with rfl | hm'
    · exact .group h1 hid
    · exact ih m' hm' id hid

theorem agree_leadsTo (h : Agree pkg pkg') {id r : ExGuid} (hm : Mentioned pkg id) :
    LeadsTo pkg si id r ↔ LeadsTo pkg' si id r := by
  have key : ∀ r, (∃ c, pkg.cellManifests.get? id = some c ∧ Resolves pkg si c r) ↔
      ∃ c, pkg'.cellManifests.get? id = some c ∧ Resolves pkg' si c r := by
    intro r
    rw [← h.cells id hm]
    constructor
    · rintro ⟨c, hc, hr⟩
      exact ⟨c, hc, (agree_resolves h (.current hc)).1 hr⟩
    · rintro ⟨c, hc, hr⟩
      exact ⟨c, hc, (agree_resolves h (.current hc)).2 hr⟩
  have key' : (∃ c r', pkg.cellManifests.get? id = some c ∧ Resolves pkg si c r') ↔
      ∃ c r', pkg'.cellManifests.get? id = some c ∧ Resolves pkg' si c r' := by
    constructor
    · rintro ⟨c, r', hc⟩
      obtain ⟨c', hc'⟩ := (key r').1 ⟨c, hc⟩
      exact ⟨c', r', hc'⟩
    · rintro ⟨c, r', hc⟩
      obtain ⟨c', hc'⟩ := (key r').2 ⟨c, hc⟩
      exact ⟨c', r', hc'⟩
  unfold LeadsTo
  rw [key r, key', agree_resolves h hm]

theorem leadsTo_mentioned (hi : (i, si) ∈ pkg.storageIndexes) {id r : ExGuid}
    (hm : Mentioned pkg id) (h : LeadsTo pkg si id r) : Mentioned pkg r := by
  rcases h with ⟨c, hc, hr⟩ | ⟨-, hr⟩
  · exact resolves_mentioned hi (.current hc) hr
  · exact resolves_mentioned hi hm hr

theorem agree_newest (h : Agree pkg pkg') {m : CellMapping} {r : ExGuid} (hm : Mentioned pkg m.id) :
    Newest pkg si m r ↔ Newest pkg' si m r := by
  unfold Newest
  simp only [agree_leadsTo (si := si) h hm]

theorem newest_mentioned (hi : (i, si) ∈ pkg.storageIndexes) {m : CellMapping} {r : ExGuid}
    (hm : Mentioned pkg m.id) (h : Newest pkg si m r) : Mentioned pkg r := by
  rcases h with h | ⟨-, a, m', ha, -, rfl⟩
  · exact leadsTo_mentioned hi hm h
  · exact .revision hi ha

theorem lastWith_mem {K V : Type} [DecidableEq K] {es : List (K × V)} {k : K} {v : V}
    (h : lastWith es k = some v) : (k, v) ∈ es := by
  unfold lastWith at h
  obtain ⟨e, he, rfl⟩ := Option.map_eq_some_iff.1 h
  have h1 := List.mem_of_find?_eq_some he
  have h2 := List.find?_some he
  simp only [decide_eq_true_eq] at h2
  subst h2
  exact List.mem_reverse.1 h1

theorem storedData_mem {g : ObjectGroup} {id : ExGuid} {part : Nat} {d : GroupData}
    (h : storedData g id part = some d) : d ∈ g.objects := by
  have h := lastWith_mem h
  simp only [List.mem_map, Prod.mk.injEq] at h
  obtain ⟨e, he, -, rfl⟩ := h
  exact (List.of_mem_zip (a := e.1) (b := e.2) he).2

theorem agree_object (h : Agree pkg pkg') {k : ExGuid} {g : ObjectGroup}
    (hg : pkg.objectGroups.get? k = some g) {cell : CellId} {id : ExGuid} {o : Object} :
    ObjectIs pkg cell g id o ↔ ObjectIs pkg' cell g id o := by
  constructor
  · rintro ⟨h1, h2, h3, h4⟩
    refine ⟨h1, h2, h3, ?_⟩
    rcases h4 with h4 | ⟨r, c, b, blob, h5, h6, h7⟩
    · exact .inl h4
    · exact .inr ⟨r, c, b, blob, h5, h.blobs b (.blob hg (storedData_mem h5)) ▸ h6, h7⟩
  · rintro ⟨h1, h2, h3, h4⟩
    refine ⟨h1, h2, h3, ?_⟩
    rcases h4 with h4 | ⟨r, c, b, blob, h5, h6, h7⟩
    · exact .inl h4
    · exact .inr ⟨r, c, b, blob, h5, h.blobs b (.blob hg (storedData_mem h5)) ▸ h6, h7⟩

theorem groupsOf_congr (h : Agree pkg pkg') {ms : List RevisionManifest}
    (hm : ∀ m ∈ ms, ∀ id ∈ m.groupReferences, Mentioned pkg id) :
    groupsOf pkg ms = groupsOf pkg' ms := by
  unfold groupsOf
  induction ms with
  | nil => rfl
  | cons m ms ih =>
    simp only [List.flatMap_cons]
    rw [ih fun m' hm' => hm m' (by simp [hm'])]
    have hg : ∀ ids : List ExGuid, (∀ id ∈ ids, id ∈ m.groupReferences) →
        ids.filterMap (fun id => pkg.objectGroups.get? id) =
          ids.filterMap (fun id => pkg'.objectGroups.get? id) := by
      intro ids hi
      induction ids with
      | nil => rfl
      | cons id ids ih' =>
        simp only [List.filterMap_cons]
        rw [h.groups id (hm m (by simp) id (hi id (by simp))), ih' fun x hx => hi x (by simp [hx])]
    exact congrArg (· ++ _) (hg _ fun _ h => h)

theorem groupsOf_mem {ms : List RevisionManifest} {g : ObjectGroup} (h : g ∈ groupsOf pkg ms) :
    ∃ k, pkg.objectGroups.get? k = some g := by
  unfold groupsOf at h
  simp only [List.mem_flatMap, List.mem_filterMap] at h
  obtain ⟨m, -, k, -, hk⟩ := h
  exact ⟨k, hk⟩

theorem agree_history (h : Agree pkg pkg') {ms : List RevisionManifest}
    (hm : ∀ m ∈ ms, ∀ id ∈ m.groupReferences, Mentioned pkg id) {cell : CellId} {s : ObjectSpace} :
    HistoryIs pkg cell ms s ↔ HistoryIs pkg' cell ms s := by
  have e := groupsOf_congr h hm
  have hp : ∀ pre g post, groupsOf pkg ms = pre ++ g :: post → ∃ k, pkg.objectGroups.get? k = some g :=
    fun pre g post h => groupsOf_mem (ms := ms) (by rw [h]; simp)
  constructor
  · rintro ⟨h1, h2, h3, h4, h5⟩
    refine ⟨fun m hm' gid hg => ?_, h2, h3, fun id pre g post hs hn hd => ?_, fun id hn => ?_⟩
    · rw [← h.groups gid (hm m hm' gid hg)]
      exact h1 m hm' gid hg
    · rw [← e] at hs
      obtain ⟨k, hk⟩ := hp _ _ _ hs
      obtain ⟨h6, o, h7, h8⟩ := h4 id pre g post hs hn hd
      exact ⟨h6, o, h7, (agree_object h hk).1 h8⟩
    · rw [← e] at hn
      exact h5 id hn
  · rintro ⟨h1, h2, h3, h4, h5⟩
    refine ⟨fun m hm' gid hg => ?_, h2, h3, fun id pre g post hs hn hd => ?_, fun id hn => ?_⟩
    · rw [h.groups gid (hm m hm' gid hg)]
      exact h1 m hm' gid hg
    · obtain ⟨k, hk⟩ := hp _ _ _ hs
      rw [e] at hs
      obtain ⟨h6, o, h7, h8⟩ := h4 id pre g post hs hn hd
      exact ⟨h6, o, h7, (agree_object h hk).2 h8⟩
    · rw [e] at hn
      exact h5 id hn

theorem agree_space (h : Agree pkg pkg') (hi : (i, si) ∈ pkg.storageIndexes) {m : CellMapping}
    (hm : Mentioned pkg m.id) {s : ObjectSpace} : SpaceIs pkg si m s ↔ SpaceIs pkg' si m s := by
  have e : ∀ r, Newest pkg si m r ↔ Newest pkg' si m r := fun r => agree_newest h hm
  constructor
  · rintro ⟨h1, h2, h3⟩
    refine ⟨h1, h2, ?_⟩
    rcases h3 with ⟨r, ms, h4, h5, h6⟩ | ⟨h4, h5, h6⟩
    · have hr := newest_mentioned hi hm h4
      exact .inl ⟨r, ms, (e r).1 h4, (agree_chain h hi hr).1 h5,
        (agree_history h (chain_mentions h5)).1 h6⟩
    · exact .inr ⟨fun ⟨r, hr⟩ => h4 ⟨r, (e r).2 hr⟩, h.cells _ hm ▸ h5, h6⟩
  · rintro ⟨h1, h2, h3⟩
    refine ⟨h1, h2, ?_⟩
    rcases h3 with ⟨r, ms, h4, h5, h6⟩ | ⟨h4, h5, h6⟩
    · have h4 := (e r).2 h4
      have h5 := (agree_chain h hi (newest_mentioned hi hm h4)).2 h5
      exact .inl ⟨r, ms, h4, h5, (agree_history h (chain_mentions h5)).2 h6⟩
    · exact .inr ⟨fun ⟨r, hr⟩ => h4 ⟨r, (e r).1 hr⟩, h.cells _ hm ▸ h5, h6⟩

theorem agree_header (h : Agree pkg pkg') (hi : (i, si) ∈ pkg.storageIndexes) {id : ExGuid}
    (hm : Mentioned pkg id) {s : StoreHeader} : HeaderIs pkg si id s ↔ HeaderIs pkg' si id s := by
  have e : ∀ r, HeaderRevision pkg si id r ↔ HeaderRevision pkg' si id r := by
    intro r
    unfold HeaderRevision
    simp only [agree_leadsTo (si := si) h hm]
  have hr : ∀ r, HeaderRevision pkg si id r → Mentioned pkg r := by
    rintro r (h | ⟨-, c, m, -, -, a, m', ha, -, rfl⟩)
    · exact leadsTo_mentioned hi hm h
    · exact .revision hi ha
  constructor
  · rintro ⟨r, rm, gid, gids, g, h1, h2, h3, h4, h5, h6⟩
    have hg : ∀ x ∈ rm.groupReferences, Mentioned pkg x := fun x hx => .group h2 hx
    rw [h3] at hg
    refine ⟨r, rm, gid, gids, g, (e r).1 h1, h.revisions r (hr r h1) ▸ h2, h3,
      h.groups gid (hg gid (by simp)) ▸ h4, fun x hx => ?_, h6⟩
    rw [← h.groups x (hg x (by simp [hx]))]
    exact h5 x hx
  · rintro ⟨r, rm, gid, gids, g, h1, h2, h3, h4, h5, h6⟩
    have h1 := (e r).2 h1
    rw [← h.revisions r (hr r h1)] at h2
    have hg : ∀ x ∈ rm.groupReferences, Mentioned pkg x := fun x hx => .group h2 hx
    rw [h3] at hg
    refine ⟨r, rm, gid, gids, g, h1, h2, h3, h.groups gid (hg gid (by simp)) ▸ h4, fun x hx => ?_, h6⟩
    rw [h.groups x (hg x (by simp [hx]))]
    exact h5 x hx

end

theorem agree_index {p p' : Packaging} (h : Agree p.package p'.package)
    (hs : p.storageIndex = p'.storageIndex) {si : StorageIndex} : IndexIs p si ↔ IndexIs p' si := by
  unfold IndexIs
  rw [← hs, h.indexAt]
  simp only [h.indexes.mem_iff]

theorem index_in {p : Packaging} {si : StorageIndex} (h : IndexIs p si) :
    ∃ i, (i, si) ∈ p.package.storageIndexes := by
  rcases h with h | ⟨-, h⟩
  · exact ⟨_, Map.mem_of_get? h⟩
  · exact h

theorem agree_store {p p' : Packaging} (h : Agree p.package p'.package)
    (hs : p.storageIndex = p'.storageIndex) {s : Store} : StoreIs p s ↔ StoreIs p' s := by
  constructor
  · rintro ⟨si, sm, hc, dc, h1, ⟨j, h2⟩, h3, h4, ⟨m, h5, h6⟩, h7, ⟨m', h8, h9⟩, h10, h11⟩
    obtain ⟨i, hi⟩ := index_in h1
    refine ⟨si, sm, hc, dc, (agree_index h hs).1 h1, ⟨j, h.manifests.mem_iff.1 h2⟩, h3, h4,
      ⟨m, h5, (agree_header h hi (.cell hi (Map.mem_of_get? h5))).1 h6⟩, h7,
      ⟨m', h8, (agree_space h hi (.cell hi (Map.mem_of_get? h8))).1 h9⟩, fun c m ho => ?_, h11⟩
    obtain ⟨space, h12, h13⟩ := h10 c m ho
    exact ⟨space, h12, (agree_space h hi (.cell hi (Map.mem_of_get? ho.1))).1 h13⟩
  · rintro ⟨si, sm, hc, dc, h1, ⟨j, h2⟩, h3, h4, ⟨m, h5, h6⟩, h7, ⟨m', h8, h9⟩, h10, h11⟩
    have h1 := (agree_index h hs).2 h1
    obtain ⟨i, hi⟩ := index_in h1
    refine ⟨si, sm, hc, dc, h1, ⟨j, h.manifests.mem_iff.2 h2⟩, h3, h4,
      ⟨m, h5, (agree_header h hi (.cell hi (Map.mem_of_get? h5))).2 h6⟩, h7,
      ⟨m', h8, (agree_space h hi (.cell hi (Map.mem_of_get? h8))).2 h9⟩, fun c m ho => ?_, h11⟩
    obtain ⟨space, h12, h13⟩ := h10 c m ho
    exact ⟨space, h12, (agree_space h hi (.cell hi (Map.mem_of_get? ho.1))).2 h13⟩

theorem agree_leads {pkg pkg' : Package} (h : Agree pkg pkg') {si : StorageIndex} {id : ExGuid}
    (hm : Mentioned pkg id) : LeadsToRevision pkg si id ↔ LeadsToRevision pkg' si id := by
  unfold LeadsToRevision
  rw [← h.cells id hm]
  constructor
  · rintro (⟨c, r, hc, hr⟩ | ⟨r, hr⟩)
    · exact .inl ⟨c, r, hc, (agree_resolves h (.current hc)).1 hr⟩
    · exact .inr ⟨r, (agree_resolves h hm).1 hr⟩
  · rintro (⟨c, r, hc, hr⟩ | ⟨r, hr⟩)
    · exact .inl ⟨c, r, hc, (agree_resolves h (.current hc)).2 hr⟩
    · exact .inr ⟨r, (agree_resolves h hm).2 hr⟩

theorem agree_unambiguous {p p' : Packaging} (h : Agree p.package p'.package)
    (hs : p.storageIndex = p'.storageIndex) : Unambiguous p ↔ Unambiguous p' := by
  have hset : ∀ i si c m, (i, si) ∈ p.package.storageIndexes → (c, m) ∈ si.cellMappings →
      (Settled p.package si m ↔ Settled p'.package si m) := by
    intro i si c m hi hc
    unfold Settled
    rw [agree_leads h (.cell hi hc)]
  constructor
  · rintro ⟨h1, h2, h3⟩
    refine ⟨?_, h.manifests.length_eq ▸ h2, fun i si c m hi hc => ?_⟩
    · rw [← hs, ← h.indexAt, ← h.indexes.length_eq]
      exact h1
    · have hi' := h.indexes.mem_iff.2 hi
      rw [← hset i si c m hi' hc]
      rcases h3 i si c m hi' hc with ⟨h4, h5⟩ | h4
      · exact .inl ⟨h4, fun j sm root hj => h5 j sm root (h.manifests.mem_iff.2 hj)⟩
      · exact .inr h4
  · rintro ⟨h1, h2, h3⟩
    refine ⟨?_, h.manifests.length_eq ▸ h2, fun i si c m hi hc => ?_⟩
    · rw [hs, h.indexAt, h.indexes.length_eq]
      exact h1
    · rw [hset i si c m hi hc]
      rcases h3 i si c m (h.indexes.mem_iff.1 hi) hc with ⟨h4, h5⟩ | h4
      · exact .inl ⟨h4, fun j sm root hj => h5 j sm root (h.manifests.mem_iff.1 hj)⟩
      · exact .inr h4

/-! ### Packages made of elements -/

theorem mem_ofList {K V : Type} [DecidableEq K] {es : List (K × V)} {k : K} {v : V}
    (h : (k, v) ∈ Map.ofList es) : (k, v) ∈ es := by
  have h := Map.get?_of_mem (Map.nodup_ofList es) h
  rw [Map.get?_ofList] at h
  exact lastWith_mem h

/-- The entries of one kind of element. -/
structure EntryKind {V : Type} (f : LaxElement → Option (ExGuid × V)) (ty : Nat) : Prop where
  key : ∀ {e k v}, f e = some (k, v) → k = e.id
  type : ∀ {e x}, f e = some x → contentsType e.piece = ty

section
variable {V : Type} {f : LaxElement → Option (ExGuid × V)} {ty : Nat}

theorem lastWith_append {K : Type} [DecidableEq K] (l l' : List (K × V)) (k : K) :
    lastWith (l ++ l') k = (lastWith l' k).or (lastWith l k) := by
  unfold lastWith
  rw [List.reverse_append, List.find?_append]
  cases l'.reverse.find? _ <;> rfl

theorem lastWith_cons {K : Type} [DecidableEq K] (e : K × V) (l : List (K × V)) (k : K) :
    lastWith (e :: l) k = (lastWith l k).or (if e.1 = k then some e.2 else none) := by
  rw [← List.singleton_append, lastWith_append]
  congr 1
  unfold lastWith
  by_cases h : e.1 = k <;> simp [h]

theorem kind_filter (hf : EntryKind f ty) (keep : LaxElement → Bool) (k : ExGuid) (es : List LaxElement)
    (h : ∀ e ∈ es, contentsType e.piece = ty → e.id = k → keep e = true) :
    lastWith ((es.filter keep).filterMap f) k = lastWith (es.filterMap f) k := by
  induction es with
  | nil => rfl
  | cons e es ih =>
    have ih := ih fun e he => h e (by simp [he])
    rw [List.filter_cons]
    split
    · simp only [List.filterMap_cons]
      cases f e with
      | none => exact ih
      | some x => simp only [lastWith_cons, ih]
    · rename_i hk
      simp only [List.filterMap_cons]
      cases hx : f e with
      | none => exact ih
      | some x =>
        obtain ⟨k', v⟩ := x
        rw [lastWith_cons, ih, if_neg, Option.or_none]
        intro hk'
        exact hk (h e (by simp) (hf.type hx) ((hf.key hx).symm.trans hk'))

theorem lastWith_iff {K : Type} [DecidableEq K] {l : List (K × V)} (h : (l.map Prod.fst).Nodup)
    {k : K} {v : V} : lastWith l k = some v ↔ (k, v) ∈ l := by
  refine ⟨lastWith_mem, fun hm => ?_⟩
  induction l with
  | nil => cases hm
  | cons e l ih =>
    simp only [List.map_cons, List.nodup_cons] at h
    rw [lastWith_cons]
    rcases List.mem_cons.1 hm with rfl | hm
    · have : lastWith l k = none := by
        cases hl : lastWith l k with
        | none => rfl
        | some v' => exact absurd (List.mem_map.2 ⟨_, lastWith_mem hl, rfl⟩) h.1
      rw [this]
      simp
    · rw [ih h.2 hm]
      rfl

theorem kind_nodup (hf : EntryKind f ty) {es : List LaxElement} (h : Distinct es) :
    ((es.filterMap f).map Prod.fst).Nodup := by
  induction es with
  | nil => exact List.nodup_nil
  | cons e es ih =>
    unfold Distinct at h
    simp only [List.map_cons, List.nodup_cons] at h
    have ih := ih h.2
    simp only [List.filterMap_cons]
    cases hx : f e with
    | none => exact ih
    | some x =>
      obtain ⟨k, v⟩ := x
      simp only [List.map_cons, List.nodup_cons]
      refine ⟨fun hm => h.1 ?_, ih⟩
      obtain ⟨⟨k', v'⟩, hm', rfl⟩ := List.mem_map.1 hm
      obtain ⟨e', he', hx'⟩ := List.mem_filterMap.1 hm'
      exact List.mem_map.2 ⟨e', he', Prod.ext ((hf.type hx').trans (hf.type hx).symm)
        ((hf.key hx').symm.trans (hf.key hx))⟩

theorem kind_perm (hf : EntryKind f ty) {es es' : List LaxElement} (h : Distinct es) (hp : es.Perm es')
    (k : ExGuid) : lastWith (es.filterMap f) k = lastWith (es'.filterMap f) k := by
  have h' : Distinct es' := (hp.map _).nodup_iff.1 h
  apply Option.ext
  intro v
  rw [lastWith_iff (kind_nodup hf h), lastWith_iff (kind_nodup hf h')]
  exact (hp.filterMap f).mem_iff

end

/-- The maps have the same answers, so they are the same up to their order. -/
theorem ofList_perm {K V : Type} [DecidableEq K] {l l' : List (K × V)}
    (h : ∀ k, lastWith l k = lastWith l' k) : (Map.ofList l).Perm (Map.ofList l') := by
  refine (List.perm_ext_iff_of_nodup ?_ ?_).2 fun ⟨k, v⟩ => ?_
  · exact List.Pairwise.of_map _ (fun _ _ h e => h (congrArg Prod.fst e)) (Map.nodup_ofList l)
  · exact List.Pairwise.of_map _ (fun _ _ h e => h (congrArg Prod.fst e)) (Map.nodup_ofList l')
  · have e : ∀ m : List (K × V), (k, v) ∈ Map.ofList m ↔ lastWith m k = some v := fun m => by
      rw [← Map.get?_ofList]
      exact ⟨Map.get?_of_mem (Map.nodup_ofList m), Map.mem_of_get?⟩
    rw [e, e, h]

def wholePart : LaxElement → Option Element
  | ⟨id, .body b⟩ => some ⟨id, b⟩
  | _ => none

theorem kind_of {V : Type} (g : Element → Option (ExGuid × V)) (ty : Nat)
    (h : ∀ id b x, g ⟨id, b⟩ = some x → x.1 = id ∧ bodyType b = ty) :
    EntryKind (fun e => (wholePart e).bind g) ty := by
  constructor
  · rintro ⟨id, b | f⟩ k v hx
    · exact (h id b _ hx).1
    · cases hx
  · rintro ⟨id, b | f⟩ x hx
    · exact (h id b _ hx).2
    · cases hx

/-- The six lists of entries of a package. -/
theorem entries_kinds :
    (∃ f, EntryKind f 1 ∧ ∀ es, storageIndexes (wholeElements es) = es.filterMap f) ∧
    (∃ f, EntryKind f 2 ∧ ∀ es, storageManifests (wholeElements es) = es.filterMap f) ∧
    (∃ f, EntryKind f 3 ∧ ∀ es, cellManifests (wholeElements es) = es.filterMap f) ∧
    (∃ f, EntryKind f 4 ∧ ∀ es, revisionManifests (wholeElements es) = es.filterMap f) ∧
    (∃ f, EntryKind f 5 ∧ ∀ es, objectGroups (wholeElements es) = es.filterMap f) ∧
    (∃ f, EntryKind f 10 ∧ ∀ es, blobs (wholeElements es) = es.filterMap f) := by
  refine ⟨⟨_, kind_of _ _ ?_, fun es => List.filterMap_filterMap⟩,
    ⟨_, kind_of _ _ ?_, fun es => List.filterMap_filterMap⟩,
    ⟨_, kind_of _ _ ?_, fun es => List.filterMap_filterMap⟩,
    ⟨_, kind_of _ _ ?_, fun es => List.filterMap_filterMap⟩,
    ⟨_, kind_of _ _ ?_, fun es => List.filterMap_filterMap⟩,
    ⟨_, kind_of _ _ ?_, fun es => List.filterMap_filterMap⟩⟩ <;>
  · intro id b x hx
    cases b <;> cases hx
    exact ⟨rfl, rfl⟩

/-- Whatever is looked up in the package is referred to by an element. -/
theorem mentioned_refers {es : List LaxElement} {id : ExGuid} (h : Mentioned (laxPackageOf es) id) :
    ∃ e ∈ es, Refers e.piece id := by
  have whole : ∀ k b, (⟨k, b⟩ : Element) ∈ wholeElements es → ⟨k, .body b⟩ ∈ es := by
    intro k b h
    obtain ⟨e, he, hx⟩ := List.mem_filterMap.1 h
    obtain ⟨i, b' | f⟩ := e <;> cases hx
    exact he
  have idx : ∀ k si, (k, si) ∈ (laxPackageOf es).storageIndexes →
      ∃ items, ⟨k, .body (.storageIndex items)⟩ ∈ es ∧ si = indexOf items := by
    intro k si h
    obtain ⟨e, he, hx⟩ := List.mem_filterMap.1 (mem_ofList h)
    obtain ⟨i, b⟩ := e
    cases b <;> cases hx
    exact ⟨_, whole _ _ he, rfl⟩
  cases h with
  | cell hi hc =>
    obtain ⟨items, he, rfl⟩ := idx _ _ hi
    obtain ⟨item, hm, hx⟩ := List.mem_filterMap.1 (mem_ofList hc)
    cases item <;> cases hx
    exact ⟨_, he, .cell hm⟩
  | revision hi hc =>
    obtain ⟨items, he, rfl⟩ := idx _ _ hi
    obtain ⟨item, hm, hx⟩ := List.mem_filterMap.1 (mem_ofList hc)
    cases item <;> cases hx
    exact ⟨_, he, .revision hm⟩
  | current hc =>
    obtain ⟨e, he, hx⟩ := List.mem_filterMap.1 (mem_ofList (Map.mem_of_get? hc))
    obtain ⟨i, b⟩ := e
    cases b <;> cases hx
    exact ⟨_, whole _ _ he, .current⟩
  | base hc =>
    obtain ⟨e, he, hx⟩ := List.mem_filterMap.1 (mem_ofList (Map.mem_of_get? hc))
    obtain ⟨i, b⟩ := e
    cases b <;> cases hx
    exact ⟨_, whole _ _ he, .base⟩
  | group hc hg =>
    obtain ⟨e, he, hx⟩ := List.mem_filterMap.1 (mem_ofList (Map.mem_of_get? hc))
    obtain ⟨i, b⟩ := e
    cases b <;> cases hx
    obtain ⟨item, hm, hx⟩ := List.mem_filterMap.1 hg
    cases item <;> cases hx
    exact ⟨_, whole _ _ he, .group hm⟩
  | blob hc hg =>
    obtain ⟨e, he, hx⟩ := List.mem_filterMap.1 (mem_ofList (Map.mem_of_get? hc))
    obtain ⟨i, b⟩ := e
    cases b <;> cases hx
    exact ⟨_, whole _ _ he, .fileData hg⟩

/-- The order of distinct elements does not matter. -/
theorem agree_perm {es es' : List LaxElement} (h : Distinct es) (hp : es.Perm es') :
    Agree (laxPackageOf es) (laxPackageOf es') := by
  obtain ⟨⟨f1, k1, e1⟩, ⟨f2, k2, e2⟩, ⟨f3, k3, e3⟩, ⟨f4, k4, e4⟩, ⟨f5, k5, e5⟩, ⟨f6, k6, e6⟩⟩ :=
    entries_kinds
  constructor
  · exact ofList_perm fun k => by rw [e1, e1]; exact kind_perm k1 h hp k
  · intro id
    simp only [laxPackageOf, packageOf, Map.get?_ofList, e1]
    exact kind_perm k1 h hp id
  · exact ofList_perm fun k => by rw [e2, e2]; exact kind_perm k2 h hp k
  · intro id _
    simp only [laxPackageOf, packageOf, Map.get?_ofList, e3]
    exact kind_perm k3 h hp id
  · intro id _
    simp only [laxPackageOf, packageOf, Map.get?_ofList, e4]
    exact kind_perm k4 h hp id
  · intro id _
    simp only [laxPackageOf, packageOf, Map.get?_ofList, e5]
    exact kind_perm k5 h hp id
  · intro id _
    simp only [laxPackageOf, packageOf, Map.get?_ofList, e6]
    exact kind_perm k6 h hp id

theorem start_iff (c : LaxContents) : IsStart c ↔ contentsType c = 1 ∨ contentsType c = 2 := by
  rcases c with b | f
  · cases b <;> simp [IsStart, contentsType, bodyType]
  · simp [IsStart, contentsType]

/-- Elements that no other element refers to do not matter. -/
theorem agree_filter {es : List LaxElement} {keep : LaxElement → Bool}
    (h : ∀ e ∈ es, keep e = false → ¬ IsStart e.piece ∧
      ∀ e' ∈ es, keep e' = true → ¬ Refers e'.piece e.id) :
    Agree (laxPackageOf (es.filter keep)) (laxPackageOf es) := by
  obtain ⟨⟨f1, k1, e1⟩, ⟨f2, k2, e2⟩, ⟨f3, k3, e3⟩, ⟨f4, k4, e4⟩, ⟨f5, k5, e5⟩, ⟨f6, k6, e6⟩⟩ :=
    entries_kinds
  have start : ∀ e ∈ es, IsStart e.piece → keep e = true := by
    intro e he hs
    cases hk : keep e with
    | true => rfl
    | false => exact absurd hs (h e he hk).1
  have named : ∀ id, Mentioned (laxPackageOf (es.filter keep)) id → ∀ e ∈ es, e.id = id →
      keep e = true := by
    rintro id hm e he rfl
    obtain ⟨e', he', hr⟩ := mentioned_refers hm
    rw [List.mem_filter] at he'
    cases hk : keep e with
    | true => rfl
    | false => exact absurd hr ((h e he hk).2 e' he'.1 he'.2)
  constructor
  · refine ofList_perm fun k => ?_
    rw [e1, e1]
    exact kind_filter k1 keep k es fun e he ht _ => start e he ((start_iff _).2 (.inl ht))
  · intro id
    simp only [laxPackageOf, packageOf, Map.get?_ofList, e1]
    exact kind_filter k1 keep id es fun e he ht _ => start e he ((start_iff _).2 (.inl ht))
  · refine ofList_perm fun k => ?_
    rw [e2, e2]
    exact kind_filter k2 keep k es fun e he ht _ => start e he ((start_iff _).2 (.inr ht))
  · intro id hm
    simp only [laxPackageOf, packageOf, Map.get?_ofList, e3]
    exact kind_filter k3 keep id es fun e he _ hi => named id hm e he hi
  · intro id hm
    simp only [laxPackageOf, packageOf, Map.get?_ofList, e4]
    exact kind_filter k4 keep id es fun e he _ hi => named id hm e he hi
  · intro id hm
    simp only [laxPackageOf, packageOf, Map.get?_ofList, e5]
    exact kind_filter k5 keep id es fun e he _ hi => named id hm e he hi
  · intro id hm
    simp only [laxPackageOf, packageOf, Map.get?_ofList, e6]
    exact kind_filter k6 keep id es fun e he _ hi => named id hm e he hi

/-! ### Files -/

/-- If the packages of the elements agree, the files show the same. -/
theorem agree_files {data data' : Bytes} {si : ExGuid} {es es' : List LaxElement}
    (h : HoldsElements data si es) (h' : HoldsElements data' si es')
    (ha : Agree (laxPackageOf es) (laxPackageOf es')) :
    (PlainFile data ↔ PlainFile data') ∧ ∀ s, FileStore data s ↔ FileStore data' s := by
  obtain ⟨a, b, c, d, schema, bs, rest, hl, hd⟩ := h
  obtain ⟨a', b', c', d', schema', bs', rest', hl', hd'⟩ := h'
  have hc : Contains data ⟨a, b, c, d, si, schema, laxPackageOf es⟩ :=
    ⟨a, b, c, d, si, schema, es, bs, rest, hl, hd, rfl⟩
  have hc' : Contains data' ⟨a', b', c', d', si, schema', laxPackageOf es'⟩ :=
    ⟨a', b', c', d', si, schema', es', bs', rest', hl', hd', rfl⟩
  have u : ∀ p, Contains data p ↔ p = ⟨a, b, c, d, si, schema, laxPackageOf es⟩ := by
    intro p
    rw [holds_iff, holds_iff.1 hc, Except.ok.injEq, eq_comm]
  have u' : ∀ p, Contains data' p ↔ p = ⟨a', b', c', d', si, schema', laxPackageOf es'⟩ := by
    intro p
    rw [holds_iff, holds_iff.1 hc', Except.ok.injEq, eq_comm]
  constructor
  · simp only [PlainFile, u, u', forall_eq]
    exact agree_unambiguous ha rfl
  · intro s
    simp only [FileStore, u, u', exists_eq_left]
    exact agree_store (p := ⟨a, b, c, d, si, schema, laxPackageOf es⟩)
      (p' := ⟨a', b', c', d', si, schema', laxPackageOf es'⟩) ha rfl

/-- The format is part of what is accepted. -/
theorem lax_element {e : Element} {bs : Bytes} (h : ElementEnc e bs) :
    LaxElementEnc (ordinary e) bs := by
  cases h with
  | mk id body serial h bi bs bt bb hh hi hs ht hb =>
    refine .mk _ _ serial _ _ _ _ _ hh hi ?_ ht (.legal _ _ hb)
    cases hs with
    | null => exact .null
    | value g n h => exact .value _ _ _ (by decide) h

theorem lax_elements {es : List Element} {bs : Bytes} (h : ListEnc ElementEnc es bs) :
    ListEnc LaxElementEnc (es.map ordinary) bs := by
  induction h with
  | nil => exact .nil
  | cons h _ ih => exact .cons (lax_element h) ih

/-- The written file holds the written elements. -/
theorem fileW_holds {si : ExGuid} {schema : Guid} {es : List Element} (hs : ExGuidFits si)
    (h : ∀ e ∈ es, ElementFits e) : HoldsElements (fileW si schema es) si (es.map ordinary) := by
  refine ⟨schema, Guid.nil, Guid.nil, packageStore, schema, _, [], .packageStore _ rfl (.mk _ ?_),
    (List.append_nil _).symm⟩
  have ht := tailW_enc (schema := schema) hs h
  generalize tailW si schema es = bs at ht
  cases ht with
  | mk h bi bp hh hi hp =>
    refine .mk _ _ _ hh hi ?_
    cases hp with
    | mk _ _ hh he => exact .mk _ _ _ hh (lax_elements he)

/-- The elements an element refers to, as a list. -/
def refersList : LaxContents → List ExGuid
  | .body (.storageIndex items) => items.flatMap fun
    | .cell _ id _ => [id]
    | .revision _ id _ => [id]
    | .manifest _ _ => []
  | .body (.cellManifest id) => [id]
  | .body (.revisionManifest _ b items) => b :: items.flatMap fun
    | .group id => [id]
    | .root _ _ => []
  | .body (.objectGroup _ os) => os.flatMap fun
    | .blobReference _ _ id => [id]
    | _ => []
  | _ => []

theorem refers_list {c : LaxContents} {id : ExGuid} (h : Refers c id) : id ∈ refersList c := by
  cases h with
  | cell h => exact List.mem_flatMap.2 ⟨_, h, List.mem_singleton.2 rfl⟩
  | revision h => exact List.mem_flatMap.2 ⟨_, h, List.mem_singleton.2 rfl⟩
  | current => exact List.mem_singleton.2 rfl
  | base => exact List.mem_cons_self
  | group h => exact List.mem_cons_of_mem _ (List.mem_flatMap.2 ⟨_, h, List.mem_singleton.2 rfl⟩)
  | fileData h => exact List.mem_flatMap.2 ⟨_, h, List.mem_singleton.2 rfl⟩

instance : (c : LaxContents) → Decidable (IsStart c)
  | .body (.storageIndex _) => isTrue trivial
  | .body (.storageManifest _ _) => isTrue trivial
  | .body (.cellManifest _) => isFalse fun h => h
  | .body (.revisionManifest _ _ _) => isFalse fun h => h
  | .body (.objectGroup _ _) => isFalse fun h => h
  | .body (.blob _) => isFalse fun h => h
  | .fragment _ => isFalse fun h => h

end OneNote
