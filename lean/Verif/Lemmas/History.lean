/-
Overwritten object groups do not matter.
-/
import Verif.Lemmas.Arrange
import Verif.Spec.History

namespace OneNote

open Spec Spec.StoreContents Spec.History

/-- The packages differ at most in the contents of the object groups `old`. -/
structure Alike (old : ExGuid → Prop) (pkg pkg' : Package) : Prop where
  indexes : pkg.storageIndexes = pkg'.storageIndexes
  manifests : pkg.storageManifests = pkg'.storageManifests
  cells : pkg.cellManifests = pkg'.cellManifests
  revisions : pkg.revisionManifests = pkg'.revisionManifests
  blobs : pkg.blobs = pkg'.blobs
  groups : ∀ id, ¬ old id → pkg.objectGroups.get? id = pkg'.objectGroups.get? id
  exist : ∀ id, (∃ g, pkg.objectGroups.get? id = some g) ↔ ∃ g, pkg'.objectGroups.get? id = some g

section
variable {old : ExGuid → Prop} {pkg pkg' : Package} {si : StorageIndex}

theorem Alike.symm (h : Alike old pkg pkg') : Alike old pkg' pkg :=
  ⟨h.indexes.symm, h.manifests.symm, h.cells.symm, h.revisions.symm, h.blobs.symm,
    fun id hid => (h.groups id hid).symm, fun id => (h.exist id).symm⟩

theorem alike_resolves (h : Alike old pkg pkg') {id r : ExGuid} :
    Resolves pkg si id r ↔ Resolves pkg' si id r := by
  unfold Resolves
  rw [h.revisions]

theorem alike_chain (h : Alike old pkg pkg') {r : ExGuid} {ms : List RevisionManifest}
    (hc : RevisionChain pkg si r ms) : RevisionChain pkg' si r ms := by
  induction hc with
  | oldest r m h1 h2 => exact .oldest r m (h.revisions ▸ h1) h2
  | based r b m ms h1 h2 h3 _ ih =>
    exact .based r b m ms (h.revisions ▸ h1) h2 ((alike_resolves h).1 h3) ih

theorem alike_leadsTo (h : Alike old pkg pkg') {id r : ExGuid} :
    LeadsTo pkg si id r ↔ LeadsTo pkg' si id r := by
  unfold LeadsTo
  simp only [h.cells, alike_resolves (si := si) h]

theorem alike_newest (h : Alike old pkg pkg') {m : CellMapping} {r : ExGuid} :
    Newest pkg si m r ↔ Newest pkg' si m r := by
  unfold Newest
  simp only [alike_leadsTo (si := si) h]

theorem alike_object (h : Alike old pkg pkg') {cell : CellId} {g : ObjectGroup} {id : ExGuid}
    {o : Object} (ho : ObjectIs pkg cell g id o) : ObjectIs pkg' cell g id o :=
  ⟨ho.context, ho.kind, ho.properties, h.blobs ▸ ho.file⟩

theorem groupsOf_ids (ms : List RevisionManifest) :
    groupsOf pkg ms = (groupIdsOf ms).filterMap pkg.objectGroups.get? := by
  unfold groupsOf groupIdsOf
  induction ms with
  | nil => rfl
  | cons m ms ih => simp only [List.flatMap_cons, List.filterMap_append, ih]

/-- The first group that declares `id`. -/
inductive FirstWith (pkg : Package) (id : ExGuid) : List ExGuid → Option ObjectGroup → Prop where
  | nil : FirstWith pkg id [] none
  | missing {k ks r} : pkg.objectGroups.get? k = none → FirstWith pkg id ks r →
      FirstWith pkg id (k :: ks) r
  | here {k ks g} : pkg.objectGroups.get? k = some g → Declares g id →
      FirstWith pkg id (k :: ks) (some g)
  | there {k ks g r} : pkg.objectGroups.get? k = some g → ¬ Declares g id →
      FirstWith pkg id ks r → FirstWith pkg id (k :: ks) r

theorem firstWith_exists (pkg : Package) (id : ExGuid) (ks : List ExGuid) :
    ∃ r, FirstWith pkg id ks r := by
  induction ks with
  | nil => exact ⟨_, .nil⟩
  | cons k ks ih =>
    obtain ⟨r, hr⟩ := ih
    cases hk : pkg.objectGroups.get? k with
    | none => exact ⟨_, .missing hk hr⟩
    | some g =>
      by_cases hd : Declares g id
      · exact ⟨_, .here hk hd⟩
      · exact ⟨_, .there hk hd hr⟩

theorem firstWith_some {id : ExGuid} {ks : List ExGuid} {g : ObjectGroup} :
    FirstWith pkg id ks (some g) ↔ ∃ pre post, ks.filterMap pkg.objectGroups.get? = pre ++ g :: post ∧
      (∀ g' ∈ pre, ¬ Declares g' id) ∧ Declares g id := by
  induction ks with
  | nil =>
    constructor
    · intro h; cases h
    · rintro ⟨pre, post, h, -⟩
      simp at h
  | cons k ks ih =>
    rw [List.filterMap_cons]
    constructor
    · intro h
      cases h with
      | missing hk h => rw [hk]; exact ih.1 h
      | here hk hd => rw [hk]; exact ⟨[], _, rfl, by simp, hd⟩
      | @there _ _ g0 _ hk hd h =>
        rw [hk]
        obtain ⟨pre, post, h1, h2, h3⟩ := ih.1 h
        refine ⟨g0 :: pre, post, ?_, ?_, h3⟩
        · simp only [h1, List.cons_append]
        · rintro g' hg'
          rcases List.mem_cons.1 hg' with rfl | hg'
          · exact hd
          · exact h2 g' hg'
    · rintro ⟨pre, post, h1, h2, h3⟩
      cases hk : pkg.objectGroups.get? k with
      | none => rw [hk] at h1; exact .missing hk (ih.2 ⟨pre, post, h1, h2, h3⟩)
      | some g0 =>
        rw [hk] at h1
        cases pre with
        | nil => cases h1; exact .here hk h3
        | cons p pre =>
          simp only [List.cons_append, List.cons.injEq] at h1
          obtain ⟨rfl, h1⟩ := h1
          exact .there hk (h2 _ (by simp)) (ih.2 ⟨pre, post, h1, fun g' hg' => h2 g' (by simp [hg']), h3⟩)

theorem firstWith_none {id : ExGuid} {ks : List ExGuid} :
    FirstWith pkg id ks none ↔ ∀ g ∈ ks.filterMap pkg.objectGroups.get?, ¬ Declares g id := by
  induction ks with
  | nil => exact ⟨fun _ => by simp, fun _ => .nil⟩
  | cons k ks ih =>
    rw [List.filterMap_cons]
    constructor
    · intro h
      cases h with
      | missing hk h => rw [hk]; exact ih.1 h
      | there hk hd h =>
        rw [hk]
        intro g hg
        rcases List.mem_cons.1 hg with rfl | hg
        · exact hd
        · exact ih.1 h g hg
    · intro h
      cases hk : pkg.objectGroups.get? k with
      | none => rw [hk] at h; exact .missing hk (ih.2 h)
      | some g =>
        rw [hk] at h
        exact .there hk (h g (by simp)) (ih.2 fun g' hg' => h g' (by simp [hg']))

/-- Whatever an overwritten group declares was declared before. -/
def Shadowed (old : ExGuid → Prop) (pkg : Package) (ks : List ExGuid) : Prop :=
  ∀ newer gid older g id, ks = newer ++ gid :: older → old gid → pkg.objectGroups.get? gid = some g →
    Declares g id →
    ∃ gid' ∈ newer, ¬ old gid' ∧ ∃ g', pkg.objectGroups.get? gid' = some g' ∧ Declares g' id

theorem none_before {id : ExGuid} {pre : List ExGuid} {k : ExGuid}
    (hp : ∀ k ∈ pre, ¬ old k → ∀ g, pkg.objectGroups.get? k = some g → ¬ Declares g id)
    (hk : ∀ g, pkg.objectGroups.get? k = some g → ¬ Declares g id) :
    ∀ k' ∈ pre ++ [k], ¬ old k' → ∀ g, pkg.objectGroups.get? k' = some g → ¬ Declares g id := by
  intro k' hk' ho g hg
  rcases List.mem_append.1 hk' with hk' | hk'
  · exact hp k' hk' ho g hg
  · rw [List.mem_singleton.1 hk'] at hg
    exact hk g hg

/-- As long as nothing before declares `id`, both packages find the same group. -/
theorem firstWith_alike (h : Alike old pkg pkg') {id : ExGuid} (pre ks : List ExGuid)
    (hs : Shadowed old pkg (pre ++ ks)) (hs' : Shadowed old pkg' (pre ++ ks))
    (hp : ∀ k ∈ pre, ¬ old k → ∀ g, pkg.objectGroups.get? k = some g → ¬ Declares g id)
    {r : Option ObjectGroup} (hf : FirstWith pkg id ks r) : FirstWith pkg' id ks r := by
  induction hf generalizing pre with
  | nil => exact .nil
  | @missing k ks r hk _ ih =>
    have e : pre ++ k :: ks = (pre ++ [k]) ++ ks := by simp
    have hk' : pkg'.objectGroups.get? k = none := by
      cases hk' : pkg'.objectGroups.get? k with
      | none => rfl
      | some g =>
        obtain ⟨g', hg'⟩ := (h.exist k).2 ⟨g, hk'⟩
        rw [hk] at hg'
        cases hg'
    have hp' := none_before hp fun g hg => by rw [hk] at hg; cases hg
    exact .missing hk' (ih (pre ++ [k]) (e ▸ hs) (e ▸ hs') hp')
  | @here k ks g hk hd =>
    by_cases ho : old k
    · obtain ⟨k', hk', ho', g', hg', hd'⟩ := hs pre k ks g id rfl ho hk hd
      exact absurd hd' (hp k' hk' ho' g' hg')
    · exact .here (h.groups k ho ▸ hk) hd
  | @there k ks g r hk hd _ ih =>
    have e : pre ++ k :: ks = (pre ++ [k]) ++ ks := by simp
    obtain ⟨g', hg'⟩ := (h.exist k).1 ⟨g, hk⟩
    have hp' := none_before hp fun g hg => by rw [hk] at hg; cases hg; exact hd
    refine .there hg' ?_ (ih (pre ++ [k]) (e ▸ hs) (e ▸ hs') hp')
    intro hd'
    by_cases ho : old k
    · obtain ⟨k', hk', ho', g', hg', hd'⟩ := hs' pre k ks g' id rfl ho hg' hd'
      rw [← h.groups k' ho'] at hg'
      exact hp k' hk' ho' g' hg' hd'
    · rw [← h.groups k ho, hk] at hg'
      cases hg'
      exact hd hd'

theorem alike_history (h : Alike old pkg pkg') {ms : List RevisionManifest}
    (hs : Shadowed old pkg (groupIdsOf ms)) (hs' : Shadowed old pkg' (groupIdsOf ms))
    {cell : CellId} {s : ObjectSpace} (hh : HistoryIs pkg cell ms s) : HistoryIs pkg' cell ms s := by
  obtain ⟨h1, h2, h3, h4, h5⟩ := hh
  refine ⟨fun m hm gid hg => (h.exist gid).1 (h1 m hm gid hg), h2, h3,
    fun id pre g post hpre hn hd => ?_, fun id hn => ?_⟩
  · rw [groupsOf_ids] at hpre
    have hf := firstWith_alike h.symm [] _ hs' hs (by simp) (firstWith_some.2 ⟨pre, post, hpre, hn, hd⟩)
    obtain ⟨pre', post', hpre', hn', hd'⟩ := firstWith_some.1 hf
    obtain ⟨h6, o, h7, h8⟩ := h4 id pre' g post' ((groupsOf_ids ms).trans hpre') hn' hd'
    exact ⟨h6, o, h7, alike_object h h8⟩
  · rw [groupsOf_ids] at hn
    have hf := firstWith_alike h.symm [] _ hs' hs (by simp) (firstWith_none.2 hn)
    refine h5 id ?_
    rw [groupsOf_ids]
    exact firstWith_none.1 hf

theorem alike_space (h : Alike old pkg pkg') (ho : Overwritten pkg old) (ho' : Overwritten pkg' old)
    {i : ExGuid} (hi : (i, si) ∈ pkg.storageIndexes) {c : CellId} {m : CellMapping}
    (hm : (c, m) ∈ si.cellMappings) {s : ObjectSpace} (hsp : SpaceIs pkg si m s) :
    SpaceIs pkg' si m s := by
  obtain ⟨h1, h2, h3⟩ := hsp
  refine ⟨h1, h2, ?_⟩
  rcases h3 with ⟨r, ms, h4, h5, h6⟩ | ⟨h4, h5, h6⟩
  · have h4' := (alike_newest h).1 h4
    have h5' := alike_chain h h5
    exact .inl ⟨r, ms, h4', h5', alike_history h (ho.objects ms ⟨i, si, c, m, r, hi, hm, h4, h5⟩)
      (ho'.objects ms ⟨i, si, c, m, r, h.indexes ▸ hi, hm, h4', h5'⟩) h6⟩
  · exact .inr ⟨fun ⟨r, hr⟩ => h4 ⟨r, (alike_newest h).2 hr⟩, h.cells ▸ h5, h6⟩

theorem alike_header (h : Alike old pkg pkg') (ho : Overwritten pkg old) {i : ExGuid}
    (hi : (i, si) ∈ pkg.storageIndexes) {c : CellId} {m : CellMapping} (hm : (c, m) ∈ si.cellMappings)
    {s : StoreHeader} (hh : HeaderIs pkg si m.id s) : HeaderIs pkg' si m.id s := by
  obtain ⟨r, rm, gid, gids, g, h1, h2, h3, h4, h5, h6⟩ := hh
  have hn := ho.first i si c m r rm gid hi hm h1 h2 (by rw [h3]; rfl)
  refine ⟨r, rm, gid, gids, g, ?_, h.revisions ▸ h2, h3, h.groups gid hn ▸ h4,
    fun x hx => (h.exist x).1 (h5 x hx), h6⟩
  unfold HeaderRevision at h1 ⊢
  simpa only [alike_leadsTo (si := si) h] using h1

end

theorem alike_store {old : ExGuid → Prop} {p p' : Packaging} (h : Alike old p.package p'.package)
    (ho : Overwritten p.package old) (ho' : Overwritten p'.package old)
    (hs : p.storageIndex = p'.storageIndex) {s : Store} (hst : StoreIs p s) : StoreIs p' s := by
  obtain ⟨si, sm, hc, dc, h1, ⟨j, h2⟩, h3, h4, ⟨m, h5, h6⟩, h7, ⟨m', h8, h9⟩, h10, h11⟩ := hst
  obtain ⟨i, hi⟩ := index_in h1
  refine ⟨si, sm, hc, dc, ?_, ⟨j, h.manifests ▸ h2⟩, h3, h4,
    ⟨m, h5, alike_header h ho hi (Map.mem_of_get? h5) h6⟩, h7,
    ⟨m', h8, alike_space h ho ho' hi (Map.mem_of_get? h8) h9⟩, fun c m hother => ?_, h11⟩
  · unfold IndexIs at h1 ⊢
    rw [← hs, ← h.indexes]
    exact h1
  · obtain ⟨space, h12, h13⟩ := h10 c m hother
    exact ⟨space, h12, alike_space h ho ho' hi (Map.mem_of_get? hother.1) h13⟩

theorem alike_unambiguous {old : ExGuid → Prop} {p p' : Packaging}
    (h : Alike old p.package p'.package) (hs : p.storageIndex = p'.storageIndex)
    (hu : Unambiguous p) : Unambiguous p' := by
  obtain ⟨h1, h2, h3⟩ := hu
  refine ⟨?_, h.manifests ▸ h2, fun i si c m hi hc => ?_⟩
  · rw [← hs, ← h.indexes]
    exact h1
  · rw [← h.indexes] at hi
    rcases h3 i si c m hi hc with ⟨h4, h5⟩ | h4
    · exact .inl ⟨h4, h.manifests ▸ h5⟩
    · refine .inr ?_
      unfold Settled LeadsToRevision at h4 ⊢
      simpa only [h.cells, alike_resolves (si := si) h] using h4

/-! ### Elements -/

theorem sameBut_symm {old : ExGuid → Prop} {es es' : List LaxElement} (h : SameBut old es es') :
    SameBut old es' es := by
  unfold SameBut at h ⊢
  induction h with
  | nil => exact .nil
  | cons hr _ ih =>
    refine .cons ?_ ih
    rcases hr with rfl | ⟨ds, os, ds', os', ho, hp, rfl⟩
    · exact .inl rfl
    · refine .inr ⟨ds', os', ds, os, ho, rfl, ?_⟩
      rw [← hp]

theorem sameBut_lists {old : ExGuid → Prop} {es es' : List LaxElement} (h : SameBut old es es') :
    storageIndexes (wholeElements es) = storageIndexes (wholeElements es') ∧
    storageManifests (wholeElements es) = storageManifests (wholeElements es') ∧
    cellManifests (wholeElements es) = cellManifests (wholeElements es') ∧
    revisionManifests (wholeElements es) = revisionManifests (wholeElements es') ∧
    blobs (wholeElements es) = blobs (wholeElements es') := by
  unfold SameBut at h
  induction h with
  | nil => exact ⟨rfl, rfl, rfl, rfl, rfl⟩
  | @cons e e' es es' hr _ ih =>
    rcases hr with rfl | ⟨ds, os, ds', os', ho, hp, rfl⟩
    · obtain ⟨id, b | f⟩ := e'
      · simp only [wholeElements, List.filterMap_cons] at ih ⊢
        obtain ⟨h1, h2, h3, h4, h5⟩ := ih
        refine ⟨?_, ?_, ?_, ?_, ?_⟩ <;> cases b <;>
          simp only [storageIndexes, storageManifests, cellManifests, revisionManifests, blobs,
            List.filterMap_cons] at h1 h2 h3 h4 h5 ⊢ <;> first | assumption | (congr 1)
      · exact ih
    · obtain ⟨id, b⟩ := e
      cases hp
      exact ih

theorem sameBut_groups {old : ExGuid → Prop} {es es' : List LaxElement} (h : SameBut old es es') :
    (∀ k, ¬ old k → lastWith (objectGroups (wholeElements es)) k =
      lastWith (objectGroups (wholeElements es')) k) ∧
    ∀ k, (∃ g, lastWith (objectGroups (wholeElements es)) k = some g) →
      ∃ g, lastWith (objectGroups (wholeElements es')) k = some g := by
  unfold SameBut at h
  induction h with
  | nil => exact ⟨fun _ _ => rfl, fun _ h => h⟩
  | @cons e e' es es' hr _ ih =>
    have cons : ∀ (id : ExGuid) (b : Body) (es : List LaxElement),
        objectGroups (wholeElements (⟨id, .body b⟩ :: es)) =
          (objectGroups [⟨id, b⟩]) ++ objectGroups (wholeElements es) := by
      intro id b es
      cases b <;> rfl
    have or_some : ∀ {α : Type} (a b : Option α),
        (∃ g, a.or b = some g) ↔ (∃ g, a = some g) ∨ ∃ g, b = some g := by
      intro α a b
      cases a <;> cases b <;> simp
    rcases hr with rfl | ⟨ds, os, ds', os', ho, hp, rfl⟩
    · obtain ⟨id, b | f⟩ := e'
      · rw [cons, cons]
        simp only [lastWith_append]
        refine ⟨fun k hk => by rw [ih.1 k hk], fun k hk => ?_⟩
        rw [or_some] at hk ⊢
        exact hk.imp (ih.2 k) fun h => h
      · exact ih
    · obtain ⟨id, b⟩ := e
      cases hp
      rw [cons, cons]
      simp only [lastWith_append]
      refine ⟨fun k hk => ?_, fun k hk => ?_⟩
      · have hne : id ≠ k := fun h => hk (h ▸ ho)
        rw [ih.1 k hk]
        congr 1
        simp [objectGroups, lastWith, hne]
      · rw [or_some] at hk ⊢
        refine hk.imp (ih.2 k) ?_
        by_cases hk : id = k <;> simp [objectGroups, lastWith, hk]

theorem sameBut_alike {old : ExGuid → Prop} {es es' : List LaxElement} (h : SameBut old es es') :
    Alike old (laxPackageOf es) (laxPackageOf es') := by
  obtain ⟨h1, h2, h3, h4, h5⟩ := sameBut_lists h
  refine ⟨congrArg Map.ofList h1, congrArg Map.ofList h2, congrArg Map.ofList h3,
    congrArg Map.ofList h4, congrArg Map.ofList h5,
    fun k hk => ?_, fun k => ?_⟩
  · simp only [laxPackageOf, packageOf, Map.get?_ofList]
    exact (sameBut_groups h).1 k hk
  · simp only [laxPackageOf, packageOf, Map.get?_ofList]
    exact ⟨(sameBut_groups h).2 k, (sameBut_groups (sameBut_symm h)).2 k⟩

/-- Files that differ in overwritten object groups only. -/
theorem alike_files {old : ExGuid → Prop} {data data' : Bytes} {si : ExGuid} {es es' : List LaxElement}
    (h : HoldsElements data si es) (h' : HoldsElements data' si es') (hb : SameBut old es es')
    (ho : Overwritten (laxPackageOf es) old) (ho' : Overwritten (laxPackageOf es') old) :
    (PlainFile data ↔ PlainFile data') ∧ ∀ s, FileStore data s ↔ FileStore data' s := by
  have ha := sameBut_alike hb
  obtain ⟨a, b, c, d, schema, bs, rest, hl, hd⟩ := h
  obtain ⟨a', b', c', d', schema', bs', rest', hl', hd'⟩ := h'
  have hc : Contains data ⟨a, b, c, d, si, schema, laxPackageOf es⟩ :=
    ⟨a, b, c, d, si, schema, es, bs, rest, hl, hd, rfl⟩
  have hc' : Contains data' ⟨a', b', c', d', si, schema', laxPackageOf es'⟩ :=
    ⟨a', b', c', d', si, schema', es', bs', rest', hl', hd', rfl⟩
  have u : ∀ p, Contains data p ↔ p = ⟨a, b, c, d, si, schema, laxPackageOf es⟩ := by
    intro p
    rw [holds_iff, holds_iff.1 hc, Except.ok.injEq, eq_comm]
  have u' : ∀ p, Contains data' p ↔ p = ⟨a', b', c', d', si, schema', laxPackageOf es'⟩ := by
    intro p
    rw [holds_iff, holds_iff.1 hc', Except.ok.injEq, eq_comm]
  constructor
  · simp only [PlainFile, u, u', forall_eq]
    exact ⟨alike_unambiguous (p := ⟨a, b, c, d, si, schema, laxPackageOf es⟩)
      (p' := ⟨a', b', c', d', si, schema', laxPackageOf es'⟩) ha rfl,
      alike_unambiguous (p := ⟨a', b', c', d', si, schema', laxPackageOf es'⟩)
      (p' := ⟨a, b, c, d, si, schema, laxPackageOf es⟩) ha.symm rfl⟩
  · intro s
    simp only [FileStore, u, u', exists_eq_left]
    exact ⟨alike_store (p := ⟨a, b, c, d, si, schema, laxPackageOf es⟩)
      (p' := ⟨a', b', c', d', si, schema', laxPackageOf es'⟩) ha ho ho' rfl,
      alike_store (p := ⟨a', b', c', d', si, schema', laxPackageOf es'⟩)
      (p' := ⟨a, b, c, d, si, schema, laxPackageOf es⟩) ha.symm ho' ho rfl⟩

end OneNote
