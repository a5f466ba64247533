/-
What a page shows depends only on the history of its own cell.
-/
import Verif.Spec.PageHistory
import Verif.Lemmas.Arrange
import Verif.Lemmas.SameSpace
import Verif.Lemmas.SameStore
import Verif.Lemmas.Follow
import Verif.Props.C43
import Verif.Props.C46
import Verif.Props.C56

namespace OneNote.PageHistory

open Spec Spec.StoreContents Spec.Document Spec.PageHistory

/-! ### One cell of a file -/

/-- Equal roots, groups and file data make equal object spaces. -/
theorem histories_same {pkg pkg' : Package} {c : CellId} {ms ms' : List RevisionManifest}
    {s s' : ObjectSpace} (h : HistoryIs pkg c ms s) (h' : HistoryIs pkg' c ms' s')
    (hr : rootsOf ms = rootsOf ms') (hg : groupsOf pkg ms = groupsOf pkg' ms')
    (hb : ∀ g ∈ groupsOf pkg ms, ∀ refs cells id, GroupData.blobReference refs cells id ∈ g.objects →
      pkg.blobs.get? id = pkg'.blobs.get? id) :
    (∀ role, s.roots.get? role = s'.roots.get? role) ∧ ∀ id, s.getObject id = s'.getObject id := by
  refine ⟨fun role => by rw [h.roots, h'.roots, hr], fun id => ?_⟩
  rcases first_declaring (groupsOf pkg ms) id with hn | ⟨pre, g, post, he, hpre, hd⟩
  · rw [h.absent id hn, h'.absent id (hg ▸ hn)]
  · obtain ⟨-, o, ho, hi⟩ := h.present id pre g post he hpre hd
    obtain ⟨-, o', ho', hi'⟩ := h'.present id pre g post (hg ▸ he) hpre hd
    have hi : ObjectIs pkg' c g id o := by
      obtain ⟨h1, h2, h3, h4⟩ := hi
      refine ⟨h1, h2, h3, ?_⟩
      rcases h4 with h4 | ⟨r, cs, b, blob, h5, h6, h7⟩
      · exact .inl h4
      · refine .inr ⟨r, cs, b, blob, h5, ?_, h7⟩
        rw [← hb g (by rw [he]; simp) r cs b (storedData_mem h5)]
        exact h6
    rw [ho, ho', object_unique hi hi']

/-- What the space of a cell is made of. -/
theorem space_of {data : Bytes} {store : Store} {c : CellId} {space : ObjectSpace}
    (h : FileStore data store) (hs : store.objectSpace c = some space) :
    ∃ p si m, Contains data p ∧ IndexIs p si ∧ si.cellMappings.get? c = some m ∧ m.id ≠ ExGuid.nil ∧
      m.cellId = c ∧ SpaceIs p.package si m space := by
  obtain ⟨p, hp, si, sm, hc, dc, h1, -, -, -, -, -, -, h2, h3⟩ := h
  by_cases ho : ∃ m, IsOther si hc dc c m
  · obtain ⟨m, hm⟩ := ho
    obtain ⟨space', h4, h5⟩ := h2 c m hm
    unfold Store.objectSpace at hs
    rw [h4] at hs
    cases hs
    obtain ⟨i, hi⟩ := index_in h1
    exact ⟨p, si, m, hp, h1, hm.1, hm.2.1,
      (keyed_of_run (holds_iff.1 hp) i si hi).1 c m (Map.mem_of_get? hm.1), h5⟩
  · unfold Store.objectSpace at hs
    rw [h3 c ho] at hs
    cases hs

theorem contains_unique {data : Bytes} {p q : Packaging} (h : Contains data p) (h' : Contains data q) :
    p = q := by
  have e := holds_iff.1 h
  rw [holds_iff.1 h'] at e
  exact (Except.ok.inj e).symm

/-- The space of a cell has the history that the file stores. -/
theorem space_history {data : Bytes} {store : Store} {c : CellId} {space : ObjectSpace}
    {roots : List (ExGuid × ExGuid)} {groups : List ObjectGroup} {files : ExGuid → Option Bytes}
    (hu : PlainFile data) (h : FileStore data store) (hs : store.objectSpace c = some space)
    (hc : StoresCell data c roots groups files) :
    space.id = c.snd ∧ space.context = c.fst ∧ ∃ pkg ms, HistoryIs pkg c ms space ∧
      rootsOf ms = roots ∧ groupsOf pkg ms = groups ∧
      ∀ g ∈ groups, ∀ refs cells id, GroupData.blobReference refs cells id ∈ g.objects →
        pkg.blobs.get? id = files id := by
  obtain ⟨p, si, m, hp, h1, h2, h3, rfl, h4, h5, h6⟩ := space_of h hs
  obtain ⟨p', si', m', r, ms, hp', g1, g2, g3, g4, g5, g6, g7⟩ := hc
  cases contains_unique hp hp'
  have e := is_index (ord := Order.id) (hu p hp) h1
  rw [is_index (hu p hp) g1] at e
  cases e
  rw [h2] at g2
  cases g2
  obtain ⟨i, hi⟩ := index_in h1
  have hset : Settled p.package si m := by
    rcases (hu p hp).cells i si _ m hi (Map.mem_of_get? h2) with ⟨hn, -⟩ | hx
    · exact absurd hn h3
    · exact hx
  refine ⟨h4, h5, p.package, ms, ?_, g5, g6, g7⟩
  rcases h6 with ⟨r', ms', k1, k2, k3⟩ | ⟨hn, -⟩
  · have e := first_of_newest (ord := Order.id) hset k1
    rw [first_of_newest (ord := Order.id) hset g3] at e
    cases e
    rw [RevisionChain.unique g4 k2]
    exact k3
  · exact absurd ⟨r, g3⟩ hn

theorem spaces_same {data data' : Bytes} {store store' : Store} {c : CellId} {space space' : ObjectSpace}
    {roots : List (ExGuid × ExGuid)} {groups : List ObjectGroup} {files : ExGuid → Option Bytes}
    (hu : PlainFile data) (hu' : PlainFile data') (h : FileStore data store)
    (h' : FileStore data' store') (hs : store.objectSpace c = some space)
    (hs' : store'.objectSpace c = some space') (hc : StoresCell data c roots groups files)
    (hc' : StoresCell data' c roots groups files) : SameSpace space space' := by
  obtain ⟨a1, a2, pkg, ms, a3, a4, a5, a6⟩ := space_history hu h hs hc
  obtain ⟨b1, b2, pkg', ms', b3, b4, b5, b6⟩ := space_history hu' h' hs' hc'
  obtain ⟨e1, e2⟩ := histories_same a3 b3 (a4.trans b4.symm) (a5.trans b5.symm)
    (fun g hg refs cells id hm => by
      rw [a5] at hg
      rw [a6 g hg refs cells id hm, b6 g hg refs cells id hm])
  exact ⟨a1.trans b1.symm, a2.trans b2.symm, e1, e2⟩

/-- A page that is shown is stored. -/
theorem stores_page {data : Bytes} {store : Store} {c : CellId} {space : ObjectSpace} {p : Page}
    (h : FileStore data store) (hs : store.objectSpace c = some space) (hp : PageIs space p) :
    ∃ q si m r ms, Contains data q ∧ IndexIs q si ∧ si.cellMappings.get? c = some m ∧
      Newest q.package si m r ∧ RevisionChain q.package si r ms := by
  obtain ⟨q, si, m, h1, h2, h3, -, -, -, -, h4⟩ := space_of h hs
  rcases h4 with ⟨r, ms, k1, k2, -⟩ | ⟨-, -, -, hr⟩
  · exact ⟨q, si, m, r, ms, h1, h2, h3, k1, k2⟩
  · obtain ⟨info, -, -, -, -, -, -, -, -, -, hi, -⟩ := hp
    have := hr .metadata
    rw [this] at hi
    cases hi

/-! ### The pages of a section file -/

theorem pageCells_same {s s' : ObjectSpace} (h : SameSpace s s') {cells : List (List CellId)}
    (hc : PageCells s cells) : PageCells s' cells := by
  obtain ⟨id, o, n, h1, h2, h3, h4⟩ := hc
  have e : ∀ id o, At s id o → At s' id o := fun id o hx => by
    unfold At at hx ⊢
    rw [← h.objects]
    exact hx
  refine ⟨id, o, n, h.roots .defaultContent ▸ h1, e _ _ h2, h3, each_mono h4 fun a b _ hx => ?_⟩
  obtain ⟨o, n, k1, k2, k3⟩ := hx
  exact ⟨o, n, e _ _ k1, k2, k3⟩

/-- The page at a position is what is in the space of its cell. -/
theorem page_at {fuel : Nat} {ord : Order} {data : Bytes} {name : Text} {s : Section}
    {cells : List (List CellId)} (hu : PlainFile data)
    (h : parseSectionBuffer fuel ord data name = .ok s) (hc : FileCells data cells) :
    ∃ store, FileStore data store ∧ ∀ i j p, pageAt s i j = some p ↔
      ∃ c space, (cells[i]? >>= fun cs => cs[j]?) = some c ∧
        store.objectSpace c = some space ∧ PageIs space p := by
  obtain ⟨store0, h0, hc⟩ := hc
  unfold parseSectionBuffer at h
  obtain ⟨store, hs, h⟩ := Res.bind_ok_iff.1 h
  obtain ⟨store', hs', e⟩ := readStore_complete hu h0 ord
  rw [hs] at hs'
  cases hs'
  split at h
  · cases h
  · exact ⟨store, readStore_sound hs,
      fun i j p => C56_own_space_partial fuel store name s h cells (pageCells_same e.dataRoot hc) i j p⟩

/-- A space has at most one list of page cells. -/
theorem pageCells_unique {root : ObjectSpace} {cells' cells : List (List CellId)}
    (hc' : PageCells root cells') (hc : PageCells root cells) : cells' = cells := by
  obtain ⟨id, o, n, h1, h2, h3, h4⟩ := hc
  obtain ⟨id', o', n', k1, k2, k3, k4⟩ := hc'
  rw [h1] at k1
  cases k1
  unfold At at h2 k2
  rw [h2] at k2
  cases k2
  have e := SectionNode.parse_iff.2 h3
  rw [SectionNode.parse_iff.2 k3] at e
  cases e
  clear h1 h2 h3 k3
  generalize n.pageSeries = l at h4 k4
  induction h4 generalizing cells' with
  | nil => cases k4; rfl
  | cons hr _ ih =>
    cases k4 with
    | cons hr' hl' =>
      obtain ⟨o, n, a1, a2, rfl⟩ := hr
      obtain ⟨o', n', b1, b2, rfl⟩ := hr'
      unfold At at a1 b1
      rw [a1] at b1
      cases b1
      have e := PageSeriesNode.parse_iff.2 a2
      rw [PageSeriesNode.parse_iff.2 b2] at e
      cases e
      rw [ih hl']

/-- Every position with a cell has a page. -/
theorem page_there {fuel : Nat} {ord : Order} {data : Bytes} {name : Text} {s : Section}
    {cells : List (List CellId)} (hu : PlainFile data)
    (h : parseSectionBuffer fuel ord data name = .ok s) (hc : FileCells data cells) {i j : Nat} {c : CellId}
    (hj : (cells[i]? >>= fun cs => cs[j]?) = some c) : ∃ p, pageAt s i j = some p := by
  obtain ⟨store0, h0, hc⟩ := hc
  unfold parseSectionBuffer at h
  obtain ⟨store, hs, h⟩ := Res.bind_ok_iff.1 h
  obtain ⟨store', hs', e⟩ := readStore_complete hu h0 ord
  rw [hs] at hs'
  cases hs'
  split at h
  · cases h
  replace hc := pageCells_same e.dataRoot hc
  obtain ⟨cells', hc', hl⟩ := C56_page_cells fuel store name s h
  have hcell : cells' = cells := pageCells_unique hc' hc
  subst hcell
  cases hi : cells'[i]? with
  | none => rw [hi] at hj; cases hj
  | some cs =>
    rw [hi] at hj
    have hj : cs[j]? = some c := hj
    have e := congrArg (fun l => l[i]?) hl
    simp only [List.getElem?_map, hi, Option.map_some] at e
    cases hsi : s.pageSeries[i]? with
    | none => rw [hsi] at e; cases e
    | some x =>
      rw [hsi] at e
      have e : cs.length = x.pages.length := Option.some.inj e
      obtain ⟨hlt, -⟩ := List.getElem?_eq_some_iff.1 hj
      refine ⟨x.pages[j]'(e ▸ hlt), ?_⟩
      unfold pageAt
      rw [hsi]
      exact List.getElem?_eq_getElem _

/-! ### Saving again -/

section
variable {es es' : List LaxElement} {c : CellId} {items items' : List IndexItem}

theorem kind_saved {V : Type} {f : LaxElement → Option (ExGuid × V)} {ty : Nat} (hf : EntryKind f ty)
    (ht : ty ≠ 1 ∧ ty ≠ 2) (hd : Distinct es) (hd' : Distinct es')
    (h : SavedAgain c es es' items items') {id : ExGuid} (hm : ∃ old ∈ es, Refers old.piece id) :
    lastWith (es.filterMap f) id = lastWith (es'.filterMap f) id := by
  have hs : ∀ e x, f e = some x → ¬ IsStart e.piece := by
    intro e x hx hs
    have := hf.type hx
    rcases (start_iff _).1 hs with h | h <;> omega
  apply Option.ext
  intro v
  rw [lastWith_iff (kind_nodup hf hd), lastWith_iff (kind_nodup hf hd')]
  simp only [List.mem_filterMap]
  constructor
  · rintro ⟨e, he, hx⟩
    exact ⟨e, h.kept e he (hs e _ hx), hx⟩
  · rintro ⟨e, he, hx⟩
    by_cases hm' : e ∈ es
    · exact ⟨e, hm', hx⟩
    · obtain ⟨old, ho, hr⟩ := hm
      rw [hf.key hx] at hr
      exact absurd hr (h.added e he hm' (hs e _ hx) old ho)

/-- What the two packages have in common. -/
structure Kept (pkg pkg' : Package) : Prop where
  cells : ∀ id, Mentioned pkg id → pkg.cellManifests.get? id = pkg'.cellManifests.get? id
  revisions : ∀ id, Mentioned pkg id → pkg.revisionManifests.get? id = pkg'.revisionManifests.get? id
  groups : ∀ id, Mentioned pkg id → pkg.objectGroups.get? id = pkg'.objectGroups.get? id
  blobs : ∀ id, Mentioned pkg id → pkg.blobs.get? id = pkg'.blobs.get? id

theorem saved_kept (hd : Distinct es) (hd' : Distinct es') (h : SavedAgain c es es' items items') :
    Kept (laxPackageOf es) (laxPackageOf es') := by
  obtain ⟨-, -, ⟨f3, k3, e3⟩, ⟨f4, k4, e4⟩, ⟨f5, k5, e5⟩, ⟨f6, k6, e6⟩⟩ := entries_kinds
  constructor <;> intro id hm <;> have hm := mentioned_refers hm
  · simp only [laxPackageOf, packageOf, Map.get?_ofList, e3]
    exact kind_saved k3 (by decide) hd hd' h hm
  · simp only [laxPackageOf, packageOf, Map.get?_ofList, e4]
    exact kind_saved k4 (by decide) hd hd' h hm
  · simp only [laxPackageOf, packageOf, Map.get?_ofList, e5]
    exact kind_saved k5 (by decide) hd hd' h hm
  · simp only [laxPackageOf, packageOf, Map.get?_ofList, e6]
    exact kind_saved k6 (by decide) hd hd' h hm

theorem index_named {i : ExGuid} (hd : Distinct es) (h : ⟨i, .body (.storageIndex items)⟩ ∈ es) :
    (laxPackageOf es).storageIndexes.get? i = some (indexOf items) := by
  have e : (laxPackageOf es).storageIndexes.get? i = lastWith (storageIndexes (wholeElements es)) i := by
    simp only [laxPackageOf, packageOf, Map.get?_ofList]
  obtain ⟨⟨f1, k1, e1⟩, -⟩ := entries_kinds
  have hw : (⟨i, .storageIndex items⟩ : Element) ∈ wholeElements es :=
    List.mem_filterMap.2 ⟨_, h, rfl⟩
  have hm : (i, indexOf items) ∈ storageIndexes (wholeElements es) :=
    List.mem_filterMap.2 ⟨_, hw, rfl⟩
  rw [e]
  rw [e1] at hm ⊢
  exact (lastWith_iff (kind_nodup k1 hd)).2 hm

end

section
variable {pkg pkg' : Package} {si si' : StorageIndex} {i : ExGuid} (h : Kept pkg pkg')
  (hl : ∀ a, Mentioned pkg a → si'.revisionMappings.get? a = si.revisionMappings.get? a)
  (hk : ∀ a m, si.revisionMappings.get? a = some m → si'.revisionMappings.get? a = some m)
  (hi : (i, si) ∈ pkg.storageIndexes)
include h hl

theorem kept_resolves {id r : ExGuid} (hm : Mentioned pkg id) :
    Resolves pkg si id r ↔ Resolves pkg' si' id r := by
  unfold Resolves
  rw [hl id hm]
  cases si.revisionMappings.get? id with
  | none => simp only [h.revisions id hm]
  | some m => exact Iff.rfl

theorem kept_leadsTo {id r : ExGuid} (hm : Mentioned pkg id) :
    LeadsTo pkg si id r ↔ LeadsTo pkg' si' id r := by
  have key : ∀ r, (∃ c, pkg.cellManifests.get? id = some c ∧ Resolves pkg si c r) ↔
      ∃ c, pkg'.cellManifests.get? id = some c ∧ Resolves pkg' si' c r := by
    intro r
    rw [← h.cells id hm]
    constructor
    · rintro ⟨c, hc, hr⟩
      exact ⟨c, hc, (kept_resolves h hl (.current hc)).1 hr⟩
    · rintro ⟨c, hc, hr⟩
      exact ⟨c, hc, (kept_resolves h hl (.current hc)).2 hr⟩
  have key' : (∃ c r', pkg.cellManifests.get? id = some c ∧ Resolves pkg si c r') ↔
      ∃ c r', pkg'.cellManifests.get? id = some c ∧ Resolves pkg' si' c r' := by
    constructor
    · rintro ⟨c, r', hc⟩
      obtain ⟨c', hc'⟩ := (key r').1 ⟨c, hc⟩
      exact ⟨c', r', hc'⟩
    · rintro ⟨c, r', hc⟩
      obtain ⟨c', hc'⟩ := (key r').2 ⟨c, hc⟩
      exact ⟨c', r', hc'⟩
  unfold LeadsTo
  rw [key r, key', kept_resolves h hl hm]

include hi

theorem kept_chain {r : ExGuid} {ms : List RevisionManifest} (hm : Mentioned pkg r)
    (hc : RevisionChain pkg si r ms) : RevisionChain pkg' si' r ms := by
  induction hc with
  | oldest r m h1 h2 => exact .oldest r m (h.revisions r hm ▸ h1) h2
  | based r b m ms h1 h2 h3 _ ih =>
    exact .based r b m ms (h.revisions r hm ▸ h1) h2 ((kept_resolves h hl (.base h1)).1 h3)
      (ih (resolves_mentioned hi (.base h1) h3))

omit hi
include hk

theorem kept_newest {m : CellMapping} {r : ExGuid} (hm : Mentioned pkg m.id)
    (hu : (si.revisionMappings.map Prod.fst).Nodup)
    (hr : Newest pkg si m r) : Newest pkg' si' m r := by
  rcases hr with hr | ⟨hn, a, x, ha, hx, rfl⟩
  · exact .inl ((kept_leadsTo h hl hm).1 hr)
  · exact .inr ⟨fun ⟨r', hr'⟩ => hn ⟨r', (kept_leadsTo h hl hm).2 hr'⟩, a, x,
      Map.mem_of_get? (hk a x (Map.get?_of_mem hu ha)), hx, rfl⟩

end

/-- A cell that is left alone is stored as before. -/
theorem saved_stores {data data' : Bytes} {i i' : ExGuid} {es es' : List LaxElement} {c : CellId}
    {items items' : List IndexItem} (h : HoldsElements data i es) (h' : HoldsElements data' i' es')
    (hd : Distinct es) (hd' : Distinct es') (hi : ⟨i, .body (.storageIndex items)⟩ ∈ es)
    (hi' : ⟨i', .body (.storageIndex items')⟩ ∈ es') (hs : SavedAgain c es es' items items')
    (hc : ∃ q si m r ms, Contains data q ∧ IndexIs q si ∧ si.cellMappings.get? c = some m ∧
      Newest q.package si m r ∧ RevisionChain q.package si r ms) :
    ∃ roots groups files, StoresCell data c roots groups files ∧
      StoresCell data' c roots groups files := by
  obtain ⟨a1, a2, a3, a4, a5, bs, rest, hl, rfl⟩ := h
  obtain ⟨b1, b2, b3, b4, b5, bs', rest', hl', rfl⟩ := h'
  have hp : Contains (bs ++ rest) ⟨a1, a2, a3, a4, i, a5, laxPackageOf es⟩ :=
    ⟨_, _, _, _, _, _, _, _, _, hl, rfl, rfl⟩
  have hp' : Contains (bs' ++ rest') ⟨b1, b2, b3, b4, i', b5, laxPackageOf es'⟩ :=
    ⟨_, _, _, _, _, _, _, _, _, hl', rfl, rfl⟩
  obtain ⟨q, si, m, r, ms, k1, k2, k3, k4, k5⟩ := hc
  cases contains_unique hp k1
  have n1 := index_named hd hi
  have n2 := index_named hd' hi'
  have e : si = indexOf items := by
    rcases k2 with k2 | ⟨k2, -⟩
    · exact Option.some.inj (k2.symm.trans n1)
    · exact absurd (k2.symm.trans n1) (by simp)
  subst e
  have hmem := Map.mem_of_get? n1
  have hkept := saved_kept hd hd' hs
  have hrev : ∀ a, Mentioned (laxPackageOf es) a →
      (indexOf items').revisionMappings.get? a = (indexOf items).revisionMappings.get? a := by
    intro a ha
    cases hx : (indexOf items).revisionMappings.get? a with
    | some y => exact hs.listed a y hx
    | none => exact hs.unlisted a (mentioned_refers ha) hx
  have hm : Mentioned (laxPackageOf es) m.id := .cell hmem (Map.mem_of_get? k3)
  have hr := newest_mentioned hmem hm k4
  have hnew := kept_newest hkept hrev hs.listed hm (Map.nodup_ofList _) k4
  have hchain := kept_chain hkept hrev hmem hr k5
  have hgm := chain_mentions k5
  have hg : groupsOf (laxPackageOf es) ms = groupsOf (laxPackageOf es') ms := by
    unfold groupsOf
    clear k5 hchain
    induction ms with
    | nil => rfl
    | cons x ms ih =>
      simp only [List.flatMap_cons]
      rw [ih fun m' hm' => hgm m' (by simp [hm'])]
      have hg : ∀ ids : List ExGuid, (∀ id ∈ ids, id ∈ x.groupReferences) →
          ids.filterMap (fun id => (laxPackageOf es).objectGroups.get? id) =
            ids.filterMap (fun id => (laxPackageOf es').objectGroups.get? id) := by
        intro ids hi
        induction ids with
        | nil => rfl
        | cons id ids ih' =>
          simp only [List.filterMap_cons]
          rw [hkept.groups id (hgm x (by simp) id (hi id (by simp))), ih' fun x hx => hi x (by simp [hx])]
      exact congrArg (· ++ _) (hg _ fun _ h => h)
  refine ⟨rootsOf ms, groupsOf (laxPackageOf es) ms, (laxPackageOf es).blobs.get?,
    ⟨_, indexOf items, m, r, ms, hp, .inl n1, k3, k4, k5, rfl, rfl, fun _ _ _ _ _ _ => rfl⟩,
    ⟨_, indexOf items', m, r, ms, hp', .inl n2, hs.cell.trans k3, hnew, hchain, rfl, hg.symm,
      fun g hgg refs cells id hb => ?_⟩⟩
  obtain ⟨k, hk⟩ := groupsOf_mem hgg
  exact (hkept.blobs id (.blob hk hb)).symm

end OneNote.PageHistory
