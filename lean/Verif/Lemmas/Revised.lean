/-
Sections some of whose pages were edited.
-/
import Verif.Spec.Revised
import Verif.Lemmas.PageHistory

namespace OneNote.PageHistory

open Spec Spec.StoreContents Spec.Document Spec.PageHistory

/-! ### The store of a section with other pages -/

theorem at_of_same {s s' : ObjectSpace} (h : SameSpace s s') {id : ExGuid} {o : Object} (ha : At s id o) :
    At s' id o := by
  unfold At at ha ⊢
  rw [← h.objects]
  exact ha

theorem each_zip {α β γ : Type} {R R' : α → β → Prop} {Q : α → γ → Prop} {f : β → γ → β} {as : List α}
    {bs : List β} {cs : List γ} (h : Each R as bs) (hq : Each Q as cs)
    (hf : ∀ a b c, c ∈ cs → R a b → Q a c → R' a (f b c)) : Each R' as (List.zipWith f bs cs) := by
  induction h generalizing cs with
  | nil => cases hq; exact .nil
  | cons hr _ ih =>
    cases hq with
    | cons hx hq =>
      exact .cons (hf _ _ _ (by simp) hr hx) (ih hq fun a b c hc => hf a b c (.tail _ hc))

theorem each_self {α β : Type} {R : α → β → Prop} {as : List α} {bs : List β} (h : Each R as bs) :
    Each (fun a c => c = a) as as := by
  induction h with
  | nil => exact .nil
  | cons _ _ ih => exact .cons rfl ih

theorem revised_section {store store' : Store} {name : Text} {s : Section} {cells : List (List CellId)}
    {new : CellId → Option Page} (h : SectionIs store name s) (hc : PageCells store.dataRoot cells)
    (hr : SameSpace store.dataRoot store'.dataRoot)
    (hn : ∀ c ∈ cells.flatten, ∀ p space, store.objectSpace c = some space → PageIs space p →
      ∃ space', store'.objectSpace c = some space' ∧ PageIs space' ((new c).getD p)) :
    SectionIs store' name (revisePages new cells s) := by
  obtain ⟨info, m, metadata, root, o, n, h1, h2, h3, h4, h5, h6, h7, h8, h9⟩ := h
  obtain ⟨root', o', n', k1, k2, k3, k4⟩ := hc
  rw [h4] at k1
  cases k1
  unfold At at k2
  have h5' := h5
  unfold At at h5'
  rw [h5'] at k2
  cases k2
  have e := SectionNode.parse_iff.2 h6
  rw [SectionNode.parse_iff.2 k3] at e
  cases e
  refine ⟨info, m, metadata, root, o, n, hr.roots .metadata ▸ h1, at_of_same hr h2, h3,
    hr.roots .defaultContent ▸ h4, at_of_same hr h5, h6, h7, ?_, h9⟩
  refine each_zip h8 k4 fun id series cs hcs hs hq => ?_
  obtain ⟨o1, n1, a1, a2, a3⟩ := hs
  obtain ⟨o2, n2, b1, b2, rfl⟩ := hq
  have a1' := a1
  unfold At at a1' b1
  rw [a1'] at b1
  cases b1
  have e := PageSeriesNode.parse_iff.2 a2
  rw [PageSeriesNode.parse_iff.2 b2] at e
  cases e
  refine ⟨o1, n1, at_of_same hr a1, a2, ?_⟩
  refine each_zip a3 (each_self a3) fun c p c' hc' hp he => ?_
  subst he
  obtain ⟨space, g1, g2⟩ := hp
  exact hn c' (List.mem_flatten.2 ⟨_, hcs, hc'⟩) p space g1 g2

/-! ### The cells of a file -/

/-- The object space of a cell, also of the first one. -/
def CellSpace (data : Bytes) (c : CellId) (space : ObjectSpace) : Prop :=
  ∃ p si m, Contains data p ∧ IndexIs p si ∧ si.cellMappings.get? c = some m ∧ m.cellId = c ∧
    Settled p.package si m ∧ SpaceIs p.package si m space

theorem cellSpace_of {data : Bytes} {store : Store} {c : CellId} {space : ObjectSpace}
    (hu : PlainFile data) (h : FileStore data store) (hs : store.objectSpace c = some space) :
    CellSpace data c space := by
  obtain ⟨p, si, m, h1, h2, h3, h4, h5, h6⟩ := space_of h hs
  refine ⟨p, si, m, h1, h2, h3, h5, ?_, h6⟩
  obtain ⟨i, hi⟩ := index_in h2
  rcases (hu p h1).cells i si _ m hi (Map.mem_of_get? h3) with ⟨hn, -⟩ | hx
  · exact absurd hn h4
  · exact hx

/-- The parts of a store in a file with these roots. -/
theorem store_parts {data : Bytes} {i : ExGuid} {es : List LaxElement} {items : List IndexItem}
    {id : ExGuid} {schema : Guid} {roots : List (ExGuid × CellId)} {store : Store}
    (h : HoldsElements data i es) (hd : Distinct es) (hi : ⟨i, .body (.storageIndex items)⟩ ∈ es)
    (hm : ⟨id, .body (.storageManifest schema roots)⟩ ∈ es) (hu : PlainFile data)
    (hs : FileStore data store) :
    store.schema = schema ∧ ∃ hc dc, lastWith roots headerRootId = some hc ∧
      lastWith roots defaultRootId = some dc ∧ CellSpace data dc store.dataRoot ∧
      (∀ c m, IsOther (indexOf items) hc dc c m → ∃ space, store.objectSpace c = some space) ∧
      ∀ c, (¬ ∃ m, IsOther (indexOf items) hc dc c m) → store.objectSpace c = none := by
  obtain ⟨a1, a2, a3, a4, a5, bs, rest, hl, rfl⟩ := h
  have hp : Contains (bs ++ rest) ⟨a1, a2, a3, a4, i, a5, laxPackageOf es⟩ :=
    ⟨_, _, _, _, _, _, _, _, _, hl, rfl, rfl⟩
  obtain ⟨p, hp', si, sm, hc, dc, k1, ⟨j, k2⟩, k3, k4, -, k5, ⟨m, k6, k7⟩, k8, k9⟩ := hs
  have hpe := contains_unique hp hp'
  subst hpe
  have hx := index_named hd hi
  have e : si = indexOf items := by
    rcases k1 with k1 | ⟨k1, -⟩
    · exact Option.some.inj (k1.symm.trans hx)
    · exact absurd (k1.symm.trans hx) (by simp)
  subst e
  have hmm : (id, (⟨schema, Map.ofList roots⟩ : StorageManifest)) ∈
      (laxPackageOf es).storageManifests := by
    refine Map.mem_of_get? ?_
    have e : (laxPackageOf es).storageManifests.get? id =
        lastWith (storageManifests (wholeElements es)) id := by
      simp only [laxPackageOf, packageOf, Map.get?_ofList]
    obtain ⟨-, ⟨f1, k1, e1⟩, -⟩ := entries_kinds
    have hw : (⟨id, .storageManifest schema roots⟩ : Element) ∈ wholeElements es :=
      List.mem_filterMap.2 ⟨_, hm, rfl⟩
    have hm : (id, (⟨schema, Map.ofList roots⟩ : StorageManifest)) ∈
        storageManifests (wholeElements es) := List.mem_filterMap.2 ⟨_, hw, rfl⟩
    rw [e]
    rw [e1] at hm ⊢
    exact (lastWith_iff (kind_nodup k1 hd)).2 hm
  have e : sm = ⟨schema, Map.ofList roots⟩ := by
    have hlen := (hu _ hp).manifest
    generalize (laxPackageOf es).storageManifests = l at hlen hmm k2
    match l, hlen with
    | [], _ => cases k2
    | [x], _ =>
      have k2 := List.mem_singleton.1 k2
      have hmm := List.mem_singleton.1 hmm
      exact congrArg Prod.snd (k2.trans hmm.symm)
  subst e
  rw [Map.get?_ofList] at k4 k5
  refine ⟨k3, hc, dc, k4, k5, ?_, fun c m hm => ?_, k9⟩
  · refine ⟨_, _, m, hp, k1, k6, ?_, ?_, k7⟩
    · exact (keyed_of_run (holds_iff.1 hp) i _ (Map.mem_of_get? hx)).1 dc m (Map.mem_of_get? k6)
    · rcases (hu _ hp).cells i _ _ m (Map.mem_of_get? hx) (Map.mem_of_get? k6) with ⟨-, hn⟩ | hs
      · refine absurd (Map.mem_of_get? ?_) (hn id _ defaultRootId hmm)
        rw [Map.get?_ofList]
        exact k5
      · exact hs
  · obtain ⟨space, h, -⟩ := k8 c m hm
    exact ⟨space, h⟩

theorem cell_history {data : Bytes} {c : CellId} {space : ObjectSpace}
    {roots : List (ExGuid × ExGuid)} {groups : List ObjectGroup} {files : ExGuid → Option Bytes}
    (hu : PlainFile data) (h : CellSpace data c space) (hc : StoresCell data c roots groups files) :
    space.id = c.snd ∧ space.context = c.fst ∧ ∃ pkg ms, HistoryIs pkg c ms space ∧
      rootsOf ms = roots ∧ groupsOf pkg ms = groups ∧
      ∀ g ∈ groups, ∀ refs cells id, GroupData.blobReference refs cells id ∈ g.objects →
        pkg.blobs.get? id = files id := by
  obtain ⟨p, si, m, hp, h1, h2, rfl, hset, h4, h5, h6⟩ := h
  obtain ⟨p', si', m', r, ms, hp', g1, g2, g3, g4, g5, g6, g7⟩ := hc
  cases contains_unique hp hp'
  have e := is_index (ord := Order.id) (hu p hp) h1
  rw [is_index (hu p hp) g1] at e
  cases e
  rw [h2] at g2
  cases g2
  refine ⟨h4, h5, p.package, ms, ?_, g5, g6, g7⟩
  rcases h6 with ⟨r', ms', k1, k2, k3⟩ | ⟨hn, -⟩
  · have e := first_of_newest (ord := Order.id) hset k1
    rw [first_of_newest (ord := Order.id) hset g3] at e
    cases e
    rw [RevisionChain.unique g4 k2]
    exact k3
  · exact absurd ⟨r, g3⟩ hn

theorem cells_same {data data' : Bytes} {c : CellId} {space space' : ObjectSpace}
    {roots : List (ExGuid × ExGuid)} {groups : List ObjectGroup} {files : ExGuid → Option Bytes}
    (hu : PlainFile data) (hu' : PlainFile data') (hs : CellSpace data c space)
    (hs' : CellSpace data' c space') (hc : StoresCell data c roots groups files)
    (hc' : StoresCell data' c roots groups files) : SameSpace space space' := by
  obtain ⟨a1, a2, pkg, ms, a3, a4, a5, a6⟩ := cell_history hu hs hc
  obtain ⟨b1, b2, pkg', ms', b3, b4, b5, b6⟩ := cell_history hu' hs' hc'
  obtain ⟨e1, e2⟩ := histories_same a3 b3 (a4.trans b4.symm) (a5.trans b5.symm)
    (fun g hg refs cells id hm => by
      rw [a5] at hg
      rw [a6 g hg refs cells id hm, b6 g hg refs cells id hm])
  exact ⟨a1.trans b1.symm, a2.trans b2.symm, e1, e2⟩

/-- A space with a root is stored. -/
theorem stores_cell {data : Bytes} {c : CellId} {space : ObjectSpace} {role : RevisionRole} {root : ExGuid}
    (h : CellSpace data c space) (hr : space.roots.get? role = some root) :
    ∃ q si m r ms, Contains data q ∧ IndexIs q si ∧ si.cellMappings.get? c = some m ∧
      Newest q.package si m r ∧ RevisionChain q.package si r ms := by
  obtain ⟨q, si, m, h1, h2, h3, -, -, -, -, h4⟩ := h
  rcases h4 with ⟨r, ms, k1, k2, -⟩ | ⟨-, -, -, hn⟩
  · exact ⟨q, si, m, r, ms, h1, h2, h3, k1, k2⟩
  · rw [hn role] at hr
    cases hr

/-- A cell with a root that is left alone has the same object space. -/
theorem saved_space {data data' : Bytes} {i i' : ExGuid} {es es' : List LaxElement} {c : CellId}
    {items items' : List IndexItem} (h : HoldsElements data i es) (h' : HoldsElements data' i' es')
    (hd : Distinct es) (hd' : Distinct es') (hi : ⟨i, .body (.storageIndex items)⟩ ∈ es)
    (hi' : ⟨i', .body (.storageIndex items')⟩ ∈ es') (hs : SavedAgain c es es' items items')
    (hu : PlainFile data) (hu' : PlainFile data') {space space' : ObjectSpace}
    (hc : CellSpace data c space) (hc' : CellSpace data' c space') {role : RevisionRole} {root : ExGuid}
    (hr : space.roots.get? role = some root) : SameSpace space space' := by
  obtain ⟨roots, groups, files, h1, h2⟩ := saved_stores h h' hd hd' hi hi' hs (stores_cell hc hr)
  exact cells_same hu hu' hc hc' h1 h2

/-! ### Stores and pages of a file -/

theorem stores_alike {data : Bytes} (hu : PlainFile data) {store store' : Store}
    (h : FileStore data store) (h' : FileStore data store') : SameContents store store' := by
  obtain ⟨s1, h1, e1⟩ := readStore_complete hu h Order.id
  obtain ⟨s2, h2, e2⟩ := readStore_complete hu h' Order.id
  rw [h1] at h2
  cases h2
  exact SameContents_trans e1 (SameContents_symm e2)

theorem page_same_space {s s' : ObjectSpace} (e : SameSpace s s') {p : Page} (h : PageIs s p) :
    PageIs s' p := by
  obtain ⟨m, h⟩ := (C43_page _ _).2 h
  rw [page_same e] at h
  exact (C43_page _ _).1 ⟨m, h⟩

theorem filePage_in {data : Bytes} (hu : PlainFile data) {store : Store} (h : FileStore data store)
    {c : CellId} {p : Page} (hp : FilePage data c p) :
    ∃ space, store.objectSpace c = some space ∧ PageIs space p := by
  obtain ⟨store', space', h', hs, hp⟩ := hp
  have e := (stores_alike hu h' h).spaces c
  unfold Store.objectSpace at hs ⊢
  rw [hs] at e
  cases hx : store.objectSpaces.get? c with
  | none => rw [hx] at e; exact e.elim
  | some space =>
    rw [hx] at e
    exact ⟨space, rfl, page_same_space e hp⟩

end OneNote.PageHistory
