/-
When reading a store succeeds.
-/
import Verif.Lemmas.Determinism

namespace OneNote

open Spec

variable {α β : Type}

theorem Res.bind_ok_iff {x : Res α} {f : α → Res β} {b : β} :
    (x >>= f) = .ok b ↔ ∃ a, x = .ok a ∧ f a = .ok b := by
  cases x with
  | error e =>
    constructor
    · intro h; cases h
    · rintro ⟨a, h, -⟩; cases h
  | ok a =>
    constructor
    · intro h; exact ⟨a, rfl, h⟩
    · rintro ⟨a', h, h'⟩; cases h; exact h'

theorem orErr_ok {e : Err} {o : Option α} {a : α} : orErr e o = .ok a ↔ o = some a := by
  cases o with
  | none => constructor <;> intro h <;> cases h
  | some x => constructor <;> intro h <;> cases h <;> rfl

theorem store_parse_ok {ord : Order} {p : Packaging} {s : Store} :
    Store.parse ord p = .ok s ↔ ∃ si sm hc hm groups g header dc dr spaces,
      Store.storageIndexOf ord p = some si ∧ p.package.findStorageManifest ord = some sm ∧
      sm.roots.get? Store.headerRoot = some hc ∧ si.findCellMappingId hc = some hm ∧
      p.package.findObjects ord hm si = .ok groups ∧ groups.head? = some g ∧
      StoreHeader.parse g = .ok header ∧ sm.roots.get? Store.dataRootId = some dc ∧
      Store.parseObjectSpace ord dc si p.package = .ok dr ∧
      (si.cellMappings.values ord 4).foldlM (Store.addSpace ord si p.package [hc, dc]) [] =
        .ok spaces ∧ s = ⟨sm.id, header, dr.2, spaces⟩ := by
  unfold Store.parse
  simp only [Res.bind_ok_iff, orErr_ok, Store.findHeaderCellId, Store.findDataRootCellId]
  constructor
  · rintro ⟨si, h1, sm, h2, hc, h3, hm, h4, gs, h5, g, h6, hd, h7, dc, h8, dr, h9, sp, h10, h11⟩
    cases h11
    exact ⟨si, sm, hc, hm, gs, g, hd, dc, dr, sp, h1, h2, h3, h4, h5, h6, h7, h8, h9, h10, rfl⟩
  · rintro ⟨si, sm, hc, hm, gs, g, hd, dc, dr, sp, h1, h2, h3, h4, h5, h6, h7, h8, h9, h10, rfl⟩
    exact ⟨si, h1, sm, h2, hc, h3, hm, h4, gs, h5, g, h6, hd, h7, dc, h8, dr, h9, sp, h10, rfl⟩

theorem index_mem {ord : Order} {p : Packaging} {si : StorageIndex}
    (h : Store.storageIndexOf ord p = some si) : ∃ i, (i, si) ∈ p.package.storageIndexes := by
  unfold Store.storageIndexOf Package.findStorageIndexById Package.findStorageIndex at h
  cases hg : Map.get? p.package.storageIndexes p.storageIndex with
  | some x => rw [hg] at h; cases h; exact ⟨_, Map.mem_of_get? hg⟩
  | none => rw [hg] at h; exact mem_head_values h

/-- Without ambiguities the result does not depend on the order. -/
theorem store_deterministic {p : Packaging} (hk : Keyed p) (hu : Unambiguous p) (ord ord' : Order)
    {s : Store} (h : Store.parse ord p = .ok s) :
    ∃ s', Store.parse ord' p = .ok s' ∧ SameStore s s' := by
  obtain ⟨si, sm, hc, hm, gs, g, hd, dc, dr, sp, h1, h2, h3, h4, h5, h6, h7, h8, h9, h10, rfl⟩ :=
    store_parse_ok.mp h
  obtain ⟨i, hi⟩ := index_mem h1
  have h1' : Store.storageIndexOf ord' p = some si := by
    rw [← h1]
    unfold Store.storageIndexOf Package.findStorageIndexById Package.findStorageIndex
    rcases hu.index with ⟨x, hx⟩ | hx
    · rw [hx]; rfl
    · rw [head_values ord' ord 1 _ hx]
  have h2' : p.package.findStorageManifest ord' = some sm := by
    rw [← h2]
    exact head_values ord' ord 2 _ hu.manifest
  obtain ⟨j, hj⟩ := mem_head_values h2
  have hroot : ∀ root c m, sm.roots.get? root = some c → si.cellMappings.get? c = some m →
      Settled p.package si m := by
    intro root c m hr hm
    rcases hu.cells i si c m hi (Map.mem_of_get? hm) with ⟨-, hn⟩ | hs
    · exact absurd (Map.mem_of_get? hr) (hn j sm root hj)
    · exact hs
  have h5' : p.package.findObjects ord' hm si = .ok gs := by
    rw [← h5]
    unfold StorageIndex.findCellMappingId at h4
    cases hg : si.cellMappings.get? hc with
    | none => rw [hg] at h4; cases h4
    | some m =>
      rw [hg] at h4
      cases h4
      exact objects_settled ord' ord (Map.mem_of_get? hg) (hroot _ _ _ h3 hg)
  have h9' : Store.parseObjectSpace ord' dc si p.package = .ok dr := by
    rw [← h9]
    unfold Store.parseObjectSpace
    cases hg : si.cellMappings.get? dc with
    | none => rfl
    | some m => exact space_settled ord' ord (hroot _ _ _ h8 hg)
  have hkey : ∀ (o : Order), ∀ m ∈ si.cellMappings.values o 4, ∀ m',
      si.cellMappings.get? m.cellId = some m' → m'.cellId = m.cellId := by
    intro o m _ m' hm'
    exact (hk i si hi).1 _ m' (Map.mem_of_get? hm')
  have hperm := values_perm ord ord' 4 si.cellMappings
  have hsame : ∀ m ∈ si.cellMappings.values ord 4, Active [hc, dc] m →
      Store.parseObjectSpace ord m.cellId si p.package =
        Store.parseObjectSpace ord' m.cellId si p.package := by
    intro m hm ha
    obtain ⟨c, hcm⟩ := mem_values.mp hm
    have hmc := (hk i si hi).1 c m hcm
    subst hmc
    unfold Store.parseObjectSpace
    rw [Map.get?_of_mem (hk i si hi).2 hcm]
    rcases hu.cells i si _ m hi hcm with ⟨hn, -⟩ | hs
    · exact absurd hn ha.1
    · exact space_settled ord ord' hs
  have hok := (spaces_ok (hkey ord)).mp ⟨sp, h10⟩
  obtain ⟨sp', h10'⟩ := (spaces_ok (start := []) (hkey ord')).mpr fun m hm ha => by
    obtain ⟨s, hs⟩ := hok m (hperm.mem_iff.mpr hm) ha
    exact ⟨s, by rw [← hsame m (hperm.mem_iff.mpr hm) ha]; exact hs⟩
  refine ⟨_, store_parse_ok.mpr ⟨si, sm, hc, hm, gs, g, hd, dc, dr, sp', h1', h2', h3, h4, h5',
    h6, h7, h8, h9', h10', rfl⟩, rfl, rfl, rfl, fun id => ?_⟩
  show sp.get? id = sp'.get? id
  have g1 := spaces_get (hkey ord) h10 id
  have g2 := spaces_get (hkey ord') h10' id
  by_cases hx : ∃ m ∈ si.cellMappings.values ord 4, Active [hc, dc] m ∧ m.cellId = id
  · obtain ⟨s, hs, hsp⟩ := g1.1 hx
    obtain ⟨m, hm, ha, rfl⟩ := hx
    obtain ⟨s', hs', hsp'⟩ := g2.1 ⟨m, hperm.mem_iff.mp hm, ha, rfl⟩
    rw [hsp, hsp']
    rw [hsame m hm ha, hs'] at hs
    cases hs
    rfl
  · rw [g1.2 hx, g2.2]
    rintro ⟨m, hm, h⟩
    exact hx ⟨m, hperm.mem_iff.mpr hm, h⟩

end OneNote
