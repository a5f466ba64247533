/-
A section file in which many cells have the same revision.
-/
import Verif.Lemmas.Doubling
import Verif.Lemmas.Unshared
import Verif.Spec.Memory

namespace OneNote.Copies

open Spec Spec.StoreContents Spec.Document Spec.Memory Written

/-! ### What is held is declared in the file -/

theorem nodup_length {α : Type} [DecidableEq α] {l l' : List α} (h : l.Nodup)
    (hs : ∀ x ∈ l, x ∈ l') : l.length ≤ l'.length := by
  induction l generalizing l' with
  | nil => exact Nat.zero_le _
  | cons a l ih =>
    have hn := List.nodup_cons.1 h
    have ha := hs a (List.mem_cons_self ..)
    have := ih hn.2 (l' := l'.erase a) fun x hx =>
      (List.mem_erase_of_ne (fun e : x = a => hn.1 (e ▸ hx))).2 (hs x (List.mem_cons_of_mem _ hx))
    rw [List.length_erase_of_mem ha] at this
    have := List.length_pos_of_mem ha
    simp only [List.length_cons]
    omega

/-- All pairs. -/
def pairs {α β : Type} (as : List α) (bs : List β) : List (α × β) :=
  as.flatMap fun a => bs.map fun b => (a, b)

theorem pairs_length {α β : Type} (as : List α) (bs : List β) :
    (pairs as bs).length = as.length * bs.length := by
  unfold pairs
  induction as with
  | nil => simp
  | cons a as ih => rw [List.flatMap_cons, List.length_append, ih]; simp [Nat.add_mul, Nat.add_comm]

theorem mem_pairs {α β : Type} {as : List α} {bs : List β} {x : α × β} :
    x ∈ pairs as bs ↔ x.1 ∈ as ∧ x.2 ∈ bs := by
  unfold pairs
  simp only [List.mem_flatMap, List.mem_map]
  constructor
  · rintro ⟨a, ha, b, hb, rfl⟩
    exact ⟨ha, hb⟩
  · rintro ⟨ha, hb⟩
    exact ⟨x.1, ha, x.2, hb, rfl⟩

theorem pairs_nodup {α β : Type} {as : List α} {bs : List β} (ha : as.Nodup) (hb : bs.Nodup) :
    (pairs as bs).Nodup := by
  unfold pairs
  induction as with
  | nil => exact List.nodup_nil
  | cons a as ih =>
    have hn := List.nodup_cons.1 ha
    rw [List.flatMap_cons, List.nodup_append]
    refine ⟨List.Pairwise.map _ (fun x y hxy e => hxy (Prod.mk.inj e).2) hb, ih hn.2, ?_⟩
    intro x hx y hy e
    obtain ⟨b, _, rfl⟩ := List.mem_map.1 hx
    obtain ⟨a', ha', hy⟩ := List.mem_flatMap.1 hy
    obtain ⟨b', _, rfl⟩ := List.mem_map.1 hy
    cases e
    exact hn.1 ha'

/-- The identifiers of the cells, and of the objects, that the file mentions. -/
theorem held_few {data : Bytes} {store : Store} (h : FileStore data store) {n : Nat}
    (hn : HoldsAtLeast n store) : ∃ cells objects, cells + objects ≤ data.length ∧
      n ≤ cells * objects := by
  obtain ⟨held, hd, rfl, hh⟩ := hn
  obtain ⟨q, hq', si, sm, hc', dc, hi, -, -, -, -, -, ⟨m0, hm0, his0⟩, h10, h11⟩ := h
  have hsize : sizePackage q.package ≤ data.length := by
    have := holds_iff.1 hq'
    unfold P.run at this
    split at this
    · rename_i v rest hv
      cases this
      have := Step.packaging _ _ _ hv
      simp only at this
      omega
    · cases this
  have hdec := Unshared.declared_size q.package.objectGroups
  have hidx : si.cellMappings.length + 1 ≤ sizeMap sizeStorageIndex q.package.storageIndexes := by
    have hmem : ∃ i, (i, si) ∈ q.package.storageIndexes := by
      rcases hi with hi | ⟨_, i, hi⟩
      · exact ⟨_, Map.mem_of_get? hi⟩
      · exact ⟨i, hi⟩
    obtain ⟨i, hmem⟩ := hmem
    unfold sizeMap
    have : ∀ l : List (ExGuid × StorageIndex), (i, si) ∈ l →
        si.cellMappings.length + 1 ≤ (l.map fun e => 1 + sizeStorageIndex e.2).sum := by
      intro l hl
      induction l with
      | nil => cases hl
      | cons e l ih =>
        rw [List.map_cons, List.sum_cons]
        rcases List.mem_cons.1 hl with rfl | hl
        · show _ ≤ 1 + sizeStorageIndex si + _
          unfold sizeStorageIndex
          omega
        · have := ih hl
          omega
    exact this _ hmem
  refine ⟨si.cellMappings.length + 1,
    (q.package.objectGroups.flatMap fun e => e.2.declarations.map fun d => (Spec.declared d).1).length,
    ?_, ?_⟩
  · simp only [sizePackage] at hsize
    simp only [sizeMap] at hsize hidx
    omega
  · have := nodup_length hd (l' := pairs (none :: si.cellMappings.map fun e => some e.1)
      (q.package.objectGroups.flatMap fun e => e.2.declarations.map fun d => (Spec.declared d).1)) (by
      rintro ⟨c, id⟩ hx
      rw [mem_pairs]
      cases c with
      | none =>
        obtain ⟨o, ho⟩ := hh _ hx
        exact ⟨.head _, Unshared.at_declared his0 ho⟩
      | some c =>
        obtain ⟨space, o, hs, ho⟩ := hh _ hx
        have hs : store.objectSpaces.get? c = some space := hs
        by_cases hm : ∃ m, IsOther si hc' dc c m
        · obtain ⟨m, hm⟩ := hm
          obtain ⟨space', hs', his⟩ := h10 c m hm
          rw [hs'] at hs
          cases hs
          exact ⟨.tail _ (List.mem_map.2 ⟨_, Map.mem_of_get? hm.1, rfl⟩), Unshared.at_declared his ho⟩
        · rw [h11 c hm] at hs
          cases hs)
    rwa [pairs_length, List.length_cons, List.length_map] at this

/-! ### The file -/

open Doubling (groupW)

/-- The further cells. -/
def copy (i : Nat) : CellId := ⟨sx (10000 + i), sx (10000 + i)⟩

def mapping (c : CellId) : CellMapping := ⟨c, sx 105, ⟨sampleGuid, 5⟩⟩

/-- A page without contents, and `k` objects that are not referred to. -/
def page (k : Nat) : List SampleObject :=
  pageObjects [] ((List.range k).map fun i => groupW (4000 + i) [])

def items (k : Nat) : List IndexItem :=
  [.cell headerCell (sx 101) ⟨sampleGuid, 1⟩, .cell dataCell (sx 102) ⟨sampleGuid, 2⟩,
    .cell pageCell (sx 105) ⟨sampleGuid, 5⟩] ++
    (List.range k).map fun i => .cell (copy i) (sx 105) ⟨sampleGuid, 5⟩

/-- The elements without the storage index and the page. -/
def others : List Element :=
  ⟨sx 4, manifestOf sectionGuid⟩ ::
    (cellOf 1 [] (.objectGroup [.object (sx 900) 1 0 0 0] [.object [] [] headerProps]) ++
      cellOf 2 [.root contentRole (sx 1000), .root metadataRole (sx 1001)]
        (groupOf (sectionObjects none 1)) ++
      [⟨sx 105, .cellManifest (sx 205)⟩,
       ⟨sx 205, .revisionManifest (sx 205) ExGuid.nil
        ([.root contentRole (sx 2002), .root metadataRole (sx 2001)] ++ [.group (sx 405)])⟩])

def elements (k : Nat) : List Element :=
  others ++ [⟨sx 3, .storageIndex (items k)⟩, ⟨sx 405, groupOf (page k)⟩]

def file (k : Nat) : Bytes := fileW (sx 3) sectionGuid (elements k)

def pkg (k : Nat) : Package := packageOf (elements k)

def packaging (k : Nat) : Packaging :=
  ⟨sectionGuid, Guid.nil, Guid.nil, packageStore, sx 3, sectionGuid, pkg k⟩

theorem lookups (k : Nat) :
    (pkg k).storageIndexes = [(sx 3, indexOf (items k))] ∧
    (pkg k).storageManifests =
      [(sx 4, ⟨sectionGuid, [(headerRootId, headerCell), (defaultRootId, dataCell)]⟩)] ∧
    (pkg k).cellManifests.get? (sx 101) = some (sx 201) ∧
    (pkg k).cellManifests.get? (sx 102) = some (sx 202) ∧
    (pkg k).cellManifests.get? (sx 105) = some (sx 205) ∧
    (pkg k).revisionManifests.get? (sx 201) =
      some (revisionOf (sx 201) ExGuid.nil [.group (sx 401)]) ∧
    (pkg k).revisionManifests.get? (sx 202) = some (manifestFor 2 (sx 1000) (sx 1001)) ∧
    (pkg k).revisionManifests.get? (sx 205) = some (manifestFor 5 (sx 2002) (sx 2001)) ∧
    (pkg k).objectGroups.get? (sx 401) = some headerGroup ∧
    (pkg k).objectGroups.get? (sx 402) = some (groupFor (sectionObjects none 1)) ∧
    (pkg k).objectGroups.get? (sx 405) = some (groupFor (page k)) := by
  unfold pkg elements
  generalize items k = its
  generalize page k = pg
  unfold others
  simp only [groupOf_eq]
  refine ⟨rfl, rfl, rfl, rfl, rfl, rfl, rfl, rfl, rfl, rfl, rfl⟩

/-! ### The storage index -/

def cells (k : Nat) : List (CellId × CellMapping) :=
  [(headerCell, ⟨headerCell, sx 101, ⟨sampleGuid, 1⟩⟩), (dataCell, ⟨dataCell, sx 102, ⟨sampleGuid, 2⟩⟩),
    (pageCell, mapping pageCell)] ++ (List.range k).map fun i => (copy i, mapping (copy i))

theorem index_cells (k : Nat) : (indexOf (items k)).cellMappings = Map.ofList (cells k) := by
  unfold indexOf items cells
  simp only [List.filterMap_append, List.filterMap_map]
  congr 1
  congr 1
  rw [← List.filterMap_eq_map]
  rfl

theorem index_revisions (k : Nat) : (indexOf (items k)).revisionMappings = [] := by
  unfold indexOf items
  simp only [List.filterMap_append, List.filterMap_map]
  have : ∀ l : List Nat, l.filterMap ((fun x : IndexItem => match x with
    | .revision i m s => some (i, (⟨m, s⟩ : RevisionMapping))
    | _ => none) ∘ fun i => IndexItem.cell (copy i) (sx 105) ⟨sampleGuid, 5⟩) = [] := by
    intro l
    induction l with
    | nil => rfl
    | cons a l ih => exact ih
  erw [this]
  rfl

theorem copy_inj {i j : Nat} (h : copy i = copy j) : i = j := by
  have := sx_inj (CellId.mk.inj h).1
  omega

theorem copy_ne {n i : Nat} (hn : n < 10000) : (⟨sx n, sx n⟩ : CellId) ≠ copy i := by
  intro h
  have := sx_inj (CellId.mk.inj h).1
  omega

theorem cells_nodup (k : Nat) : ((cells k).map Prod.fst).Nodup := by
  unfold cells
  rw [List.map_append, List.map_map, List.nodup_append]
  refine ⟨by decide, List.Pairwise.map _ (fun a b hab e => hab (copy_inj e)) List.nodup_range, ?_⟩
  intro a ha b hb e
  obtain ⟨i, _, rfl⟩ := List.mem_map.1 hb
  simp only [List.map_cons, List.map_nil, List.mem_cons, List.not_mem_nil, or_false] at ha
  rcases ha with rfl | rfl | rfl
  · exact copy_ne (by decide) e
  · exact copy_ne (by decide) e
  · exact copy_ne (by decide) e

theorem get_cell {k : Nat} {c : CellId} {m : CellMapping} :
    (indexOf (items k)).cellMappings.get? c = some m ↔ (c, m) ∈ cells k := by
  rw [index_cells, Map.get?_ofList]
  exact lastWith_iff (cells_nodup k)

theorem mem_index {k : Nat} {c : CellId} {m : CellMapping}
    (h : (c, m) ∈ (indexOf (items k)).cellMappings) : (c, m) ∈ cells k := by
  rw [index_cells] at h
  rw [← lastWith_iff (cells_nodup k), ← Map.get?_ofList]
  exact Map.get?_of_mem (Map.nodup_ofList _) h

/-! ### The objects -/

theorem ids (k : Nat) : (page k).map (·.id) =
    2001 :: 2002 :: 2003 :: (List.range k).map (4000 + ·) := by
  simp only [page, pageObjects, List.map_append, List.map_cons, List.map_nil, List.map_map]
  rfl

theorem nodup (k : Nat) : ((page k).map (·.id)).Nodup := by
  rw [ids]
  have h : ((List.range k).map (4000 + ·)).Nodup :=
    List.Pairwise.map _ (fun a b hab e => hab (by omega)) List.nodup_range
  simp only [List.nodup_cons, h, List.mem_cons, List.mem_map, and_true]
  refine ⟨?_, ?_, ?_⟩ <;> simp <;> omega

theorem mem_page {k : Nat} {o : SampleObject} (h : o ∈ page k) :
    o ∈ pageObjects [] [] ∨ ∃ i, i < k ∧ o = groupW (4000 + i) [] := by
  unfold page pageObjects at h
  rcases List.mem_append.1 h with h | h
  · exact .inl (List.mem_append.2 (.inl h))
  · obtain ⟨i, hi, rfl⟩ := List.mem_map.1 h
    exact .inr ⟨i, List.mem_range.1 hi, rfl⟩

theorem good (k : Nat) : ∀ o ∈ page k, Written.Good o := by
  intro o ho
  rcases mem_page ho with h | ⟨i, -, rfl⟩
  · have : ∀ o ∈ pageObjects [] [], Written.Good o := by decide +kernel
    exact this o h
  · have : Written.Good (groupW 0 []) := by decide +kernel
    exact this

theorem fitting {k : Nat} (hk : k < 2 ^ 31) : ∀ o ∈ page k, Fitting o := by
  intro o ho
  rcases mem_page ho with h | ⟨i, hi, rfl⟩
  · have : ∀ o ∈ pageObjects [] [], Fitting o := by decide +kernel
    exact this o h
  · have h : Fits64 (groupW 0 []).props.length := by decide +kernel
    exact ⟨by show 4000 + i < _; omega,
      ⟨show 0 < 2 ^ 64 by decide, nofun, show 0 < 2 ^ 64 by decide, nofun⟩, h⟩

theorem small (k : Nat) : ∀ o ∈ page k, Doubling.Small o := by
  intro o ho
  rcases mem_page ho with h | ⟨i, -, rfl⟩
  · have : ∀ o ∈ pageObjects [] [], Doubling.Small o := by decide +kernel
    exact this o h
  · have h : Doubling.Small (groupW 0 []) := by decide +kernel
    exact h

/-! ### The store -/

theorem resolves_self {k : Nat} {r : ExGuid} {m : RevisionManifest}
    (h : (pkg k).revisionManifests.get? r = some m) : Resolves (pkg k) (indexOf (items k)) r r := by
  unfold Resolves
  rw [index_revisions]
  exact ⟨rfl, by rw [h]; rfl⟩

theorem space_written {k : Nat} {cell : CellId} {id : ExGuid} {serial : SerialNumber}
    {objs : List SampleObject} {n : Nat} {content info : ExGuid}
    (hn : (objs.map (·.id)).Nodup) (hg : ∀ o ∈ objs, Written.Good o)
    (hc : (pkg k).cellManifests.get? id = some (sx (200 + n)))
    (hm : (pkg k).revisionManifests.get? (sx (200 + n)) = some (manifestFor n content info))
    (hp : (pkg k).objectGroups.get? (sx (400 + n)) = some (groupFor objs)) :
    SpaceIs (pkg k) (indexOf (items k)) ⟨cell, id, serial⟩ (spaceOf cell content info objs) :=
  ⟨rfl, rfl, .inl ⟨_, _, .inl (.inl ⟨_, hc, resolves_self hm⟩), .oldest _ _ hm rfl,
    history_written hn hg hp⟩⟩

/-- The object space of the page, in one of its cells. -/
def spaceIn (k : Nat) (c : CellId) : ObjectSpace := spaceOf c (sx 2002) (sx 2001) (page k)

def spaces (k : Nat) : Map CellId ObjectSpace :=
  (pageCell :: (List.range k).map copy).map fun c => (c, spaceIn k c)

theorem get_spaces {k : Nat} {c : CellId} :
    (spaces k).get? c = if c = pageCell ∨ ∃ i, i < k ∧ c = copy i then some (spaceIn k c) else none := by
  have key : ∀ l : List CellId, Map.get? (l.map fun c => (c, spaceIn k c)) c =
      if c ∈ l then some (spaceIn k c) else none := by
    intro l
    induction l with
    | nil => rfl
    | cons a l ih =>
      rw [List.map_cons, Map.get?]
      by_cases h : a = c
      · rw [if_pos h, if_pos (by rw [h]; exact .head _), h]
      · rw [if_neg h, ih]
        have : c ∈ a :: l ↔ c ∈ l :=
          ⟨fun hm => (List.mem_cons.1 hm).resolve_left (fun e => h e.symm), .tail _⟩
        by_cases hl : c ∈ l
        · rw [if_pos hl, if_pos (this.2 hl)]
        · rw [if_neg hl, if_neg (fun hm => hl (this.1 hm))]
  rw [spaces, key]
  have : (c ∈ pageCell :: (List.range k).map copy) ↔ (c = pageCell ∨ ∃ i, i < k ∧ c = copy i) := by
    simp only [List.mem_cons, List.mem_map, List.mem_range, eq_comm (a := c)]
  by_cases h : c ∈ pageCell :: (List.range k).map copy
  · rw [if_pos h, if_pos (this.1 h)]
  · rw [if_neg h, if_neg (fun x => h (this.2 x))]

theorem store_written : ∃ header, ∀ k,
    StoreIs (packaging k) ⟨sectionGuid, header,
      spaceOf dataCell (sx 1000) (sx 1001) (sectionObjects none 1), spaces k⟩ := by
  obtain ⟨header, hh⟩ := header_exists
  refine ⟨header, fun k => ?_⟩
  obtain ⟨l1, l2, l3, l4, l5, l6, l7, l8, l9, l10, l11⟩ := lookups k
  refine ⟨indexOf (items k), ⟨sectionGuid, [(headerRootId, headerCell), (defaultRootId, dataCell)]⟩,
    headerCell, dataCell, .inl ?_, ⟨sx 4, ?_⟩, rfl, rfl,
    ⟨⟨headerCell, sx 101, ⟨sampleGuid, 1⟩⟩, ?_, ?_⟩, rfl,
    ⟨⟨dataCell, sx 102, ⟨sampleGuid, 2⟩⟩, ?_, ?_⟩, ?_, ?_⟩
  · show (pkg k).storageIndexes.get? (sx 3) = _
    rw [l1]; rfl
  · show _ ∈ (pkg k).storageManifests
    rw [l2]
    exact List.mem_singleton.2 rfl
  · exact get_cell.2 (.head _)
  · exact ⟨_, _, _, [], _, .inl (.inl ⟨_, l3, resolves_self l6⟩), l6, rfl, l9, by simp,
      header_iff.1 hh⟩
  · exact get_cell.2 (.tail _ (.head _))
  · exact space_written (n := 2) (by decide +kernel) section_good l4 l7 l10
  · rintro c m ⟨hm, h0, h1, h2⟩
    have hm := get_cell.1 hm
    have hc : (c = pageCell ∨ ∃ i, i < k ∧ c = copy i) ∧ m = mapping c := by
      unfold cells at hm
      rcases List.mem_append.1 hm with hm | hm
      · simp only [List.mem_cons, List.not_mem_nil, or_false, Prod.mk.injEq] at hm
        rcases hm with ⟨rfl, -⟩ | ⟨rfl, -⟩ | ⟨rfl, rfl⟩
        · exact absurd rfl h1
        · exact absurd rfl h2
        · exact ⟨.inl rfl, rfl⟩
      · obtain ⟨i, hi, e⟩ := List.mem_map.1 hm
        cases e
        exact ⟨.inr ⟨i, List.mem_range.1 hi, rfl⟩, rfl⟩
    obtain ⟨hc, rfl⟩ := hc
    refine ⟨spaceIn k c, ?_, space_written (n := 5) (nodup k) (good k) l5 l8 l11⟩
    show (spaces k).get? c = _
    rw [get_spaces, if_pos hc]
  · intro c hc
    show (spaces k).get? c = none
    rw [get_spaces, if_neg]
    rintro (rfl | ⟨i, hi, rfl⟩)
    · exact hc ⟨_, get_cell.2 (.tail _ (.tail _ (.head _))), by decide, by decide, by decide⟩
    · refine hc ⟨mapping (copy i), get_cell.2 (List.mem_append.2 (.inr (List.mem_map.2
        ⟨i, List.mem_range.2 hi, rfl⟩))), by show sx 105 ≠ _; decide, ?_, ?_⟩
      · exact fun e => copy_ne (n := 1) (by decide) e.symm
      · exact fun e => copy_ne (n := 2) (by decide) e.symm

/-! ### The bytes -/

theorem others_fit : ∀ e ∈ others, ElementFits e := by decide +kernel

theorem elements_fit {k : Nat} (hk : k < 2 ^ 31) : ∀ e ∈ elements k, ElementFits e := by
  intro e he
  rcases List.mem_append.1 he with he | he
  · exact others_fit e he
  · simp only [List.mem_cons, List.not_mem_nil, or_false] at he
    rcases he with rfl | rfl
    · refine ⟨by show 3 < _; decide, ?_⟩
      intro x hx
      rcases List.mem_append.1 hx with hx | hx
      · have : ∀ x ∈ ([.cell headerCell (sx 101) ⟨sampleGuid, 1⟩,
            .cell dataCell (sx 102) ⟨sampleGuid, 2⟩, .cell pageCell (sx 105) ⟨sampleGuid, 5⟩] :
            List IndexItem), IndexItemFits x := by decide +kernel
        exact this x hx
      · obtain ⟨i, hi, rfl⟩ := List.mem_map.1 hx
        have hi := List.mem_range.1 hi
        have h : ExGuidFits (sx (10000 + i)) := Doubling.sx_fits (by omega)
        exact ⟨⟨h, h⟩, Doubling.sx_fits (by decide), by decide⟩
    · exact Written.elements_fit (fitting hk) _ (by rw [elements_eq]; simp)

theorem file_parse {k : Nat} (hk : k < 2 ^ 31) :
    Packaging.parse (file k) = .ok (packaging k, []) :=
  fileW_parse (by decide) (elements_fit hk)

theorem unambiguous (k : Nat) : Unambiguous (packaging k) := by
  obtain ⟨l1, l2, l3, l4, l5, l6, l7, l8, l9, l10, l11⟩ := lookups k
  refine ⟨.inr ?_, ?_, ?_⟩
  · show (pkg k).storageIndexes.length ≤ 1
    rw [l1]; exact Nat.le_refl 1
  · show (pkg k).storageManifests.length ≤ 1
    rw [l2]; exact Nat.le_refl 1
  · intro i si c m hi hm
    have hi : (i, si) ∈ (pkg k).storageIndexes := hi
    rw [l1, List.mem_singleton, Prod.mk.injEq] at hi
    obtain ⟨-, rfl⟩ := hi
    have hm := mem_index hm
    unfold cells at hm
    rcases List.mem_append.1 hm with hm | hm
    · simp only [List.mem_cons, List.not_mem_nil, or_false, Prod.mk.injEq] at hm
      rcases hm with ⟨-, rfl⟩ | ⟨-, rfl⟩ | ⟨-, rfl⟩
      · exact .inr (.inl (.inl ⟨_, _, l3, resolves_self l6⟩))
      · exact .inr (.inl (.inl ⟨_, _, l4, resolves_self l7⟩))
      · exact .inr (.inl (.inl ⟨_, _, l5, resolves_self l8⟩))
    · obtain ⟨j, _, e⟩ := List.mem_map.1 hm
      cases e
      exact .inr (.inl (.inl ⟨_, _, l5, resolves_self l8⟩))

theorem plain {k : Nat} (hk : k < 2 ^ 31) : PlainFile (file k) := by
  intro q hq
  rw [(contains_parse (file_parse hk) q).1 hq]
  exact unambiguous k

theorem file_length (k : Nat) : (file k).length ≤ 5000 + 600 * k := by
  have h1 := Doubling.element_length (small k)
  have h2 : (page k).length = k + 3 := by
    have := congrArg List.length (ids k)
    simpa using this
  have h3 : (fileW (sx 3) sectionGuid []).length + (listW elementW others).length ≤ 2000 := by
    decide +kernel
  have h4 : (elementW ⟨sx 3, .storageIndex (items k)⟩).length ≤ 500 + 100 * k := by
    have a1 := Doubling.exGuid_length (sx 3)
    have a2 := Doubling.compact_length (bodyType (.storageIndex (items k)))
    have a3 : (listW indexItemW (items k)).length ≤ 100 * (items k).length := by
      apply Doubling.listW_length
      intro x hx
      have key : ∀ c i n, (indexItemW (.cell c i ⟨sampleGuid, n⟩)).length ≤ 100 := by
        intro c i n
        have b1 := Doubling.exGuid_length c.fst
        have b2 := Doubling.exGuid_length c.snd
        have b3 := Doubling.exGuid_length i
        have b4 : (hdr16 .storageIndexCellMapping).length = 2 := by decide
        have b5 : (guid sampleGuid).length = 16 := by decide
        simp only [indexItemW, cellIdW, serialW, List.length_append, List.length_cons, leBytes_length]
        omega
      rcases List.mem_append.1 hx with hx | hx
      · simp only [List.mem_cons, List.not_mem_nil, or_false] at hx
        rcases hx with rfl | rfl | rfl <;> exact key _ _ _
      · obtain ⟨i, -, rfl⟩ := List.mem_map.1 hx
        exact key _ _ _
    have a4 : (items k).length = k + 3 := by simp [items]
    have a5 : (hdr16 .dataElement).length = 2 ∧ dataElementEnd.length ≤ 2 := by decide
    rw [a4] at a3
    simp only [elementW, bodyW, List.length_append, List.length_cons, List.length_nil] at a2 ⊢
    omega
  unfold file
  rw [Doubling.fileW_length, elements, Doubling.listW_append]
  simp only [List.length_append, listW, List.append_nil]
  omega

/-! ### The section -/

theorem page_written (k : Nat) : ∃ p, PageIs (spaceIn k pageCell) p ∧ p.contents = [] := by
  obtain ⟨info, a1, -⟩ := parsed (r := PageMetadata.parse (objectOf pageCell
    (pageObjects [] [])[0])) (fun _ => ()) (b := ()) (by decide +kernel)
  obtain ⟨manifest, b1, b2⟩ := parsed (r := PageManifestNode.parse (objectOf pageCell
    (pageObjects [] [])[1])) _root_.id (b := sx 2003) (by decide +kernel)
  obtain ⟨node, c1, c2⟩ := parsed (r := PageNode.parse (objectOf pageCell
    (pageObjects [] [])[2])) (fun n => (n.content, n.title)) (b := ([], none))
    (by decide +kernel)
  simp only [Prod.mk.injEq] at c2
  have b2 : manifest = sx 2003 := b2
  subst b2
  refine ⟨_, ⟨sx 2001, _, info, sx 2002, _, sx 2003, _, node, none, [], rfl,
    get_space (nodup k) (.head _), PageMetadata.parse_iff.1 a1, rfl,
    get_space (nodup k) (.tail _ (.head _)), PageManifestNode.parse_iff.1 b1,
    get_space (nodup k) (.tail _ (.tail _ (.head _))), PageNode.parse_iff.1 c1, .inl ⟨c2.2, rfl⟩, ?_,
    rfl⟩, rfl⟩
  rw [c2.1]
  exact .nil

theorem file_store : ∃ header, ∀ k, k < 2 ^ 31 → FileStore (file k) ⟨sectionGuid, header,
    spaceOf dataCell (sx 1000) (sx 1001) (sectionObjects none 1), spaces k⟩ := by
  obtain ⟨header, hs⟩ := store_written
  exact ⟨header, fun k hk => ⟨_, (contains_parse (file_parse hk) _).2 rfl, hs k⟩⟩

theorem section_written {k : Nat} (hk : k < 2 ^ 31) (name : Text) :
    ∃ s p, SectionFile (file k) name s ∧ s.pageSeries = [⟨[p]⟩] ∧ p.contents = [] := by
  obtain ⟨header, hs⟩ := file_store
  obtain ⟨p, hp, hpc⟩ := page_written k
  obtain ⟨n, h1, h2⟩ := parsed (r := SectionNode.parse (objectOf dataCell
    (sectionObjects none 1)[1])) (·.pageSeries) (b := [sx 1002]) (by decide +kernel)
  obtain ⟨m, h3, h4⟩ := parsed (r := SectionMetadata.parse (objectOf dataCell
    (sectionObjects none 1)[0])) (·.displayName) (b := none) (by decide +kernel)
  obtain ⟨j, h5, h6⟩ := parsed (r := PageSeriesNode.parse (objectOf dataCell
    (sectionObjects none 1)[2])) (·.pageSpaces) (b := [pageCell]) (by decide +kernel)
  refine ⟨⟨trimEndMatches dotOne name, [⟨[p]⟩], m.color⟩, p, ⟨_, hs k hk, rfl,
    sx 1001, _, m, sx 1000, _, n, rfl, rfl, SectionMetadata.parse_iff.1 h3, rfl, rfl,
    SectionNode.parse_iff.1 h1, ?_, ?_, rfl⟩, rfl, hpc⟩
  · rw [h4]
    exact stripped_iff.1 rfl
  · rw [h2]
    refine .cons ⟨_, j, rfl, PageSeriesNode.parse_iff.1 h5, ?_⟩ .nil
    rw [h6]
    exact .cons ⟨_, rfl, hp⟩ .nil

/-- Each of the `k` cells holds the `k` objects. -/
theorem held {k : Nat} (hk : k < 2 ^ 31) (ord : Order) :
    ∃ store, readStore ord (file k) = .ok store ∧ HoldsAtLeast (k * k) store := by
  obtain ⟨header, hs⟩ := file_store
  obtain ⟨store, hr, same⟩ := readStore_complete (plain hk) (hs k hk) ord
  refine ⟨store, hr, pairs ((List.range k).map fun i => some (copy i))
    ((List.range k).map fun i => sx (4000 + i)), pairs_nodup ?_ ?_, ?_, ?_⟩
  · exact List.Pairwise.map _ (fun a b hab e => hab (copy_inj (Option.some.inj e))) List.nodup_range
  · exact List.Pairwise.map _ (fun a b hab e => hab (by have := sx_inj e; omega)) List.nodup_range
  · rw [pairs_length, List.length_map, List.length_map, List.length_range]
  · rintro ⟨c, id⟩ hx
    obtain ⟨h1, h2⟩ := mem_pairs.1 hx
    obtain ⟨i, hi, rfl⟩ := List.mem_map.1 h1
    obtain ⟨j, hj, rfl⟩ := List.mem_map.1 h2
    have hg : (spaces k).get? (copy i) = some (spaceIn k (copy i)) := by
      rw [get_spaces, if_pos (.inr ⟨i, List.mem_range.1 hi, rfl⟩)]
    have ho : (spaceIn k (copy i)).getObject (sx (4000 + j)) =
        some (objectOf (copy i) (groupW (4000 + j) [])) :=
      get_space (nodup k) (o := groupW (4000 + j) [])
        (List.mem_append.2 (.inr (List.mem_map.2 ⟨j, hj, rfl⟩)))
    have hc := same.spaces (copy i)
    simp only [hg] at hc
    cases hsp : store.objectSpaces.get? (copy i) with
    | none => rw [hsp] at hc; cases hc
    | some space =>
      rw [hsp] at hc
      exact ⟨space, _, hsp, (hc.objects _).symm.trans ho⟩

end OneNote.Copies
