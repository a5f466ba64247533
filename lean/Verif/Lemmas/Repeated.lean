/-
A section file in which many cells have the same revision, and the revision refers many times to the
same object group.
-/
import Verif.Lemmas.Copies
import Verif.Lemmas.Steps

namespace OneNote.Repeated

open Spec Spec.StoreContents Spec.Document Written
open Copies (items cells page copy mapping spaces spaceIn get_cell mem_index index_revisions nodup good
  fitting small copy_ne copy_inj get_spaces ids)

/-! ### The file -/

/-- The roots of the page, and `k + 1` references to the same group. -/
def revisionItems (k : Nat) : List RevisionItem :=
  [.root contentRole (sx 2002), .root metadataRole (sx 2001)] ++ List.replicate (k + 1) (.group (sx 405))

def manifest (k : Nat) : RevisionManifest := revisionOf (sx 205) ExGuid.nil (revisionItems k)

/-- The elements without the storage index, the revision and the objects of the page. -/
def others : List Element :=
  ⟨sx 4, manifestOf sectionGuid⟩ ::
    (cellOf 1 [] (.objectGroup [.object (sx 900) 1 0 0 0] [.object [] [] headerProps]) ++
      cellOf 2 [.root contentRole (sx 1000), .root metadataRole (sx 1001)]
        (groupOf (sectionObjects none 1)) ++
      [⟨sx 105, .cellManifest (sx 205)⟩])

def elements (k : Nat) : List Element :=
  others ++ [⟨sx 205, .revisionManifest (sx 205) ExGuid.nil (revisionItems k)⟩,
    ⟨sx 3, .storageIndex (items k)⟩, ⟨sx 405, groupOf (page k)⟩]

def file (k : Nat) : Bytes := fileW (sx 3) sectionGuid (elements k)

def pkg (k : Nat) : Package := packageOf (elements k)

def packaging (k : Nat) : Packaging :=
  ⟨sectionGuid, Guid.nil, Guid.nil, packageStore, sx 3, sectionGuid, pkg k⟩

theorem lookups (k : Nat) :
    (pkg k).storageIndexes = [(sx 3, indexOf (items k))] ∧
    (pkg k).storageManifests =
      [(sx 4, ⟨sectionGuid, [(headerRootId, headerCell), (defaultRootId, dataCell)]⟩)] ∧
    (pkg k).cellManifests.get? (sx 101) = some (sx 201) ∧
    (pkg k).cellManifests.get? (sx 102) = some (sx 202) ∧
    (pkg k).cellManifests.get? (sx 105) = some (sx 205) ∧
    (pkg k).revisionManifests.get? (sx 201) =
      some (revisionOf (sx 201) ExGuid.nil [.group (sx 401)]) ∧
    (pkg k).revisionManifests.get? (sx 202) = some (manifestFor 2 (sx 1000) (sx 1001)) ∧
    (pkg k).revisionManifests.get? (sx 205) = some (manifest k) ∧
    (pkg k).objectGroups.get? (sx 401) = some headerGroup ∧
    (pkg k).objectGroups.get? (sx 402) = some (groupFor (sectionObjects none 1)) ∧
    (pkg k).objectGroups.get? (sx 405) = some (groupFor (page k)) := by
  unfold pkg elements manifest
  generalize items k = its
  generalize page k = pg
  generalize revisionItems k = ris
  unfold others
  simp only [groupOf_eq]
  refine ⟨rfl, rfl, rfl, rfl, rfl, rfl, rfl, rfl, rfl, rfl, rfl⟩

theorem references (k : Nat) : (manifest k).groupReferences = List.replicate (k + 1) (sx 405) := by
  have key : ∀ n, (revisionOf (sx 205) ExGuid.nil
      (List.replicate n (.group (sx 405)))).groupReferences = List.replicate n (sx 405) := by
    intro n
    induction n with
    | zero => rfl
    | succ n ih => exact congrArg (sx 405 :: ·) ih
  exact key (k + 1)

theorem roots (k : Nat) : (manifest k).rootDeclare =
    [⟨contentRole, sx 2002⟩, ⟨metadataRole, sx 2001⟩] := by
  have key : ∀ n, (revisionOf (sx 205) ExGuid.nil
      (List.replicate n (.group (sx 405)))).rootDeclare = [] := by
    intro n
    induction n with
    | zero => rfl
    | succ n ih => exact ih
  exact congrArg (fun l => (⟨contentRole, sx 2002⟩ : RootDeclare) :: ⟨metadataRole, sx 2001⟩ :: l)
    (key (k + 1))

/-! ### The store -/

theorem history (k : Nat) (cell : CellId) :
    HistoryIs (pkg k) cell [manifest k] (spaceIn k cell) := by
  obtain ⟨-, -, -, -, -, -, -, -, -, -, hp⟩ := lookups k
  have gs : groupsOf (pkg k) [manifest k] = List.replicate (k + 1) (groupFor (page k)) := by
    unfold groupsOf
    rw [List.flatMap_cons, List.flatMap_nil, List.append_nil, references,
      List.filterMap_replicate_of_some hp]
  constructor
  · intro m hm gid hgid
    obtain rfl := List.mem_singleton.1 hm
    rw [references] at hgid
    rw [List.eq_of_mem_replicate hgid]
    exact ⟨_, hp⟩
  · intro m hm d hd
    obtain rfl := List.mem_singleton.1 hm
    rw [roots] at hd
    simp only [List.mem_cons, List.not_mem_nil, or_false] at hd
    rcases hd with rfl | rfl
    · exact ⟨.defaultContent, rfl⟩
    · exact ⟨.metadata, rfl⟩
  · intro role
    have : rootsOf [manifest k] = [(contentRole, sx 2002), (metadataRole, sx 2001)] := by
      unfold rootsOf
      rw [List.flatMap_cons, roots]
      rfl
    rw [this]
    cases role <;> rfl
  · intro id pre g post hs _ hd
    rw [gs] at hs
    have hg : g ∈ List.replicate (k + 1) (groupFor (page k)) := by rw [hs]; simp
    obtain rfl := List.eq_of_mem_replicate hg
    obtain ⟨o, ho, rfl⟩ := declares_iff.1 hd
    exact ⟨by simp [groupFor], _, get_space (nodup k) ho, object_written (nodup k) ho (good k o ho)⟩
  · intro id h
    rw [gs] at h
    exact get_none fun o ho he => h _ (List.mem_replicate.2 ⟨by omega, rfl⟩)
      (declares_iff.2 ⟨o, ho, he⟩)

theorem resolves_self {k : Nat} {r : ExGuid} {m : RevisionManifest}
    (h : (pkg k).revisionManifests.get? r = some m) : Resolves (pkg k) (indexOf (items k)) r r := by
  unfold Resolves
  rw [index_revisions]
  exact ⟨rfl, by rw [h]; rfl⟩

theorem leads (k : Nat) : LeadsTo (pkg k) (indexOf (items k)) (sx 105) (sx 205) := by
  obtain ⟨l1, l2, l3, l4, l5, l6, l7, l8, l9, l10, l11⟩ := lookups k
  exact .inl ⟨_, l5, resolves_self l8⟩

theorem page_space (k : Nat) (cell : CellId) :
    SpaceIs (pkg k) (indexOf (items k)) (mapping cell) (spaceIn k cell) := by
  obtain ⟨l1, l2, l3, l4, l5, l6, l7, l8, l9, l10, l11⟩ := lookups k
  exact ⟨rfl, rfl, .inl ⟨_, _, .inl (leads k), .oldest _ _ l8 rfl, history k cell⟩⟩

theorem data_space (k : Nat) : SpaceIs (pkg k) (indexOf (items k))
    ⟨dataCell, sx 102, ⟨sampleGuid, 2⟩⟩
    (spaceOf dataCell (sx 1000) (sx 1001) (sectionObjects none 1)) := by
  obtain ⟨l1, l2, l3, l4, l5, l6, l7, l8, l9, l10, l11⟩ := lookups k
  exact ⟨rfl, rfl, .inl ⟨_, _, .inl (.inl ⟨_, l4, resolves_self l7⟩), .oldest _ _ l7 rfl,
    history_written (n := 2) (by decide +kernel) section_good l10⟩⟩

theorem store_written : ∃ header, ∀ k,
    StoreIs (packaging k) ⟨sectionGuid, header,
      spaceOf dataCell (sx 1000) (sx 1001) (sectionObjects none 1), spaces k⟩ := by
  obtain ⟨header, hh⟩ := header_exists
  refine ⟨header, fun k => ?_⟩
  obtain ⟨l1, l2, l3, l4, l5, l6, l7, l8, l9, l10, l11⟩ := lookups k
  refine ⟨indexOf (items k), ⟨sectionGuid, [(headerRootId, headerCell), (defaultRootId, dataCell)]⟩,
    headerCell, dataCell, .inl ?_, ⟨sx 4, ?_⟩, rfl, rfl,
    ⟨⟨headerCell, sx 101, ⟨sampleGuid, 1⟩⟩, ?_, ?_⟩, rfl,
    ⟨⟨dataCell, sx 102, ⟨sampleGuid, 2⟩⟩, ?_, ?_⟩, ?_, ?_⟩
  · show (pkg k).storageIndexes.get? (sx 3) = _
    rw [l1]; rfl
  · show _ ∈ (pkg k).storageManifests
    rw [l2]
    exact List.mem_singleton.2 rfl
  · exact get_cell.2 (.head _)
  · exact ⟨_, _, _, [], _, .inl (.inl ⟨_, l3, resolves_self l6⟩), l6, rfl, l9, by simp,
      header_iff.1 hh⟩
  · exact get_cell.2 (.tail _ (.head _))
  · exact data_space k
  · rintro c m ⟨hm, h0, h1, h2⟩
    have hm := get_cell.1 hm
    have hc : (c = pageCell ∨ ∃ i, i < k ∧ c = copy i) ∧ m = mapping c := by
      unfold cells at hm
      rcases List.mem_append.1 hm with hm | hm
      · simp only [List.mem_cons, List.not_mem_nil, or_false, Prod.mk.injEq] at hm
        rcases hm with ⟨rfl, -⟩ | ⟨rfl, -⟩ | ⟨rfl, rfl⟩
        · exact absurd rfl h1
        · exact absurd rfl h2
        · exact ⟨.inl rfl, rfl⟩
      · obtain ⟨i, hi, e⟩ := List.mem_map.1 hm
        cases e
        exact ⟨.inr ⟨i, List.mem_range.1 hi, rfl⟩, rfl⟩
    obtain ⟨hc, rfl⟩ := hc
    refine ⟨spaceIn k c, ?_, page_space k c⟩
    show (spaces k).get? c = _
    rw [get_spaces, if_pos hc]
  · intro c hc
    show (spaces k).get? c = none
    rw [get_spaces, if_neg]
    rintro (rfl | ⟨i, hi, rfl⟩)
    · exact hc ⟨_, get_cell.2 (.tail _ (.tail _ (.head _))), by decide, by decide, by decide⟩
    · refine hc ⟨mapping (copy i), get_cell.2 (List.mem_append.2 (.inr (List.mem_map.2
        ⟨i, List.mem_range.2 hi, rfl⟩))), by show sx 105 ≠ _; decide, ?_, ?_⟩
      · exact fun e => copy_ne (n := 1) (by decide) e.symm
      · exact fun e => copy_ne (n := 2) (by decide) e.symm

/-! ### The bytes -/

theorem others_fit : ∀ e ∈ others, ElementFits e := by decide +kernel

theorem elements_fit {k : Nat} (hk : k < 2 ^ 31) : ∀ e ∈ elements k, ElementFits e := by
  intro e he
  rcases List.mem_append.1 he with he | he
  · exact others_fit e he
  · rcases List.mem_cons.1 he with rfl | he
    · refine ⟨Doubling.sx_fits (by decide), Doubling.sx_fits (by decide), by decide, ?_⟩
      intro x hx
      rcases List.mem_append.1 hx with hx | hx
      · have : ∀ x ∈ ([.root contentRole (sx 2002), .root metadataRole (sx 2001)] :
            List RevisionItem), RevisionItemFits x := by decide +kernel
        exact this x hx
      · rw [List.eq_of_mem_replicate hx]
        exact Doubling.sx_fits (n := 405) (by decide)
    · exact Copies.elements_fit hk e (List.mem_append.2 (.inr he))

theorem file_parse {k : Nat} (hk : k < 2 ^ 31) :
    Packaging.parse (file k) = .ok (packaging k, []) :=
  fileW_parse (by decide) (elements_fit hk)

theorem unambiguous (k : Nat) : Unambiguous (packaging k) := by
  obtain ⟨l1, l2, l3, l4, l5, l6, l7, l8, l9, l10, l11⟩ := lookups k
  refine ⟨.inr ?_, ?_, ?_⟩
  · show (pkg k).storageIndexes.length ≤ 1
    rw [l1]; exact Nat.le_refl 1
  · show (pkg k).storageManifests.length ≤ 1
    rw [l2]; exact Nat.le_refl 1
  · intro i si c m hi hm
    have hi : (i, si) ∈ (pkg k).storageIndexes := hi
    rw [l1, List.mem_singleton, Prod.mk.injEq] at hi
    obtain ⟨-, rfl⟩ := hi
    have hm := mem_index hm
    unfold cells at hm
    rcases List.mem_append.1 hm with hm | hm
    · simp only [List.mem_cons, List.not_mem_nil, or_false, Prod.mk.injEq] at hm
      rcases hm with ⟨-, rfl⟩ | ⟨-, rfl⟩ | ⟨-, rfl⟩
      · exact .inr (.inl (.inl ⟨_, _, l3, resolves_self l6⟩))
      · exact .inr (.inl (.inl ⟨_, _, l4, resolves_self l7⟩))
      · exact .inr (.inl (.inl ⟨_, _, l5, resolves_self l8⟩))
    · obtain ⟨j, _, e⟩ := List.mem_map.1 hm
      cases e
      exact .inr (.inl (.inl ⟨_, _, l5, resolves_self l8⟩))

theorem plain {k : Nat} (hk : k < 2 ^ 31) : PlainFile (file k) := by
  intro q hq
  rw [(contains_parse (file_parse hk) q).1 hq]
  exact unambiguous k

theorem file_length (k : Nat) : (file k).length ≤ 5000 + 700 * k := by
  have h1 := Doubling.element_length (small k)
  have h2 : (page k).length = k + 3 := by
    have := congrArg List.length (ids k)
    simpa using this
  have h3 : (fileW (sx 3) sectionGuid []).length + (listW elementW others).length ≤ 2000 := by
    decide +kernel
  have h4 : (elementW ⟨sx 3, .storageIndex (items k)⟩).length ≤ 500 + 100 * k := by
    have a1 := Doubling.exGuid_length (sx 3)
    have a2 := Doubling.compact_length (bodyType (.storageIndex (items k)))
    have a3 : (listW indexItemW (items k)).length ≤ 100 * (items k).length := by
      apply Doubling.listW_length
      intro x hx
      have key : ∀ c i n, (indexItemW (.cell c i ⟨sampleGuid, n⟩)).length ≤ 100 := by
        intro c i n
        have b1 := Doubling.exGuid_length c.fst
        have b2 := Doubling.exGuid_length c.snd
        have b3 := Doubling.exGuid_length i
        have b4 : (hdr16 .storageIndexCellMapping).length = 2 := by decide
        have b5 : (guid sampleGuid).length = 16 := by decide
        simp only [indexItemW, cellIdW, serialW, List.length_append, List.length_cons, leBytes_length]
        omega
      rcases List.mem_append.1 hx with hx | hx
      · simp only [List.mem_cons, List.not_mem_nil, or_false] at hx
        rcases hx with rfl | rfl | rfl <;> exact key _ _ _
      · obtain ⟨i, -, rfl⟩ := List.mem_map.1 hx
        exact key _ _ _
    have a4 : (items k).length = k + 3 := by simp [items]
    have a5 : (hdr16 .dataElement).length = 2 ∧ dataElementEnd.length ≤ 2 := by decide
    rw [a4] at a3
    simp only [elementW, bodyW, List.length_append, List.length_cons, List.length_nil] at a2 ⊢
    omega
  have h5 : (elementW ⟨sx 205, .revisionManifest (sx 205) ExGuid.nil (revisionItems k)⟩).length ≤
      500 + 50 * k := by
    have a1 := Doubling.exGuid_length (sx 205)
    have a2 := Doubling.compact_length (bodyType (.revisionManifest (sx 205) ExGuid.nil (revisionItems k)))
    have a3 : (listW revisionItemW (revisionItems k)).length ≤ 50 * (revisionItems k).length := by
      apply Doubling.listW_length
      intro x hx
      rcases List.mem_append.1 hx with hx | hx
      · have : ∀ x ∈ ([.root contentRole (sx 2002), .root metadataRole (sx 2001)] :
            List RevisionItem), (revisionItemW x).length ≤ 50 := by decide +kernel
        exact this x hx
      · rw [List.eq_of_mem_replicate hx]
        decide +kernel
    have a4 : (revisionItems k).length = k + 3 := by simp [revisionItems]
    have a5 : (hdr16 .dataElement).length = 2 ∧ dataElementEnd.length ≤ 2 := by decide
    have a6 := Doubling.exGuid_length ExGuid.nil
    have a7 : (hdr16 .revisionManifest).length = 2 := by decide
    rw [a4] at a3
    simp only [elementW, bodyW, List.length_append, List.length_cons, List.length_nil] at a2 ⊢
    omega
  unfold file
  rw [Doubling.fileW_length, elements, Doubling.listW_append]
  simp only [List.length_append, listW, List.append_nil]
  omega

/-! ### The section -/

theorem file_store : ∃ header, ∀ k, k < 2 ^ 31 → FileStore (file k) ⟨sectionGuid, header,
    spaceOf dataCell (sx 1000) (sx 1001) (sectionObjects none 1), spaces k⟩ := by
  obtain ⟨header, hs⟩ := store_written
  exact ⟨header, fun k hk => ⟨_, (contains_parse (file_parse hk) _).2 rfl, hs k⟩⟩

theorem section_written {k : Nat} (hk : k < 2 ^ 31) (name : Text) :
    ∃ s p, SectionFile (file k) name s ∧ s.pageSeries = [⟨[p]⟩] ∧ p.contents = [] := by
  obtain ⟨header, hs⟩ := file_store
  obtain ⟨p, hp, hpc⟩ := Copies.page_written k
  obtain ⟨n, h1, h2⟩ := parsed (r := SectionNode.parse (objectOf dataCell
    (sectionObjects none 1)[1])) (·.pageSeries) (b := [sx 1002]) (by decide +kernel)
  obtain ⟨m, h3, h4⟩ := parsed (r := SectionMetadata.parse (objectOf dataCell
    (sectionObjects none 1)[0])) (·.displayName) (b := none) (by decide +kernel)
  obtain ⟨j, h5, h6⟩ := parsed (r := PageSeriesNode.parse (objectOf dataCell
    (sectionObjects none 1)[2])) (·.pageSpaces) (b := [pageCell]) (by decide +kernel)
  refine ⟨⟨trimEndMatches dotOne name, [⟨[p]⟩], m.color⟩, p, ⟨_, hs k hk, rfl,
    sx 1001, _, m, sx 1000, _, n, rfl, rfl, SectionMetadata.parse_iff.1 h3, rfl, rfl,
    SectionNode.parse_iff.1 h1, ?_, ?_, rfl⟩, rfl, hpc⟩
  · rw [h4]
    exact stripped_iff.1 rfl
  · rw [h2]
    refine .cons ⟨_, j, rfl, PageSeriesNode.parse_iff.1 h5, ?_⟩ .nil
    rw [h6]
    exact .cons ⟨_, rfl, hp⟩ .nil

/-! ### The steps -/

theorem group_length (k : Nat) : (groupFor (page k)).declarations.length = 2 * (k + 3) := by
  have h : (page k).length = k + 3 := by
    have := congrArg List.length (ids k)
    simpa using this
  rw [← h]
  generalize page k = l
  unfold groupFor
  dsimp only
  induction l with
  | nil => rfl
  | cons o l ih =>
    rw [List.length_map] at ih ⊢
    unfold entriesOf at ih ⊢
    rw [List.flatMap_cons, List.length_append, ih]
    simp
    omega

theorem steps {k : Nat} (hk : k < 2 ^ 31) (ord : Order) :
    ∃ store, readStore ord (file k) = .ok store ∧ k * k * k ≤ (readStoreCounted ord (file k)).steps := by
  obtain ⟨header, hs⟩ := file_store
  obtain ⟨store, hr, -⟩ := readStore_complete (plain hk) (hs k hk) ord
  refine ⟨store, hr, ?_⟩
  obtain ⟨hst, e⟩ := Steps.readStore_steps (file_parse hk) hr
  rw [e]
  obtain ⟨l1, l2, l3, l4, l5, l6, l7, l8, l9, l10, l11⟩ := lookups k
  have hsi : Store.storageIndexOf ord (packaging k) = some (indexOf (items k)) := by
    have h1 : (pkg k).findStorageIndexById (sx 3) = some (indexOf (items k)) := by
      unfold Package.findStorageIndexById
      rw [l1]
      exact if_pos rfl
    have h2 : (packaging k).package.findStorageIndexById (packaging k).storageIndex =
      some (indexOf (items k)) := h1
    unfold Store.storageIndexOf
    rw [h2]
    exact Option.some_or
  let w : CellMapping → Nat := fun m =>
    if ∃ i, i < k ∧ m = mapping (copy i) then (k + 1) * (2 * (k + 3)) else 0
  have key := Steps.le_store hsi w (by
    rintro done sp mp s1 - ⟨sm, hc, dc, h1, h2, h3, rfl⟩ hres
    by_cases hw : ∃ i, i < k ∧ mp = mapping (copy i)
    · rw [show w mp = _ from if_pos hw]
      obtain ⟨i, hi, rfl⟩ := hw
      have hsm : sm = ⟨sectionGuid, [(headerRootId, headerCell), (defaultRootId, dataCell)]⟩ := by
        unfold Package.findStorageManifest Map.values at h1
        have h1 : ((ord.perm _ (pkg k).storageManifests).map Prod.snd).head? = some sm := h1
        rw [l2, (List.perm_singleton.1 (ord.isPerm _ _))] at h1
        cases h1
        rfl
      subst hsm
      have h2 : (.ok headerCell : Res CellId) = .ok hc := h2
      have h3 : (.ok dataCell : Res CellId) = .ok dc := h3
      cases h2
      cases h3
      rw [← group_length k]
      refine Steps.le_addSpace (r := sx 205) (gid := sx 405) (show (sx 105).isNil = false by decide) ?_ ?_ ?_ l8 (references k) l11
        hres
      · intro hm
        simp only [List.mem_cons, List.not_mem_nil, or_false] at hm
        rcases hm with hm | hm
        · exact copy_ne (n := 1) (by decide) hm.symm
        · exact copy_ne (n := 2) (by decide) hm.symm
      · exact get_cell.2 (List.mem_append.2 (.inr (List.mem_map.2 ⟨i, List.mem_range.2 hi, rfl⟩)))
      · unfold ObjectSpace.firstRevision Package.resolveCellRevisionManifestId
          Package.findCellRevisionId
        show ((((pkg k).cellManifests.get? (sx 105)).bind
          ((pkg k).resolveRevisionManifestId (indexOf (items k)))).or _).or _ = _
        rw [l5, Option.bind_some, (resolve_iff _ _ _ _).2 (resolves_self l8)]
        rfl
    · rw [show w mp = _ from if_neg hw]
      exact Nat.zero_le _) hst
  have hsum : ∀ l : List Nat, (∀ i ∈ l, i < k) → l.Nodup → ∀ cs : List (CellId × CellMapping),
      (∀ i ∈ l, (copy i, mapping (copy i)) ∈ cs) →
      l.length * ((k + 1) * (2 * (k + 3))) ≤ ((cs.map Prod.snd).map w).sum := by
    intro l
    induction l with
    | nil => intros; simp
    | cons i l ih =>
      intro hl hn cs hcs
      have hp := List.perm_cons_erase (hcs i (.head _))
      rw [((hp.map _).map _).sum_nat, List.map_cons, List.map_cons, List.sum_cons, List.length_cons,
        Nat.add_mul, Nat.one_mul, Nat.add_comm]
      refine Nat.add_le_add (Nat.le_of_eq (if_pos ⟨i, hl i (.head _), rfl⟩).symm) ?_
      refine ih (fun j hj => hl j (.tail _ hj)) (List.nodup_cons.1 hn).2 _ fun j hj => ?_
      refine (List.mem_erase_of_ne fun h => ?_).2 (hcs j (.tail _ hj))
      have := copy_inj (congrArg Prod.fst h)
      exact (List.nodup_cons.1 hn).1 (this ▸ hj)
  have h1 := hsum (List.range k) (fun i hi => List.mem_range.1 hi) List.nodup_range
    (indexOf (items k)).cellMappings fun i hi =>
      Map.mem_of_get? (get_cell.2 (List.mem_append.2 (.inr (List.mem_map.2 ⟨i, hi, rfl⟩))))
  rw [List.length_range] at h1
  have h2 : k * k * k ≤ k * ((k + 1) * (2 * (k + 3))) := by
    rw [Nat.mul_assoc]
    exact Nat.mul_le_mul_left _ (Nat.mul_le_mul (by omega) (by omega))
  exact Nat.le_trans h2 (Nat.le_trans h1 key)

end OneNote.Repeated
