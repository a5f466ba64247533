/-
C46: The object store of a file is exactly what its data elements say.
-/
import Verif.Lemmas.StoreContents
import Verif.Lemmas.Write
import Verif.Spec.SampleStore

namespace OneNote

open Spec Spec.StoreContents

/-! ### Being the contents depends only on the answers -/

theorem SameSpace_symm {s s' : ObjectSpace} (h : SameSpace s s') : SameSpace s' s :=
  ⟨h.id.symm, h.context.symm, fun r => (h.roots r).symm, fun i => (h.objects i).symm⟩

theorem SameSpace_trans {s s' s'' : ObjectSpace} (h : SameSpace s s') (h' : SameSpace s' s'') :
    SameSpace s s'' :=
  ⟨h.id.trans h'.id, h.context.trans h'.context, fun r => (h.roots r).trans (h'.roots r),
    fun i => (h.objects i).trans (h'.objects i)⟩

theorem spaceIs_same {pkg : Package} {si : StorageIndex} {m : CellMapping} {s s' : ObjectSpace}
    (h : SpaceIs pkg si m s') (e : SameSpace s s') : SpaceIs pkg si m s := by
  refine ⟨e.id.trans h.id, e.context.trans h.context, ?_⟩
  rcases h.contents with ⟨r, ms, hr, hc, hh⟩ | ⟨hn, hm, ho, hroots⟩
  · refine .inl ⟨r, ms, hr, hc, hh.groups, hh.roles, fun role => (e.roots role).trans (hh.roots role),
      ?_, fun id hid => (e.objects id).trans (hh.absent id hid)⟩
    intro id pre g post h1 h2 h3
    rw [e.objects]
    exact hh.present id pre g post h1 h2 h3
  · exact .inr ⟨hn, hm, fun id => (e.objects id).trans (ho id),
      fun role => (e.roots role).trans (hroots role)⟩

theorem storeIs_same {p : Packaging} {s s' : Store} (h : StoreIs p s') (e : SameContents s s') :
    StoreIs p s := by
  obtain ⟨si, sm, hc, dc, hsi, hsm, hschema, hhc, ⟨mh, hmh, hhead⟩, hdc, ⟨md, hmd, hdata⟩, hin,
    hout⟩ := h
  refine ⟨si, sm, hc, dc, hsi, hsm, e.schema.trans hschema, hhc, ⟨mh, hmh, e.header ▸ hhead⟩, hdc,
    ⟨md, hmd, spaceIs_same hdata e.dataRoot⟩, fun c m hm => ?_, fun c hn => ?_⟩
  · obtain ⟨space, hs, hspace⟩ := hin c m hm
    have := e.spaces c
    rw [hs] at this
    cases hg : s.objectSpaces.get? c with
    | none => rw [hg] at this; exact this.elim
    | some x =>
      rw [hg] at this
      exact ⟨x, rfl, spaceIs_same hspace this⟩
  · have := e.spaces c
    rw [hout c hn] at this
    cases hg : s.objectSpaces.get? c with
    | none => rfl
    | some x => rw [hg] at this; exact this.elim

theorem SameContents_symm {s s' : Store} (h : SameContents s s') : SameContents s' s := by
  refine ⟨h.schema.symm, h.header.symm, SameSpace_symm h.dataRoot, fun c => ?_⟩
  have := h.spaces c
  cases h1 : s.objectSpaces.get? c <;> cases h2 : s'.objectSpaces.get? c <;> rw [h1, h2] at this
  · trivial
  · exact this.elim
  · exact this.elim
  · exact SameSpace_symm this

theorem SameContents_trans {s s' s'' : Store} (h : SameContents s s') (h' : SameContents s' s'') :
    SameContents s s'' := by
  refine ⟨h.schema.trans h'.schema, h.header.trans h'.header, SameSpace_trans h.dataRoot h'.dataRoot,
    fun c => ?_⟩
  have a := h.spaces c
  have b := h'.spaces c
  cases h1 : s.objectSpaces.get? c <;> cases h2 : s'.objectSpaces.get? c <;>
    cases h3 : s''.objectSpaces.get? c <;> rw [h1, h2] at a <;> rw [h2, h3] at b <;>
    first | trivial | exact a.elim | exact b.elim | exact SameSpace_trans a b

/-! ### The property -/

/-- **Everything in a parsed store is what the file says**: the schema, the header, the data root and
the other object spaces with all their objects and roots, and nothing else. This needs no assumption
about ambiguities. -/
theorem C46_store_sound (bs rest : Bytes) (p : Packaging) (hp : Packaging.parse bs = .ok (p, rest))
    (ord : Order) (s : Store) (h : Store.parse ord p = .ok s) : StoreIs p s :=
  store_sound (keyed_of_parse hp) h

/-- **A store is found exactly if the file describes one**, for files without ambiguities (see `C24`
for the others), whatever the order of the hash maps: `StoreIs` holds of precisely the stores with
the same contents as the parsed one. -/
theorem C46_store_exactly (bs rest : Bytes) (p : Packaging) (hp : Packaging.parse bs = .ok (p, rest))
    (hu : Unambiguous p) (ord : Order) (s : Store) :
    StoreIs p s ↔ ∃ s', Store.parse ord p = .ok s' ∧ SameContents s s' := by
  constructor
  · exact fun h => store_complete (keyed_of_parse hp) hu h ord
  · rintro ⟨s', hs', e⟩
    exact storeIs_same (store_sound (keyed_of_parse hp) hs') e

/-- An unambiguous file is rejected by the store parser exactly if it does not describe a store. -/
theorem C46_rejected_exactly (bs rest : Bytes) (p : Packaging)
    (hp : Packaging.parse bs = .ok (p, rest)) (hu : Unambiguous p) (ord : Order) :
    (∃ e, Store.parse ord p = .error e) ↔ ¬ ∃ s, StoreIs p s := by
  constructor
  · rintro ⟨e, he⟩ ⟨s, hs⟩
    obtain ⟨s', hs', -⟩ := (C46_store_exactly bs rest p hp hu ord s).1 hs
    rw [he] at hs'
    cases hs'
  · intro h
    cases hs : Store.parse ord p with
    | error e => exact ⟨e, rfl⟩
    | ok s => exact absurd ⟨s, C46_store_sound bs rest p hp ord s hs⟩ h

/-- An unambiguous file describes at most one store. -/
theorem C46_unique (bs rest : Bytes) (p : Packaging) (hp : Packaging.parse bs = .ok (p, rest))
    (hu : Unambiguous p) (s s' : Store) (h : StoreIs p s) (h' : StoreIs p s') : SameContents s s' := by
  obtain ⟨t, ht, e⟩ := (C46_store_exactly bs rest p hp hu Order.id s).1 h
  obtain ⟨t', ht', e'⟩ := (C46_store_exactly bs rest p hp hu Order.id s').1 h'
  rw [ht] at ht'
  cases ht'
  exact SameContents_trans e (SameContents_symm e')

/-- Object spaces are found by their cells: looking up a cell gives the object space of the revision it
points to, and nothing for the header, the data root, empty cells and cells the file does not list. -/
theorem C46_lookup (bs rest : Bytes) (p : Packaging) (hp : Packaging.parse bs = .ok (p, rest)) (ord : Order)
    (s : Store) (h : Store.parse ord p = .ok s) :
    ∃ si hc dc, IndexIs p si ∧
      (∃ i sm, (i, sm) ∈ p.package.storageManifests ∧ sm.roots.get? headerRootId = some hc ∧
        sm.roots.get? defaultRootId = some dc) ∧
      ∀ c, (∀ space, s.objectSpace c = some space →
          ∃ m, IsOther si hc dc c m ∧ SpaceIs p.package si m space) ∧
        (s.objectSpace c = none ↔ ¬ ∃ m, IsOther si hc dc c m) := by
  obtain ⟨si, sm, hc, dc, hsi, ⟨i, hsm⟩, -, hhc, -, hdc, -, hin, hout⟩ := C46_store_sound bs rest p hp ord s h
  refine ⟨si, hc, dc, hsi, ⟨i, sm, hsm, hhc, hdc⟩, fun c => ⟨fun space hs => ?_, fun hn => ?_, hout c⟩⟩
  · unfold Store.objectSpace at hs
    by_cases ho : ∃ m, IsOther si hc dc c m
    · obtain ⟨m, hm⟩ := ho
      obtain ⟨space', hs', hsp⟩ := hin c m hm
      cases hs.symm.trans hs'
      exact ⟨m, hm, hsp⟩
    · cases hs.symm.trans (hout c ho)
  · rintro ⟨m, hm⟩
    obtain ⟨space', hs', _⟩ := hin c m hm
    cases hs'.symm.trans hn

/-! ### The hypotheses can be met -/

private def sampleElements : List Element :=
  ⟨sx 4, manifestOf sampleGuid⟩ ::
    storeElements sampleRoots sampleObjects []

private def samplePackage : Packaging :=
  ⟨sampleGuid, Guid.nil, Guid.nil, packageStore, sx 3,
    sampleGuid, packageOf sampleElements⟩

private theorem samplePackage_unambiguous : Unambiguous samplePackage where
  index := .inl (Option.isSome_iff_exists.mp (by decide +kernel))
  manifest := by decide +kernel
  cells := by
    have h : ∀ e ∈ samplePackage.package.storageIndexes, ∀ e' ∈ e.2.cellMappings,
        (samplePackage.package.resolveCellRevisionManifestId e.2 e'.2.id).isSome = true := by
      decide +kernel
    exact fun _ _ _ _ hi hm => .inr (.inl ((leads_iff _ _ _).mpr
      (Option.isSome_iff_exists.mp (h _ hi _ hm))))

/-- A file of which the hypotheses hold and which describes a store with an object in it. -/
example : ∃ bs s, Packaging.parse bs = .ok (samplePackage, []) ∧ Unambiguous samplePackage ∧
    StoreIs samplePackage s ∧ s.dataRoot.objects ≠ [] := by
  have hp : Packaging.parse (storeFile sampleGuid
      sampleRoots sampleObjects) = .ok (samplePackage, []) := fileW_parse (by decide) (by decide +kernel)
  have h : ((Store.parse Order.id samplePackage).map fun s => s.dataRoot.objects.length) = .ok 1 := by
    decide +kernel
  cases hs : Store.parse Order.id samplePackage with
  | error e => rw [hs] at h; cases h
  | ok s =>
    rw [hs] at h
    refine ⟨_, s, hp, samplePackage_unambiguous, C46_store_sound _ _ _ hp _ _ hs, ?_⟩
    intro hn
    simp [Except.map, hn] at h

#print axioms C46_store_sound
#print axioms C46_store_exactly
#print axioms C46_rejected_exactly
#print axioms C46_unique
#print axioms C46_lookup

end OneNote
