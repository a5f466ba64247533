/-
C24: Parsing is deterministic.
-/
import Verif.Lemmas.Store
import Verif.Lemmas.Write
import Verif.Model.References
import Verif.Spec.SampleFile
import Verif.Lemmas.SameFiles
import Verif.Lemmas.Whole
import Verif.Lemmas.AnyOrder
import Verif.Lemmas.Terminates

namespace OneNote

open Spec

/-- For a file without ambiguities, the outcome does not depend on the iteration order of the hash
maps: if the file is read with one order, it is read with every order and shows the same schema,
header, data root and object spaces (hence it is also rejected with every order or with none).
Missing from the full statement: files with several storage indexes or manifests or with several
revisions under one serial number, for which it is false (`C24_refuted`), and the kind of error of a
rejected file, which depends on the order (`C24_refuted_error`). -/
theorem C24_deterministic_partial (bs rest : Bytes) (p : Packaging)
    (hp : Packaging.parse bs = .ok (p, rest)) (hu : Unambiguous p) (ord ord' : Order) (s : Store)
    (h : Store.parse ord p = .ok s) : ∃ s', Store.parse ord' p = .ok s' ∧ SameStore s s' :=
  store_deterministic (keyed_of_parse hp) hu ord ord' h

/-- Rejection does not depend on the order either. -/
theorem C24_rejection_partial (bs rest : Bytes) (p : Packaging)
    (hp : Packaging.parse bs = .ok (p, rest)) (hu : Unambiguous p) (ord ord' : Order) (e : Err)
    (h : Store.parse ord p = .error e) : ∃ e', Store.parse ord' p = .error e' := by
  cases h' : Store.parse ord' p with
  | error e' => exact ⟨e', rfl⟩
  | ok s =>
    obtain ⟨s', hs, -⟩ := C24_deterministic_partial bs rest p hp hu ord' ord s h'
    rw [hs] at h
    cases h

/-- The same for sections: a file without ambiguities shows the same section with every order. -/
theorem C24_section_partial (fuel : Nat) (data : Bytes) (name : Text) (hu : PlainFile data)
    (ord ord' : Order) (s : Section) (h : parseSectionBuffer fuel ord data name = .ok s) :
    parseSectionBuffer fuel ord' data name = .ok s := by
  rcases buffer_readsAs (readsAs hu (fun _ => False) ord ord') h with h | ⟨e, he, -⟩
  · exact h
  · exact he.elim

/-- If the objects of a file without ambiguities can be read with one order, the outcome is the same with
every order, also if it is an error. -/
theorem C24_outcome_partial (data : Bytes) (hu : PlainFile data) (ord ord' : Order) (store : Store)
    (h : readStore ord data = .ok store) (fuel : Nat) (name : Text) :
    parseSectionBuffer fuel ord' data name = parseSectionBuffer fuel ord data name :=
  any_order hu h ord' fuel name

/-- The same for notebooks. -/
theorem C24_notebook_partial (fs : FileSystem) (sanitise : Text → Text) (fuel n : Nat) (path : Path)
    (hu : PlainFiles fs) (ord ord' : Order) (nb : Notebook)
    (h : parseNotebook ⟨fs, sanitise, ord, fuel⟩ n path = .ok nb) :
    parseNotebook ⟨fs, sanitise, ord', fuel⟩ n path = .ok nb := by
  have hc : Covers (fun _ => False) ⟨fs, sanitise, ord, fuel⟩ ⟨fs, sanitise, ord', fuel⟩ :=
    ⟨rfl, rfl, rfl, rfl, rfl, rfl, fun p d hd => ⟨d, hd, readsAs (hu p d hd) _ ord ord'⟩⟩
  rcases notebook_covers hc n h with h | ⟨e, he, -⟩
  · exact h
  · exact he.elim

/-- The positions of references do not depend on the order in which the preceding properties are
visited. -/
theorem C24_reference_counts (vs vs' : List PropertyValue) (h : vs.Perm vs') :
    countObjectRefs vs = countObjectRefs vs' ∧ countSpaceRefs vs = countSpaceRefs vs' := by
  unfold countObjectRefs countSpaceRefs
  exact ⟨(h.map _).sum_nat, (h.map _).sum_nat⟩

/-! ### The statement is false for ambiguous files -/

private def schema1 : Guid := sampleGuid
private def schema2 : Guid := Guid.nil

/-- A file with two storage manifests. -/
private def twoManifests : List Element :=
  ⟨sx 4, manifestOf schema1⟩ :: ⟨sx 5, manifestOf schema2⟩ :: storeElements sampleRoots sampleObjects

private theorem twoManifests_parse :
    Packaging.parse (fileW (sx 3) schema1 twoManifests) =
      .ok (⟨schema1, Guid.nil, Guid.nil, packageStore, sx 3, schema1, packageOf twoManifests⟩, []) :=
  fileW_parse (by decide) (by decide +kernel)

private def twoPkg : Packaging :=
  ⟨schema1, Guid.nil, Guid.nil, packageStore, sx 3, schema1, packageOf twoManifests⟩

/-- The full statement is false: there is a file that is read with two iteration orders and shows a
different schema each time. -/
theorem C24_refuted : ∃ bs p rest ord ord' s s', Packaging.parse bs = .ok (p, rest) ∧
    Store.parse ord p = .ok s ∧ Store.parse ord' p = .ok s' ∧ s.schema ≠ s'.schema := by
  have h1 : (Store.parse Order.id twoPkg).toOption.map (·.schema) = some schema1 := by
    decide +kernel
  have h2 : (Store.parse Order.rev twoPkg).toOption.map (·.schema) = some schema2 := by
    decide +kernel
  cases e1 : Store.parse Order.id twoPkg with
  | error e => rw [e1] at h1; cases h1
  | ok s =>
    cases e2 : Store.parse Order.rev twoPkg with
    | error e => rw [e2] at h2; cases h2
    | ok s' =>
      refine ⟨_, twoPkg, _, Order.id, Order.rev, s, s', twoManifests_parse, e1, e2, ?_⟩
      rw [e1] at h1
      rw [e2] at h2
      have i1 : s.schema = schema1 := Option.some.inj h1
      have i2 : s'.schema = schema2 := Option.some.inj h2
      rw [i1, i2]
      decide

/-- A section file with two storage manifests, which name different cells as the data. -/
private def twoSections : List Element :=
  ⟨sx 4, manifestOf sectionGuid⟩ ::
  ⟨sx 5, .storageManifest sectionGuid [(fileHeaderRoot, headerCell), (fileDataRoot, ⟨sx 50, sx 50⟩)]⟩ ::
  storeElements [.root contentRole (sx 1000), .root metadataRole (sx 1001)]
    (sectionObjects (some ['A']) 0)
    [(⟨sx 50, sx 50⟩, 50, [.root contentRole (sx 1000), .root metadataRole (sx 1001)],
      sectionObjects (some ['B']) 0)]

private theorem name_of {r : Res Section} {t : Text}
    (h : r.toOption.map (fun s => s.displayName) = some t) : ∃ s, r = .ok s ∧ s.displayName = t := by
  cases r with
  | error e => cases h
  | ok s => exact ⟨s, rfl, Option.some.inj h⟩

/-- Seen by a user: one and the same file is shown as two different sections. -/
theorem C24_section_refuted : ∃ data ord ord' s s', parseSectionBuffer 1 ord data [] = .ok s ∧
    parseSectionBuffer 1 ord' data [] = .ok s' ∧ s.displayName ≠ s'.displayName := by
  obtain ⟨s, h1, h2⟩ := name_of (r := parseSectionBuffer 1 Order.id
    (fileW (sx 3) sectionGuid twoSections) []) (t := ['A']) (by decide +kernel)
  obtain ⟨s', h3, h4⟩ := name_of (r := parseSectionBuffer 1 Order.rev
    (fileW (sx 3) sectionGuid twoSections) []) (t := ['B']) (by decide +kernel)
  refine ⟨_, _, _, s, s', h1, h3, ?_⟩
  rw [h2, h4]
  decide

/-- A file with two further cells, both bad: one has an unreadable object, the other a revision
history that never ends. -/
private def twoBadCells : List Element :=
  ⟨sx 4, manifestOf schema1⟩ ::
  ⟨sx 3, .storageIndex [.cell headerCell (sx 101) ⟨sampleGuid, 1⟩,
    .cell dataCell (sx 102) ⟨sampleGuid, 2⟩, .cell ⟨sx 50, sx 50⟩ (sx 150) ⟨sampleGuid, 3⟩,
    .cell ⟨sx 51, sx 51⟩ (sx 151) ⟨sampleGuid, 4⟩]⟩ ::
  (cellOf 1 [] (.objectGroup [.object (sx 900) 1 0 0 0] [.object [] [] headerProps]) ++
  cellOf 2 sampleRoots (groupOf sampleObjects) ++
  cellOf 50 [] (groupOf [⟨1001, 5, [], [], []⟩]) ++
  [⟨sx 151, .cellManifest (sx 251)⟩, ⟨sx 251, .revisionManifest (sx 251) (sx 251) []⟩])

private theorem twoBadCells_parse :
    Packaging.parse (fileW (sx 3) schema1 twoBadCells) =
      .ok (⟨schema1, Guid.nil, Guid.nil, packageStore, sx 3, schema1, packageOf twoBadCells⟩, []) :=
  fileW_parse (by decide) (by decide +kernel)

private def badPkg : Packaging :=
  ⟨schema1, Guid.nil, Guid.nil, packageStore, sx 3, schema1, packageOf twoBadCells⟩

private theorem unambiguous_of {p : Packaging}
    (h1 : (p.package.storageIndexes.get? p.storageIndex).isSome = true)
    (h2 : p.package.storageManifests.length ≤ 1)
    (h3 : ∀ e ∈ p.package.storageIndexes, ∀ e' ∈ e.2.cellMappings,
        (p.package.resolveCellRevisionManifestId e.2 e'.2.id).isSome = true) : Unambiguous p where
  index := .inl (Option.isSome_iff_exists.mp h1)
  manifest := h2
  cells := fun _ _ _ _ hi hm =>
    .inr (.inl ((leads_iff _ _ _).mpr (Option.isSome_iff_exists.mp (h3 _ hi _ hm))))

/-- Even the way a file without ambiguities fails depends on the order: the same file is rejected
with an error under one order and never stops being read (`fuel`) under another. -/
theorem C24_refuted_error : ∃ bs p rest ord ord', Packaging.parse bs = .ok (p, rest) ∧
    Unambiguous p ∧ Store.parse ord p = .error .eof ∧ Store.parse ord' p = .error .fuel := by
  refine ⟨_, badPkg, _, Order.id, Order.rev, twoBadCells_parse,
    unambiguous_of (by decide +kernel) (by decide +kernel) (by decide +kernel), ?_, ?_⟩
  · have h : (Store.parse Order.id badPkg).map (fun _ => ()) = .error .eof := by decide +kernel
    cases e : Store.parse Order.id badPkg with
    | error x => rw [e] at h; cases h; rfl
    | ok s => rw [e] at h; cases h
  · have h : (Store.parse Order.rev badPkg).map (fun _ => ()) = .error .fuel := by decide +kernel
    cases e : Store.parse Order.rev badPkg with
    | error x => rw [e] at h; cases h; rfl
    | ok s => rw [e] at h; cases h

/-- A file without ambiguities that is read. -/
private def plain : List Element := ⟨sx 4, manifestOf schema1⟩ :: storeElements sampleRoots sampleObjects

private def plainPkg : Packaging :=
  ⟨schema1, Guid.nil, Guid.nil, packageStore, sx 3, schema1, packageOf plain⟩

private theorem plain_unambiguous : Unambiguous plainPkg :=
  unambiguous_of (by decide +kernel) (by decide +kernel) (by decide +kernel)

example : Packaging.parse (storeFile schema1 sampleRoots sampleObjects) = .ok (plainPkg, []) ∧
    Unambiguous plainPkg ∧ (Store.parse Order.id plainPkg).isOk = true :=
  ⟨fileW_parse (by decide) (by decide +kernel), plain_unambiguous, by decide +kernel⟩

/-- A section file without ambiguities. -/
private def plainSection : List Element :=
  ⟨sx 4, manifestOf sectionGuid⟩ ::
  storeElements [.root contentRole (sx 1000), .root metadataRole (sx 1001)]
    (sectionObjects (some ['A']) 0)

example : ∃ data s, PlainFile data ∧ parseSectionBuffer 1 Order.id data [] = .ok s ∧
    s.displayName = ['A'] := by
  obtain ⟨s, h1, h2⟩ := name_of (r := parseSectionBuffer 1 Order.id
    (fileW (sx 3) sectionGuid plainSection) []) (t := ['A']) (by decide +kernel)
  refine ⟨_, s, ?_, h1, h2⟩
  intro p hp
  have hp := holds_iff.1 hp
  have hq := fileW_parse (si := sx 3) (schema := sectionGuid) (es := plainSection) (by decide)
    (by decide +kernel)
  unfold P.run at hp
  rw [hq] at hp
  cases hp
  exact unambiguous_of (by decide +kernel) (by decide +kernel) (by decide +kernel)

/-- A file without ambiguities whose objects can be read and whose page is refused, as its content is
missing. -/
example : ∃ data store, PlainFile data ∧ readStore Order.id data = .ok store ∧
    (parseSectionBuffer 1 Order.id data []).isOk = false := by
  have h : ((readStore Order.id (sectionFile none [3001] [])).toOption.map fun _ => ()) = some () := by
    decide +kernel
  obtain ⟨store, hs, -⟩ := Option.map_eq_some_iff.1 h
  exact ⟨_, store, sectionFile_plain (by decide +kernel) (PlainSamples.package_unambiguous
    (by decide +kernel) (by decide +kernel) (by decide +kernel)), toOption_some hs, by decide +kernel⟩

#print axioms C24_deterministic_partial
#print axioms C24_rejection_partial
#print axioms C24_section_partial
#print axioms C24_outcome_partial
#print axioms C24_notebook_partial
#print axioms C24_section_refuted
#print axioms C24_reference_counts
#print axioms C24_refuted
#print axioms C24_refuted_error

end OneNote
