/-
C23: Reading a revision history terminates.
-/
import Verif.Lemmas.Follow
import Verif.Lemmas.Write
import Verif.Spec.SampleStore

namespace OneNote

open Spec

/-- The bound in the model is exact: either it is not reached, and then every larger bound gives the
same result, or no bound suffices, that is, the loop of the code never ends. -/
theorem C23_bound_is_exact (ord : Order) (mapping : CellMapping) (si : StorageIndex)
    (pkg : Package) :
    (ObjectSpace.parse ord mapping si pkg ≠ .error .fuel ∧
      ∀ n, pkg.revisionManifests.length + 1 ≤ n →
        ObjectSpace.parseFuel n ord mapping si pkg = ObjectSpace.parse ord mapping si pkg) ∨
    (ObjectSpace.parse ord mapping si pkg = .error .fuel ∧
      ∀ n, ObjectSpace.parseFuel n ord mapping si pkg = .error .fuel) := by
  unfold ObjectSpace.parse ObjectSpace.parseFuel
  simp only
  cases hf : ObjectSpace.firstRevision ord si pkg mapping with
  | none =>
    left
    simp only
    refine ⟨?_, fun _ _ => ?_⟩
    · split <;> simp
    · trivial
  | some r =>
    simp only
    cases hres : ObjectSpace.followRevisions mapping.cellId.fst mapping.cellId.snd si pkg
        (pkg.revisionManifests.length + 1) (some r) [] [] with
    | ok v =>
      left
      refine ⟨by simp, fun n hn => ?_⟩
      obtain ⟨k, rfl⟩ := Nat.exists_eq_add_of_le hn
      rw [follow_more hres (by simp) k]
    | error e =>
      by_cases he : e = .fuel
      · right
        subst he
        refine ⟨rfl, fun n => ?_⟩
        rw [fuel_forever _ [] r [] [] (by simp) (by simp) (by simp) hres n]
      · left
        refine ⟨by simpa using he, fun n hn => ?_⟩
        obtain ⟨k, rfl⟩ := Nat.exists_eq_add_of_le hn
        rw [follow_more hres (by simpa using he) k]

/-- The property holds for every history without a cycle: if following the base revisions from the
first one ends, reading ends (with an object space or an ordinary error). Missing from the full
statement: cyclic histories, for which it is false (`C23_refuted`). -/
theorem C23_finite_history_partial (ord : Order) (mapping : CellMapping) (si : StorageIndex)
    (pkg : Package) (r : ExGuid) (ms : List RevisionManifest)
    (hr : ObjectSpace.firstRevision ord si pkg mapping = some r)
    (hc : RevisionChain pkg si r ms) : ObjectSpace.parse ord mapping si pkg ≠ .error .fuel := by
  intro h
  rcases C23_bound_is_exact ord mapping si pkg with ⟨h', -⟩ | ⟨-, h'⟩
  · exact h' h
  · have := h' ms.length
    unfold ObjectSpace.parseFuel at this
    simp only [hr] at this
    split at this
    · rename_i e he
      cases this
      exact chain_ends hc [] [] he
    · cases this

/-- A history without any revision, or whose first revision is missing, also ends. -/
theorem C23_no_revision_partial (ord : Order) (mapping : CellMapping) (si : StorageIndex)
    (pkg : Package)
    (h : ObjectSpace.firstRevision ord si pkg mapping = none ∨
      ∃ r, ObjectSpace.firstRevision ord si pkg mapping = some r ∧
        pkg.revisionManifests.get? r = none) :
    ObjectSpace.parse ord mapping si pkg ≠ .error .fuel := by
  unfold ObjectSpace.parse ObjectSpace.parseFuel
  simp only
  rcases h with h | ⟨r, h, hn⟩
  · rw [h]
    simp only
    split <;> simp
  · rw [h]
    simp only
    unfold ObjectSpace.followRevisions Revision.parse Package.findRevisionManifest
    rw [hn]
    intro h'
    cases h'

/-- A revision that is based on itself, directly or through any cycle of other revisions: if the
revisions of the cycle declare no roots and no groups, reading never ends. -/
theorem C23_cycle_never_ends (ord : Order) (mapping : CellMapping) (si : StorageIndex)
    (pkg : Package) (r : ExGuid) (V : ExGuid → Prop)
    (hr : ObjectSpace.firstRevision ord si pkg mapping = some r) (hV : V r)
    (hcycle : ∀ v, V v → ∃ m b, pkg.revisionManifests.get? v = some m ∧
      m.baseRevId ≠ ExGuid.nil ∧ Resolves pkg si m.baseRevId b ∧ V b ∧
      m.rootDeclare = [] ∧ m.groupReferences = []) (n : Nat) :
    ObjectSpace.parseFuel n ord mapping si pkg = .error .fuel := by
  unfold ObjectSpace.parseFuel
  simp only [hr]
  rw [loop_forever V (fun v hv => ?_) n r hV []]
  obtain ⟨m, b, hm, hb, hres, hvb, hrd, hgr⟩ := hcycle v hv
  refine ⟨b, hvb, m, [], hm, baseOf_ok.mpr (.inr ⟨hb, b, rfl, hres⟩), ?_, ?_⟩
  · unfold Revision.parseRoots; rw [hrd]; rfl
  · rw [hgr]; simp

private def x (n : Nat) : ExGuid := ⟨Guid.nil, n⟩

/-- Two revisions, each based on the other. -/
private def pkg : Package :=
  { Package.empty with
    cellManifests := [(x 30, x 20)]
    revisionManifests := [(x 20, ⟨x 20, x 21, [], []⟩), (x 21, ⟨x 21, x 20, [], []⟩)] }

private def mapping : CellMapping := ⟨⟨x 1, x 2⟩, x 30, ⟨Guid.nil, 0⟩⟩

/-- The full statement is false: with these two revisions the code's loop runs forever. -/
theorem C23_refuted : ∃ mapping si pkg, ∀ ord n,
    ObjectSpace.parseFuel n ord mapping si pkg = .error .fuel := by
  refine ⟨mapping, StorageIndex.empty, pkg, fun ord n => ?_⟩
  refine C23_cycle_never_ends ord mapping StorageIndex.empty pkg (x 20)
    (fun v => v = x 20 ∨ v = x 21) (by rfl) (.inl rfl) ?_ n
  rintro v (rfl | rfl)
  · exact ⟨_, x 21, rfl, by decide, ⟨rfl, rfl⟩, .inr rfl, rfl, rfl⟩
  · exact ⟨_, x 20, rfl, by decide, ⟨rfl, rfl⟩, .inl rfl, rfl, rfl⟩

/-- The elements of a file whose data root has a single revision that is based on itself. -/
private def loopElements : List Element :=
  ⟨sx 4, manifestOf sampleGuid⟩ ::
  ⟨sx 3, .storageIndex [.cell headerCell (sx 101) ⟨sampleGuid, 1⟩,
    .cell dataCell (sx 102) ⟨sampleGuid, 2⟩]⟩ ::
  (cellOf 1 [] (.objectGroup [.object (sx 900) 1 0 0 0] [.object [] [] headerProps]) ++
  [⟨sx 102, .cellManifest (sx 202)⟩, ⟨sx 202, .revisionManifest (sx 202) (sx 202) []⟩])

/-- A file for which the loop never ends: the container is read, and then the data root cell is read
with any number of steps without an end. -/
theorem C23_refuted_file : ∃ bs p si mapping, Packaging.parse bs = .ok (p, []) ∧
    p.package.storageIndexes.get? p.storageIndex = some si ∧
    si.cellMappings.get? dataCell = some mapping ∧
    (Store.parse Order.id p).map (fun _ => ()) = .error .fuel ∧
    ∀ ord n, ObjectSpace.parseFuel n ord mapping si p.package = .error .fuel := by
  refine ⟨fileW (sx 3) sampleGuid loopElements, _, indexOf [.cell headerCell (sx 101) ⟨sampleGuid, 1⟩,
    .cell dataCell (sx 102) ⟨sampleGuid, 2⟩], ⟨dataCell, sx 102, ⟨sampleGuid, 2⟩⟩,
    fileW_parse (by decide) (by decide +kernel), by decide +kernel, by decide +kernel, by decide +kernel, ?_⟩
  have hloop : ∀ ord n, ObjectSpace.parseFuel n ord ⟨dataCell, sx 102, ⟨sampleGuid, 2⟩⟩
      (indexOf [.cell headerCell (sx 101) ⟨sampleGuid, 1⟩,
        .cell dataCell (sx 102) ⟨sampleGuid, 2⟩]) (packageOf loopElements) = .error .fuel := by
    refine fun ord n => C23_cycle_never_ends ord _ _ _ (sx 202) (fun v => v = sx 202)
      (by rfl) rfl ?_ n
    rintro v rfl
    exact ⟨_, sx 202, by rfl, by decide, ⟨rfl, by rfl⟩, rfl, rfl, rfl⟩
  exact hloop

/-- A history of two revisions that ends. -/
private def pkgOk : Package :=
  { pkg with
    revisionManifests := [(x 20, ⟨x 20, x 21, [], []⟩), (x 21, ⟨x 21, ExGuid.nil, [], []⟩)] }

example : ObjectSpace.firstRevision Order.id StorageIndex.empty pkgOk mapping = some (x 20) ∧
    ∃ ms, RevisionChain pkgOk StorageIndex.empty (x 20) ms ∧ ms.length = 2 :=
  ⟨rfl, _, .based _ _ _ _ rfl (by decide) ⟨rfl, rfl⟩ (.oldest _ _ rfl rfl), rfl⟩

/-- A history whose base revision is missing ends with an error. -/
example : (ObjectSpace.parse Order.id mapping StorageIndex.empty
    { pkg with revisionManifests := [] }).toOption.map (·.1) = none := by decide +kernel

#print axioms C23_bound_is_exact
#print axioms C23_finite_history_partial
#print axioms C23_no_revision_partial
#print axioms C23_cycle_never_ends
#print axioms C23_refuted
#print axioms C23_refuted_file

end OneNote
