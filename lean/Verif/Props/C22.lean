/-
C22: The newest revision's roots win. FALSE of the code: the roots of the oldest revision win.
-/
import Verif.Lemmas.Follow

namespace OneNote

open Spec

/-- What the code does, for every object space that was read: along the chain `ms` of revisions
(newest first), the content root and the metadata root are the *last* ones declared in that order,
i.e. those of the oldest revision that declares one. -/
theorem C22_oldest_wins_partial (ord : Order) (mapping : CellMapping) (si : StorageIndex)
    (pkg : Package) (cid : CellId) (s : ObjectSpace) (r : ExGuid)
    (h : ObjectSpace.parse ord mapping si pkg = .ok (cid, s))
    (hr : ObjectSpace.firstRevision ord si pkg mapping = some r) :
    ∃ ms, RevisionChain pkg si r ms ∧
      s.contentRoot = lastWith (rootsOf ms) contentRole ∧
      s.metadataRoot = lastWith (rootsOf ms) metadataRole := by
  unfold ObjectSpace.parse ObjectSpace.parseFuel at h
  rw [hr] at h
  simp only at h
  split at h
  · cases h
  · rename_i objects roots hfr
    cases h
    have h0 : Holds mapping.cellId.fst mapping.cellId.snd pkg [] [] := by
      intro id
      exact ⟨fun pre g post he => by simp at he, fun _ => rfl⟩
    obtain ⟨ms, hc, -, -, ds, hds, rfl⟩ := follow_chain h0 hfr
    refine ⟨ms, hc, ?_, ?_⟩
    · unfold ObjectSpace.contentRoot
      rw [Map.get?_extend, parseRoots_lastWith hds]
      simp [Map.get?, contentRole]
    · unfold ObjectSpace.metadataRoot
      rw [Map.get?_extend, parseRoots_lastWith hds]
      simp [Map.get?, metadataRole]

/-- The property holds when only one declaration of the role exists along the chain, for instance
when only one revision declares roots.
Missing for the full property: roots declared by several revisions (refuted below). -/
theorem C22_single_declaration_partial (ord : Order) (mapping : CellMapping) (si : StorageIndex)
    (pkg : Package) (cid : CellId) (s : ObjectSpace) (r o : ExGuid) (ms : List RevisionManifest)
    (h : ObjectSpace.parse ord mapping si pkg = .ok (cid, s))
    (hr : ObjectSpace.firstRevision ord si pkg mapping = some r)
    (hc : RevisionChain pkg si r ms) :
    ((contentRole, o) ∈ rootsOf ms → (∀ e ∈ rootsOf ms, e.1 = contentRole → e.2 = o) →
      s.contentRoot = some o) ∧
    ((metadataRole, o) ∈ rootsOf ms → (∀ e ∈ rootsOf ms, e.1 = metadataRole → e.2 = o) →
      s.metadataRoot = some o) := by
  obtain ⟨ms', hc', h1, h2⟩ := C22_oldest_wins_partial ord mapping si pkg cid s r h hr
  cases RevisionChain.unique hc hc'
  have key : ∀ role, (role, o) ∈ rootsOf ms → (∀ e ∈ rootsOf ms, e.1 = role → e.2 = o) →
      lastWith (rootsOf ms) role = some o := by
    intro role hm hall
    cases hl : lastWith (rootsOf ms) role with
    | none => exact absurd rfl (lastWith_eq_none.mp hl _ hm)
    | some v =>
      obtain ⟨pre, post, he, -⟩ := lastWith_eq_some.mp hl
      have := hall (role, v) (by rw [he]; simp) rfl
      rw [← this]
  exact ⟨fun a b => h1.trans (key _ a b), fun a b => h2.trans (key _ a b)⟩

private def x (n : Nat) : ExGuid := ⟨Guid.nil, n⟩

/-- Two revisions that both declare the content root: the newer one says object 1, the older one
object 2. -/
private def pkg : Package :=
  { Package.empty with
    cellManifests := [(x 30, x 20)]
    revisionManifests := [(x 20, ⟨x 20, x 21, [⟨contentRole, x 1⟩], []⟩),
      (x 21, ⟨x 21, ExGuid.nil, [⟨contentRole, x 2⟩, ⟨metadataRole, x 3⟩], []⟩)] }

private def mapping : CellMapping := ⟨⟨x 1, x 2⟩, x 30, ⟨Guid.nil, 0⟩⟩

/-- FALSE in general: the newest revision declares object 1 as the content root, the base revision
object 2; the object space is read and its content root is object 2. -/
theorem C22_refuted : ∃ (mapping : CellMapping) (si : StorageIndex) (pkg : Package) (r : ExGuid)
    (newest oldest : RevisionManifest) (s : ObjectSpace),
    ObjectSpace.firstRevision Order.id si pkg mapping = some r ∧
    RevisionChain pkg si r [newest, oldest] ∧
    newest.rootDeclare = [⟨contentRole, x 1⟩] ∧
    (∃ m, oldest.rootDeclare = [⟨contentRole, x 2⟩, m]) ∧ x 1 ≠ x 2 ∧
    ObjectSpace.parse Order.id mapping si pkg = .ok (mapping.cellId, s) ∧
    s.contentRoot = some (x 2) := by
  refine ⟨mapping, StorageIndex.empty, pkg, x 20, ⟨x 20, x 21, [⟨contentRole, x 1⟩], []⟩,
    ⟨x 21, ExGuid.nil, [⟨contentRole, x 2⟩, ⟨metadataRole, x 3⟩], []⟩,
    ⟨x 2, x 1, [(.defaultContent, x 2), (.metadata, x 3)], []⟩, by decide +kernel, ?_, rfl,
    ⟨_, rfl⟩, by decide, ?_, by decide +kernel⟩
  · refine .based _ (x 21) _ _ (by decide +kernel) (by decide) ?_
      (.oldest _ _ (by decide +kernel) (by decide))
    exact ⟨rfl, by decide +kernel⟩
  · exact rfl

/-- The metadata root of the same object space is declared once and read correctly. -/
example : ∃ s, ObjectSpace.parse Order.id mapping StorageIndex.empty pkg = .ok (mapping.cellId, s) ∧
    s.metadataRoot = some (x 3) := by
  have h : ObjectSpace.parse Order.id mapping StorageIndex.empty pkg = .ok (mapping.cellId,
      ⟨x 2, x 1, [(.defaultContent, x 2), (.metadata, x 3)], []⟩) := rfl
  refine ⟨_, h, (C22_single_declaration_partial Order.id mapping _ pkg _ _ (x 20) (x 3)
    [⟨x 20, x 21, [⟨contentRole, x 1⟩], []⟩,
      ⟨x 21, ExGuid.nil, [⟨contentRole, x 2⟩, ⟨metadataRole, x 3⟩], []⟩] h (by decide +kernel)
    ?_).2 (by decide +kernel) (by decide +kernel)⟩
  exact .based _ (x 21) _ _ (by decide +kernel) (by decide) ⟨rfl, by decide +kernel⟩
      (.oldest _ _ (by decide +kernel) (by decide))

#print axioms C22_oldest_wins_partial
#print axioms C22_single_declaration_partial
#print axioms C22_refuted

end OneNote
