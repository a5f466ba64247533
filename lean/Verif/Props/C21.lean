/-
C21: The newest revision of every object wins.
-/
import Verif.Lemmas.Revisions

namespace OneNote

open Spec

/-- The revision an object space starts with: the one the cell manifest names, if that resolves. -/
theorem C21_starts_at_newest (ord : Order) (mapping : CellMapping) (si : StorageIndex)
    (pkg : Package) (c r : ExGuid) (hc : pkg.cellManifests.get? mapping.id = some c)
    (hr : Resolves pkg si c r) : ObjectSpace.firstRevision ord si pkg mapping = some r := by
  unfold ObjectSpace.firstRevision Package.resolveCellRevisionManifestId Package.findCellRevisionId
  rw [hc, Option.bind_some, (resolve_iff _ _ _ _).mpr hr]
  rfl

/-- An object space that was read belongs to the asked cell, and (unless it has no revision at all
and is empty) there is a finite chain of revisions `ms`, newest first, such that for every object
identifier:
* if some object group of the chain declares it, the object is the one stored in the first such
  group (the newest revision, within it the first group): its properties are those read from the
  data stored there;
* if none declares it, the object space has no such object. -/
theorem C21_newest_object_wins (ord : Order) (mapping : CellMapping) (si : StorageIndex)
    (pkg : Package) (cid : CellId) (s : ObjectSpace)
    (h : ObjectSpace.parse ord mapping si pkg = .ok (cid, s)) :
    cid = mapping.cellId ∧ s.id = cid.snd ∧ s.context = cid.fst ∧
    ((ObjectSpace.firstRevision ord si pkg mapping = none ∧ s.objects = [] ∧ s.roots = []) ∨
     ∃ r ms, ObjectSpace.firstRevision ord si pkg mapping = some r ∧ RevisionChain pkg si r ms ∧
      ∀ id,
        (∀ pre g post, groupsOf pkg ms = pre ++ g :: post → (∀ g' ∈ pre, ¬ Declares g' id) →
          Declares g id → ∃ o refs cells data, s.getObject id = some o ∧
            storedData g id 1 = some (.object refs cells data) ∧
            ObjectPropSet.parse.run data = .ok o.props ∧
            Object.parse id cid.fst cid.snd (Revision.groupMap g) pkg = .ok o) ∧
        ((∀ g ∈ groupsOf pkg ms, ¬ Declares g id) → s.getObject id = none)) := by
  unfold ObjectSpace.parse ObjectSpace.parseFuel at h
  simp only at h
  cases hf : ObjectSpace.firstRevision ord si pkg mapping with
  | none =>
    rw [hf] at h
    simp only at h
    split at h
    · cases h
      exact ⟨rfl, rfl, rfl, .inl ⟨rfl, rfl, rfl⟩⟩
    · cases h
  | some r =>
    rw [hf] at h
    simp only at h
    split at h
    · cases h
    · rename_i objects roots hfr
      cases h
      refine ⟨rfl, rfl, rfl, .inr ⟨r, ?_⟩⟩
      have h0 : Holds mapping.cellId.fst mapping.cellId.snd pkg [] [] := by
        intro id
        exact ⟨fun pre g post he => by simp at he, fun _ => rfl⟩
      obtain ⟨ms, hc, -, hh, -⟩ := follow_chain h0 hfr
      rw [List.nil_append] at hh
      refine ⟨ms, rfl, hc, fun id => ⟨?_, fun hn => (hh id).2 hn⟩⟩
      intro pre g post he hpre hg
      obtain ⟨o, ho, hp⟩ := (hh id).1 pre g post he hpre hg
      obtain ⟨refs, cells, data, hgd, hpd, -⟩ := object_parse_ok hp
      rw [groupMap_get] at hgd
      exact ⟨o, refs, cells, data, ho, hgd, hpd, hp⟩

/-- The object space contains exactly the identifiers declared somewhere along the chain. -/
theorem C21_exactly_the_declared (ord : Order) (mapping : CellMapping) (si : StorageIndex)
    (pkg : Package) (cid : CellId) (s : ObjectSpace) (r : ExGuid)
    (h : ObjectSpace.parse ord mapping si pkg = .ok (cid, s))
    (hr : ObjectSpace.firstRevision ord si pkg mapping = some r) :
    ∃ ms, RevisionChain pkg si r ms ∧
      ∀ id, (s.getObject id).isSome ↔ ∃ g ∈ groupsOf pkg ms, Declares g id := by
  obtain ⟨-, -, -, h⟩ := C21_newest_object_wins ord mapping si pkg cid s h
  rcases h with ⟨h, -⟩ | ⟨r', ms, h', hc, hid⟩
  · rw [hr] at h; cases h
  · rw [hr] at h'
    cases h'
    refine ⟨ms, hc, fun id => ?_⟩
    obtain ⟨h1, h2⟩ := hid id
    rcases first_declaring (groupsOf pkg ms) id with hn | ⟨pre, g, post, he, hpre, hg⟩
    · rw [h2 hn]
      simp only [Option.isSome_none, Bool.false_eq_true, false_iff, not_exists, not_and]
      exact hn
    · obtain ⟨o, -, -, -, ho, -⟩ := h1 pre g post he hpre hg
      rw [ho]
      simp only [Option.isSome_some, true_iff]
      exact ⟨g, by rw [he]; simp, hg⟩

private def x (n : Nat) : ExGuid := ⟨Guid.nil, n⟩
private def obj (flag : UInt8) : GroupData := .object [] [] [0, 0, 0, 0x80, 1, 0, 5, 0, 0, flag]
private def jc : GroupData := .object [] [] [0x0B, 0, 6, 0]
private def decl (i p : Nat) : Declaration := .object (x i) p 0 0 0

/-- Two revisions: object 1 is declared by both, object 2 only by the older one. -/
private def pkg : Package :=
  { Package.empty with
    cellManifests := [(x 30, x 20)]
    revisionManifests := [(x 20, ⟨x 20, x 21, [], [x 10]⟩), (x 21, ⟨x 21, ExGuid.nil, [], [x 11]⟩)]
    objectGroups := [
      (x 10, ⟨[decl 1 4, decl 1 1], [], [jc, obj 0x88]⟩),
      (x 11, ⟨[decl 1 4, decl 1 1, decl 2 4, decl 2 1], [], [jc, obj 0x08, jc, obj 0x08]⟩)] }

private def mapping : CellMapping := ⟨⟨x 1, x 2⟩, x 30, ⟨Guid.nil, 0⟩⟩

/-- The boolean property 5 of an object of the space. -/
private def flag (s : ObjectSpace) (id : ExGuid) : Option (Option Bool) :=
  (s.getObject id).map fun o => match o.props.properties.get 5 with
    | some (.bool b) => some b
    | _ => none

/-- The newer object 1 (flag set) is kept, object 2 comes from the older revision, object 3 does not
exist. -/
example : ((ObjectSpace.parse Order.id mapping StorageIndex.empty pkg).toOption.map fun r =>
    (r.1, flag r.2 (x 1), flag r.2 (x 2), flag r.2 (x 3))) =
    some (⟨x 1, x 2⟩, some (some true), some (some false), none) := by decide +kernel

#print axioms C21_starts_at_newest
#print axioms C21_newest_object_wins
#print axioms C21_exactly_the_declared

end OneNote
