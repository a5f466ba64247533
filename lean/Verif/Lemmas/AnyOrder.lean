/-
The outcome of parsing a file without ambiguities does not depend on the hash order.
-/
import Verif.Lemmas.Store
import Verif.Lemmas.SameFiles
import Verif.Lemmas.Whole
import Verif.Lemmas.PlainSamples

namespace OneNote

open Spec Spec.StoreContents Spec.Document

/-- What is read from a file without ambiguities with one order is read with every order. -/
theorem readsAs {data : Bytes} (hu : PlainFile data) (bad : Err → Prop) (ord ord' : Order) :
    ReadsAs bad ord ord' data data := by
  intro s h
  unfold readStore at h ⊢
  obtain ⟨p, hp, hs⟩ := Res.bind_ok h
  have hc := hu p (holds_iff.2 hp)
  have hr : ∃ rest, Packaging.parse data = .ok (p, rest) := by
    unfold P.run at hp
    cases hq : Packaging.parse data with
    | error e => rw [hq] at hp; cases hp
    | ok v =>
      rw [hq] at hp
      exact ⟨v.2, by rw [← Except.ok.inj hp]⟩
  obtain ⟨rest, hr⟩ := hr
  obtain ⟨s', h1, h2, h3, h4, h5⟩ := store_deterministic (keyed_of_parse hr) hc ord ord' hs
  refine .inl ⟨s', ?_, h2, h3, ?_, ?_⟩
  · rw [hp]
    exact h1
  · rw [h4]
    exact ⟨rfl, rfl, fun _ => rfl, fun _ => rfl⟩
  · intro c
    rw [h5 c]
    cases s'.objectSpaces.get? c with
    | none => exact trivial
    | some x => exact ⟨rfl, rfl, fun _ => rfl, fun _ => rfl⟩

theorem any_order {data : Bytes} (hu : PlainFile data) {ord : Order} {store : Store}
    (h : readStore ord data = .ok store) (ord' : Order) (fuel : Nat) (name : Text) :
    parseSectionBuffer fuel ord' data name = parseSectionBuffer fuel ord data name := by
  rcases readsAs hu (fun _ => False) ord ord' store h with ⟨store', h1, h2⟩ | ⟨_, he, -⟩
  · unfold parseSectionBuffer
    rw [h, h1]
    show (if store'.schema ≠ sectionSchema then _ else _) = if store.schema ≠ sectionSchema then _ else _
    rw [h2.schema, section_same h2]
  · exact he.elim

/-- Files in the form of the samples have no ambiguities if the following can be computed. -/
theorem storeFile_plain {schema : Guid} {roots : List RevisionItem} {objects : List SampleObject}
    {more : List (CellId × Nat × List RevisionItem × List SampleObject)}
    (h : ∀ e ∈ (⟨sx 4, manifestOf schema⟩ : Element) :: storeElements roots objects more, ElementFits e)
    (h1 : ((PlainSamples.package schema (⟨sx 4, manifestOf schema⟩ :: storeElements roots objects
      more)).package.storageIndexes.get? (sx 3)).isSome = true)
    (h2 : (PlainSamples.package schema (⟨sx 4, manifestOf schema⟩ :: storeElements roots objects
      more)).package.storageManifests.length ≤ 1)
    (h3 : ∀ e ∈ (PlainSamples.package schema (⟨sx 4, manifestOf schema⟩ :: storeElements roots objects
      more)).package.storageIndexes, ∀ e' ∈ e.2.cellMappings,
        ((PlainSamples.package schema (⟨sx 4, manifestOf schema⟩ :: storeElements roots objects
      more)).package.resolveCellRevisionManifestId e.2 e'.2.id).isSome = true) :
    PlainFile (storeFile schema roots objects more) :=
  PlainSamples.plain h (PlainSamples.package_unambiguous h1 h2 h3)

theorem sectionFile_plain {name : Option Text} {contents : List Nat} {objects : List SampleObject}
    (h : ∀ e ∈ (⟨sx 4, manifestOf sectionGuid⟩ : Element) :: storeElements
      [.root contentRole (sx 1000), .root metadataRole (sx 1001)] (sectionObjects name 1)
      [(pageCell, 5, [.root contentRole (sx 2002), .root metadataRole (sx 2001)],
        pageObjects contents objects)], ElementFits e)
    (h1 : Unambiguous (PlainSamples.package sectionGuid (⟨sx 4, manifestOf sectionGuid⟩ :: storeElements
      [.root contentRole (sx 1000), .root metadataRole (sx 1001)] (sectionObjects name 1)
      [(pageCell, 5, [.root contentRole (sx 2002), .root metadataRole (sx 2001)],
        pageObjects contents objects)]))) :
    PlainFile (sectionFile name contents objects) :=
  PlainSamples.plain h h1

end OneNote
