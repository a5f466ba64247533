/-
The writer produces legal serialisations.
-/
import Verif.Lemmas.Sample
import Verif.Spec.Write

namespace OneNote

open Spec

theorem serialW_enc {s : SerialNumber} (h : SerialFits s) : SerialEnc s (serialW s) := .value _ _ h

theorem exGuidW_enc {e : ExGuid} (h : ExGuidFits e) : ExGuidEnc e (exGuid e) := exGuid_writer h

theorem cellIdW_enc {c : CellId} (h : CellIdFits c) : CellIdEnc c (cellIdW c) :=
  .mk _ _ _ _ (exGuidW_enc h.1) (exGuidW_enc h.2)

theorem listW_enc {α : Type} {R : α → Bytes → Prop} {f : α → Bytes} (as : List α)
    (h : ∀ a ∈ as, R a (f a)) : ListEnc R as (listW f as) := by
  induction as with
  | nil =>
    exact .nil
  | cons a as ih => exact .cons (h a (by simp)) (ih fun x hx => h x (by simp [hx]))

theorem arrayW_enc {α : Type} {R : α → Bytes → Prop} {f : α → Bytes} (as : List α)
    (hl : Fits64 as.length) (h : ∀ a ∈ as, R a (f a)) : ArrayEnc R as (arrayW f as) :=
  .mk _ _ _ (compact_writer hl) (listW_enc as h)

theorem binaryW_enc {d : Bytes} (h : Fits64 d.length) : BinaryEnc d (binaryW d) :=
  .mk _ _ (compact_writer h)

theorem indexItemW_enc {i : IndexItem} (h : IndexItemFits i) : IndexItemEnc i (indexItemW i) := by
  cases i with
  | manifest =>
    exact .manifest _ _ _ _ _ (hdr16_start _) (exGuidW_enc h.1) (serialW_enc h.2)
  | cell =>
    exact .cell _ _ _ _ _ _ _ (hdr16_start _) (cellIdW_enc h.1) (exGuidW_enc h.2.1)
      (serialW_enc h.2.2)
  | revision =>
    exact .revision _ _ _ _ _ _ _ (hdr16_start _) (exGuidW_enc h.1) (exGuidW_enc h.2.1)
      (serialW_enc h.2.2)

theorem rootW_enc {r : ExGuid × CellId} (h : RootFits r) : RootEnc r (rootW r) :=
  .mk _ _ _ _ _ (hdr16_start _) (exGuidW_enc h.1) (cellIdW_enc h.2)

theorem revisionItemW_enc {i : RevisionItem} (h : RevisionItemFits i) :
    RevisionItemEnc i (revisionItemW i) := by
  cases i with
  | root =>
    exact .root _ _ _ _ _ (hdr16_start _) (exGuidW_enc h.1) (exGuidW_enc h.2)
  | group =>
    exact .group _ _ _ (hdr16_start _) (exGuidW_enc h)

theorem declarationW_enc {d : Declaration} (h : DeclarationFits d) :
    DeclarationEnc d (declarationW d) := by
  cases d with
  | object =>
    exact .object _ _ _ _ _ _ _ _ _ _ _ (hdr16_start' _ (by decide)) (exGuidW_enc h.1)
      (compact_writer h.2.1) (compact_writer h.2.2.1) (compact_writer h.2.2.2.1)
      (compact_writer h.2.2.2.2)
  | blob =>
    exact .blob _ _ _ _ _ _ _ _ _ _ _ (hdr16_start' _ (by decide)) (exGuidW_enc h.1)
      (exGuidW_enc h.2.1) (compact_writer h.2.2.1) (compact_writer h.2.2.2.1)
      (compact_writer h.2.2.2.2)

theorem groupDataW_enc {d : GroupData} (h : GroupDataFits d) : GroupDataEnc d (groupDataW d) := by
  cases d with
  | object =>
    exact .object _ _ _ _ _ _ _ (hdr16_start' _ (by decide))
      (arrayW_enc _ h.1.1 fun a ha => exGuidW_enc (h.1.2.1 a ha))
      (arrayW_enc _ h.1.2.2.1 fun a ha => cellIdW_enc (h.1.2.2.2 a ha)) (binaryW_enc h.2)
  | excluded =>
    exact .excluded _ _ _ _ _ _ _ (hdr16_start' _ (by decide))
      (arrayW_enc _ h.1.1 fun a ha => exGuidW_enc (h.1.2.1 a ha))
      (arrayW_enc _ h.1.2.2.1 fun a ha => cellIdW_enc (h.1.2.2.2 a ha)) (compact_writer h.2)
  | blobReference =>
    exact .blobReference _ _ _ _ _ _ _ (hdr16_start' _ (by decide))
      (arrayW_enc _ h.1.1 fun a ha => exGuidW_enc (h.1.2.1 a ha))
      (arrayW_enc _ h.1.2.2.1 fun a ha => cellIdW_enc (h.1.2.2.2 a ha)) (exGuidW_enc h.2)

theorem bodyW_enc {b : Body} (h : BodyFits b) : BodyEnc b (bodyW b) := by
  cases b with
  | storageIndex items => exact .storageIndex _ _ (listW_enc _ fun i hi => indexItemW_enc (h i hi))
  | storageManifest id roots =>
    exact .storageManifest _ _ _ _ (hdr16_start _) (listW_enc _ fun i hi => rootW_enc (h i hi))
  | cellManifest id => exact .cellManifest _ _ _ (hdr16_start _) (exGuidW_enc h)
  | revisionManifest r b items =>
    exact .revisionManifest _ _ _ _ _ _ _ (hdr16_start _) (exGuidW_enc h.1) (exGuidW_enc h.2.1)
      (listW_enc _ fun i hi => revisionItemW_enc (h.2.2 i hi))
  | objectGroup ds os =>
    exact .objectGroup _ _ _ _ _ _ (hdr16_start' _ (by decide))
      (listW_enc _ fun i hi => declarationW_enc (h.1 i hi)) (hdr16_start' _ (by decide))
      (listW_enc _ fun i hi => groupDataW_enc (h.2 i hi))
  | blob d => exact .blob _ _ _ (hdr16_start' _ (by decide)) (binaryW_enc h)

theorem bodyType_fits (b : Body) : bodyType b < 2 ^ 64 := by
  cases b <;> simp [bodyType]

theorem elementW_enc {e : Element} (h : ElementFits e) : ElementEnc e (elementW e) :=
  .mk _ _ ⟨Guid.nil, 0⟩ _ _ _ _ _ (hdr16_start _) (exGuidW_enc h.1) .null
    (compact_writer (bodyType_fits _)) (bodyW_enc h.2)

theorem packageW_enc {es : List Element} (h : ∀ e ∈ es, ElementFits e) :
    PackageEnc es (packageW es) :=
  .mk _ _ _ (hdr16_start _) (listW_enc _ fun e he => elementW_enc (h e he))

theorem tailW_enc {si : ExGuid} {schema : Guid} {es : List Element} (hs : ExGuidFits si)
    (h : ∀ e ∈ es, ElementFits e) : PackagingTailEnc si schema es (tailW si schema es) :=
  .mk _ _ _ (hdr32_start _) (exGuidW_enc hs) (packageW_enc h)

/-- The written file is read back. -/
theorem fileW_parse {si : ExGuid} {schema : Guid} {es : List Element} (hs : ExGuidFits si)
    (h : ∀ e ∈ es, ElementFits e) :
    Packaging.parse (fileW si schema es) =
      .ok (⟨schema, Guid.nil, Guid.nil, packageStore, si, schema, packageOf es⟩, []) := by
  have := parse_packageStore schema Guid.nil Guid.nil si schema es _ (tailW_enc hs h) []
  rw [List.append_nil] at this
  exact this

end OneNote
