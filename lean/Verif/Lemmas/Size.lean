/-
Size bounds for the container parsers.
-/
import Verif.Lemmas.Good
import Verif.Lemmas.Map
import Verif.Spec.Size

namespace OneNote

open Spec

variable {α β σ : Type}

/-- Starting with `k` units, `p` yields a value of size at most `k` plus the bytes consumed. -/
def Step (k : Nat) (p : P α) (m : α → Nat) : Prop :=
  ∀ s v r, p s = .ok (v, r) → m v + r.length ≤ k + s.length

theorem Step.bind {k : Nat} {p : P α} {f : α → P β} {m : α → Nat} {m' : β → Nat}
    (hp : Step 0 p m) (hf : ∀ a, Step (k + m a) (f a) m') : Step k (p >>= f) m' := by
  intro s v r h
  rw [P.bind_eq_ok] at h
  obtain ⟨a, r', h1, h2⟩ := h
  have := hp _ _ _ h1
  have := hf a _ _ _ h2
  omega

theorem Step.pure {k : Nat} {a : α} {m : α → Nat} (h : m a ≤ k) : Step k (pure a : P α) m := by
  intro s v r h'
  cases h'; omega

theorem Step.fail {k : Nat} {e : Err} {m : α → Nat} : Step k (P.fail e : P α) m := by
  intro s v r h'
  cases h'

theorem Step.ofEats {p : P α} (h : Eats p) : Step 0 p (fun _ => 1) := by
  intro s v r h'
  have := h _ _ _ h'
  show 1 + _ ≤ _
  omega

theorem Step.ofGood {p : P α} (h : Good p) : Step 0 p (fun _ => 0) := by
  intro s v r h'
  have := h.nonInc _ _ _ h'
  show 0 + _ ≤ _
  omega

theorem Step.replicateP {p : P α} (hp : Eats p) (n : Nat) :
    Step 0 (replicateP p n) List.length := by
  induction n with
  | zero => exact Step.pure (by simp)
  | succ n ih =>
    refine Step.bind (Step.ofEats hp) fun a => Step.bind ih fun as => Step.pure ?_
    simp; omega

theorem Step.readN (n : Nat) : Step 0 (readN n) List.length := by
  intro s v r h
  rw [readN_eq_ok] at h
  obtain ⟨-, rfl⟩ := h
  simp

theorem Step.exguidArray : Step 0 ExGuid.parseArray List.length :=
  Step.bind (Step.ofEats Eats.compact) fun _ => fun s v r h => by
    have := Step.replicateP Eats.exguid _ _ _ _ h
    omega

theorem Step.cellIdArray : Step 0 CellId.parseArray List.length :=
  Step.bind (Step.ofEats Eats.compact) fun _ => fun s v r h => by
    have := Step.replicateP Eats.cellId _ _ _ _ h
    omega

theorem Step.binary : Step 0 BinaryItem.parse List.length :=
  Step.bind (Step.ofEats Eats.compact) fun _ => fun s v r h => by
    have := Step.readN _ _ _ _ h
    omega

theorem loopEnd_size (ty : ObjectType) {body : σ → P σ} {m : σ → Nat}
    (hb : ∀ a, Step (m a) (body a) m) (n : Nat) (acc : σ) :
    Step (m acc) (loopEnd ty body n acc) m := by
  induction n generalizing acc with
  | zero => exact Step.fail
  | succ n ih =>
    unfold loopEnd
    intro s v r h
    rw [P.bind_eq_ok] at h
    obtain ⟨b, r', h1, h2⟩ := h
    obtain ⟨rfl, -⟩ := peekU8_eq_ok h1
    split at h2
    · exact Step.bind (Step.ofGood (Good.tryParseEnd8 ty)) (fun _ => Step.pure (by omega)) _ _ _ h2
    · rw [P.bind_eq_ok] at h2
      obtain ⟨a, r', h1, h2⟩ := h2
      have := hb _ _ _ _ h1
      have := ih a _ _ _ h2
      omega

theorem Step.untilEnd8 (ty : ObjectType) {body : σ → P σ} {m : σ → Nat}
    (hb : ∀ a, Step (m a) (body a) m) {acc : σ} {k : Nat} (h0 : m acc ≤ k) :
    Step k (untilEnd8 ty body acc) m := by
  intro s v r h
  rw [untilEnd8_eq] at h
  have := loopEnd_size ty hb _ acc _ _ _ h
  omega

theorem length_insert {K V : Type} [DecidableEq K] (m : Map K V) (k : K) (v : V) :
    (m.insert k v).length ≤ m.length + 1 := by
  unfold Map.insert
  have := List.length_filter_le (fun e : K × V => decide (e.1 ≠ k)) m
  simp only [List.length_append, List.length_cons, List.length_nil]
  omega

theorem sizeMap_filter {V : Type} (size : V → Nat) (m : Map ExGuid V) (q : ExGuid × V → Bool) :
    sizeMap size (m.filter q) ≤ sizeMap size m := by
  unfold sizeMap
  induction m with
  | nil => simp
  | cons e m ih =>
    rw [List.filter_cons]
    split <;> simp <;> omega

theorem sizeMap_insert {V : Type} (size : V → Nat) (m : Map ExGuid V) (k : ExGuid) (v : V) :
    sizeMap size (m.insert k v) ≤ sizeMap size m + (1 + size v) := by
  unfold Map.insert
  have := sizeMap_filter size m (fun e => decide (e.1 ≠ k))
  have h : sizeMap size (m.filter (fun e => decide (e.1 ≠ k)) ++ [(k, v)]) =
      sizeMap size (m.filter (fun e => decide (e.1 ≠ k))) + (1 + size v) := by
    simp [sizeMap]
  omega

theorem Step.indexItem (si : StorageIndex) :
    Step (sizeStorageIndex si) (StorageIndex.parseItem si) sizeStorageIndex := by
  unfold StorageIndex.parseItem
  refine Step.bind (Step.ofEats Eats.parse16) fun h => ?_
  split
  · refine Step.bind (Step.ofGood Good.exguid) fun _ => Step.bind (Step.ofGood Good.serial) fun _ =>
      Step.pure ?_
    simp [sizeStorageIndex]; omega
  · refine Step.bind (Step.ofGood Good.cellId) fun a => Step.bind (Step.ofGood Good.exguid) fun b =>
      Step.bind (Step.ofGood Good.serial) fun c => Step.pure ?_
    have := length_insert si.cellMappings a ⟨a, b, c⟩
    simp only [sizeStorageIndex]; omega
  · refine Step.bind (Step.ofGood Good.exguid) fun a => Step.bind (Step.ofGood Good.exguid) fun b =>
      Step.bind (Step.ofGood Good.serial) fun c => Step.pure ?_
    have := length_insert si.revisionMappings a ⟨b, c⟩
    simp only [sizeStorageIndex]; omega
  · exact Step.fail

theorem Step.storageIndex : Step 0 StorageIndex.parse sizeStorageIndex :=
  Step.untilEnd8 _ Step.indexItem (by simp [sizeStorageIndex, StorageIndex.empty])

theorem Step.storageManifest : Step 0 StorageManifest.parse sizeStorageManifest := by
  unfold StorageManifest.parse
  refine Step.bind (Step.ofEats (Eats.bind_left Eats.parse16 fun _ =>
    (Good.ite (Good.pure _) (Good.fail _ (by decide) (by decide))).nonInc)) fun _ =>
    Step.bind (Step.ofGood Good.guid) fun _ =>
    Step.bind (m := List.length) (Step.untilEnd8 _ (fun m => ?_) (by simp)) fun _ => Step.pure ?_
  · unfold StorageManifest.parseItem
    refine Step.bind (Step.ofEats (Eats.bind_left Eats.parse16 fun _ =>
      (Good.ite (Good.pure _) (Good.fail _ (by decide) (by decide))).nonInc)) fun _ =>
      Step.bind (Step.ofGood Good.exguid) fun a => Step.bind (Step.ofGood Good.cellId) fun b =>
      Step.pure ?_
    have := length_insert m a b
    omega
  · simp [sizeStorageManifest]

theorem Step.cellManifest : Step 0 CellManifest.parse (fun _ => 1) := by
  unfold CellManifest.parse
  refine Step.bind (Step.ofEats (Eats.bind_left Eats.parse16 fun _ =>
    (Good.ite (Good.pure _) (Good.fail _ (by decide) (by decide))).nonInc)) fun _ =>
    Step.bind (Step.ofGood Good.exguid) fun _ => Step.bind (Step.ofGood (Good.tryParseEnd8 _))
    fun _ => Step.pure (by omega)

theorem Step.revisionManifest : Step 0 RevisionManifest.parse sizeRevisionManifest := by
  unfold RevisionManifest.parse
  refine Step.bind (Step.ofEats (Eats.bind_left Eats.parse16 fun _ =>
    (Good.ite (Good.pure _) (Good.fail _ (by decide) (by decide))).nonInc)) fun _ =>
    Step.bind (Step.ofEats Eats.exguid) fun _ => Step.bind (Step.ofEats Eats.exguid) fun _ =>
    Step.untilEnd8 _ (fun m => ?_) (by simp [sizeRevisionManifest])
  unfold RevisionManifest.parseItem
  refine Step.bind (Step.ofEats Eats.parse16) fun h => ?_
  split
  · refine Step.bind (Step.ofGood Good.exguid) fun _ => Step.bind (Step.ofGood Good.exguid) fun _ =>
      Step.pure ?_
    simp [sizeRevisionManifest]; omega
  · refine Step.bind (Step.ofGood Good.exguid) fun _ => Step.pure ?_
    simp [sizeRevisionManifest]; omega
  · exact Step.fail

theorem Step.fragment : Step 0 Fragment.parse sizeFragment := by
  unfold Fragment.parse
  refine Step.bind (Step.ofEats (Eats.bind_left Eats.header fun _ =>
    (Good.ite (Good.pure _) (Good.fail _ (by decide) (by decide))).nonInc)) fun _ =>
    Step.bind (Step.ofGood Good.exguid) fun _ => Step.bind (Step.ofGood Good.compact) fun _ =>
    Step.bind (Step.ofGood Good.compact) fun _ => Step.bind (Step.ofGood Good.compact) fun _ =>
    Step.bind (Step.readN _) fun _ => Step.pure ?_
  simp [sizeFragment]

theorem Step.blob : Step 0 ObjectDataBlob.parse List.length := by
  unfold ObjectDataBlob.parse
  refine Step.bind (Step.ofEats (Eats.bind_left Eats.header fun _ =>
    (Good.ite (Good.pure _) (Good.fail _ (by decide) (by decide))).nonInc)) fun _ =>
    Step.bind Step.binary fun _ => Step.bind (Step.ofGood (Good.tryParseEnd8 _)) fun _ =>
    Step.pure ?_
  omega

theorem Step.declaration (ds : List Declaration) :
    Step ds.length (ObjectGroup.parseDeclaration ds) List.length := by
  unfold ObjectGroup.parseDeclaration
  refine Step.bind (Step.ofEats Eats.header) fun h => ?_
  split
  · refine Step.bind (Step.ofGood Good.exguid) fun _ => Step.bind (Step.ofGood Good.compact) fun _ =>
      Step.bind (Step.ofGood Good.compact) fun _ => Step.bind (Step.ofGood Good.compact) fun _ =>
      Step.bind (Step.ofGood Good.compact) fun _ => Step.pure (by simp)
  · refine Step.bind (Step.ofGood Good.exguid) fun _ => Step.bind (Step.ofGood Good.exguid) fun _ =>
      Step.bind (Step.ofGood Good.compact) fun _ => Step.bind (Step.ofGood Good.compact) fun _ =>
      Step.bind (Step.ofGood Good.compact) fun _ => Step.pure (by simp)
  · exact Step.fail

theorem Step.metadataItem (ds : List ChangeFrequency) :
    Step ds.length (ObjectGroup.parseMetadataItem ds) List.length := by
  unfold ObjectGroup.parseMetadataItem
  refine Step.bind (Step.ofEats (Eats.bind_left Eats.parse32 fun _ =>
    (Good.ite (Good.pure _) (Good.fail _ (by decide) (by decide))).nonInc)) fun _ =>
    Step.bind (Step.ofGood Good.compact) fun _ =>
    Step.bind (Step.ofGood (Good.ofOption _ (by decide) (by decide) _)) fun _ =>
    Step.pure (by simp)

theorem Step.dataItem (ds : List GroupData) :
    Step (ds.map sizeGroupData).sum (ObjectGroup.parseDataItem ds)
      (fun ds => (ds.map sizeGroupData).sum) := by
  unfold ObjectGroup.parseDataItem
  refine Step.bind (Step.ofEats Eats.header) fun h => ?_
  split
  · refine Step.bind Step.exguidArray fun _ => Step.bind Step.cellIdArray fun _ =>
      Step.bind (Step.ofGood Good.compact) fun _ => Step.pure ?_
    simp [sizeGroupData]; omega
  · refine Step.bind Step.exguidArray fun _ => Step.bind Step.cellIdArray fun _ =>
      Step.bind Step.binary fun _ => Step.pure ?_
    simp [sizeGroupData]; omega
  · refine Step.bind Step.exguidArray fun _ => Step.bind Step.cellIdArray fun _ =>
      Step.bind (Step.ofEats Eats.exguid) fun _ => Step.pure ?_
    simp [sizeGroupData]; omega
  · exact Step.fail

theorem Step.metadataOpt : Step 0 ObjectGroup.parseMetadataOpt List.length := by
  unfold ObjectGroup.parseMetadataOpt
  refine Step.bind (Step.ofEats Eats.header) fun h => ?_
  split
  · refine Step.bind (m := List.length) (Step.untilEnd8 _ Step.metadataItem (by simp)) fun _ =>
      Step.bind (Step.ofGood (Good.bind Good.header fun _ =>
        (Good.ite (Good.pure _) (Good.fail _ (by decide) (by decide))))) fun _ =>
      Step.pure (by omega)
  · exact Step.pure (by simp)
  · exact Step.fail

theorem Step.objectGroup : Step 0 ObjectGroup.parse sizeObjectGroup := by
  unfold ObjectGroup.parse ObjectGroup.parseDeclarations ObjectGroup.parseData
  refine Step.bind (m := List.length) (Step.bind (Step.ofGood (Good.bind Good.header fun _ =>
        (Good.ite (Good.pure _) (Good.fail _ (by decide) (by decide))))) fun _ =>
      Step.untilEnd8 _ Step.declaration (by simp)) fun _ =>
    Step.bind Step.metadataOpt fun _ =>
    Step.bind (m := fun ds => (ds.map sizeGroupData).sum)
      (Step.untilEnd8 _ Step.dataItem (by simp)) fun _ =>
    Step.bind (Step.ofGood (Good.tryParseEnd8 _)) fun _ => Step.pure ?_
  simp [sizeObjectGroup]

theorem Step.element (pkg : Package) :
    Step (sizePackage pkg) (Package.parseElement pkg) sizePackage := by
  unfold Package.parseElement
  refine Step.bind (Step.ofEats (Eats.bind_left Eats.parse16 fun _ =>
    (Good.ite (Good.pure _) (Good.fail _ (by decide) (by decide))).nonInc)) fun _ =>
    Step.bind (Step.ofEats Eats.exguid) fun id =>
    Step.bind (Step.ofGood Good.serial) fun _ => Step.bind (Step.ofGood Good.compact) fun _ => ?_
  split
  · refine Step.bind Step.storageIndex fun x => Step.pure ?_
    have := sizeMap_insert sizeStorageIndex pkg.storageIndexes id x
    simp only [sizePackage]; omega
  · refine Step.bind Step.storageManifest fun x => Step.pure ?_
    have := sizeMap_insert sizeStorageManifest pkg.storageManifests id x
    simp only [sizePackage]; omega
  · refine Step.bind Step.cellManifest fun x => Step.pure ?_
    have := sizeMap_insert (fun _ => 1) pkg.cellManifests id x
    simp only [sizePackage]; omega
  · refine Step.bind Step.revisionManifest fun x => Step.pure ?_
    have := sizeMap_insert sizeRevisionManifest pkg.revisionManifests id x
    simp only [sizePackage]; omega
  · refine Step.bind Step.objectGroup fun x => Step.pure ?_
    have := sizeMap_insert sizeObjectGroup pkg.objectGroups id x
    simp only [sizePackage]; omega
  · refine Step.bind Step.fragment fun x => Step.pure ?_
    have := sizeMap_insert sizeFragment pkg.fragments id x
    simp only [sizePackage]; omega
  · refine Step.bind Step.blob fun x => Step.pure ?_
    have := sizeMap_insert List.length pkg.blobs id x
    simp only [sizePackage]; omega
  · exact Step.fail

theorem Step.package : Step 0 Package.parse sizePackage := by
  unfold Package.parse
  refine Step.bind (Step.ofGood (Good.bind Good.parse16 fun _ =>
        (Good.ite (Good.pure _) (Good.fail _ (by decide) (by decide))))) fun _ =>
    Step.bind (Step.ofGood (Good.getLE 1)) fun _ => ?_
  split
  · exact Step.fail
  · exact Step.untilEnd8 _ Step.element (by simp [sizePackage, Package.empty, sizeMap])

theorem Step.legacy (a b c d : Guid) :
    Step 0 (Packaging.parseLegacy a b c d) (fun v => sizePackage v.package) := by
  unfold Packaging.parseLegacy
  refine Step.bind (Step.ofGood (Good.getLE 4)) fun _ => ?_
  split
  · exact Step.fail
  · refine Step.bind (Step.ofGood (Good.bind Good.parse32 fun _ =>
        (Good.ite (Good.pure _) (Good.fail _ (by decide) (by decide))))) fun _ =>
      Step.bind (Step.ofGood Good.exguid) fun _ => Step.bind (Step.ofGood Good.guid) fun _ =>
      Step.bind Step.package fun _ => Step.bind (Step.ofGood (Good.bind (Good.bind (Good.getLE 2)
        fun _ => Good.ite (Good.fail _ (by decide) (by decide))
          (Good.ofOption _ (by decide) (by decide) _))
        fun _ => (Good.ite (Good.pure _) (Good.fail _ (by decide) (by decide))))) fun _ =>
      Step.pure (by simp)

theorem Step.packaging : Step 0 Packaging.parse (fun v => sizePackage v.package) := by
  intro s v r h
  rw [parse_eq_const] at h
  revert s v r h
  show Step 0 parseConst _
  unfold parseConst
  refine Step.bind (Step.ofGood Good.guid) fun _ => Step.bind (Step.ofGood Good.guid) fun _ =>
    Step.bind (Step.ofGood Good.guid) fun _ => Step.bind (Step.ofGood Good.guid) fun _ => ?_
  split
  · exact Step.legacy _ _ _ _
  split
  · exact Step.fail
  split
  · exact Step.legacy _ _ _ _
  · refine Step.bind (Step.ofGood Good.storeHeader) fun _ =>
      Step.bind (Step.ofGood (Good.seekFrom _ _)) fun _ => ?_
    unfold Packaging.parseEmbedded
    exact Step.bind (Step.ofGood Good.guid) fun _ => Step.bind (Step.ofGood Good.guid) fun _ =>
      Step.bind (Step.ofGood Good.guid) fun _ => Step.bind (Step.ofGood Good.guid) fun _ =>
      Step.legacy _ _ _ _

end OneNote
