/-
Which kinds of errors the parsers report: the container and the store.

`Only S r` and `OnlyP S p` are classes so that the parsers are checked by instance search.
-/
import Verif.Model.Store
import Verif.Spec.Kinds

namespace OneNote

open Spec

variable {α β σ : Type} {S : Err → Bool}

/-- The kind belongs to the set. -/
class Allows (S : Err → Bool) (e : Err) : Prop where
  yes : S e = true

/-- Only errors of these kinds. -/
class Only (S : Err → Bool) (r : Res α) : Prop where
  only : ∀ e, r = .error e → S e = true

/-- Only errors of these kinds, whatever the data. -/
class OnlyP (S : Err → Bool) (p : P α) : Prop where
  only : ∀ s, Only S (p s)

instance : Allows damaged .eof := ⟨rfl⟩
instance : Allows damaged .malformedData := ⟨rfl⟩
instance : Allows damaged .malformedFssHttpB := ⟨rfl⟩
instance : Allows damaged .malformedOneStore := ⟨rfl⟩
instance : Allows damaged .fuel := ⟨rfl⟩
instance : Allows malformed .eof := ⟨rfl⟩
instance : Allows malformed .malformedOneNote := ⟨rfl⟩
instance : Allows malformed .malformedOneNoteFile := ⟨rfl⟩
instance : Allows malformed .utf16Error := ⟨rfl⟩
instance : Allows malformed .fuel := ⟨rfl⟩
instance : Allows malformed .panic := ⟨rfl⟩

/-! ### Results -/

instance Only.ok (a : α) : Only S (.ok a : Res α) := ⟨fun e h => by cases h⟩

instance Only.pure (a : α) : Only S (Pure.pure a : Res α) := ⟨fun e h => by cases h⟩

instance Only.error (e : Err) [h : Allows S e] : Only S (.error e : Res α) :=
  ⟨fun e' h' => by cases h'; exact h.yes⟩

instance Only.bind (r : Res α) (f : α → Res β) [hr : Only S r] [hf : ∀ a, Only S (f a)] :
    Only S (r >>= f) := by
  cases r with
  | error e => exact ⟨fun e' h => hr.only e' (congrArg Except.error (Except.error.inj h))⟩
  | ok a => exact hf a

instance Only.map (r : Res α) (f : α → β) [hr : Only S r] : Only S (f <$> r) := by
  cases r with
  | error e => exact ⟨fun e' h => hr.only e' (congrArg Except.error (Except.error.inj h))⟩
  | ok a => exact Only.ok _

instance Only.map' (r : Res α) (f : α → β) [hr : Only S r] : Only S (Except.map f r) := by
  cases r with
  | error e => exact ⟨fun e' h => hr.only e' (congrArg Except.error (Except.error.inj h))⟩
  | ok a => exact Only.ok _

instance Only.ite (c : Prop) [Decidable c] (a b : Res α) [Only S a] [Only S b] :
    Only S (if c then a else b) := by
  split <;> infer_instance

instance Only.orErr (e : Err) [Allows S e] (x : Option α) : Only S (orErr e x) := by
  cases x with
  | none => exact Only.error e
  | some a => exact Only.ok a

instance Only.mapM (f : α → Res β) (l : List α) [h : ∀ a, Only S (f a)] : Only S (l.mapM f) := by
  induction l with
  | nil => exact Only.ok []
  | cons a l ih => rw [List.mapM_cons]; infer_instance

instance Only.foldlM (f : β → α → Res β) (l : List α) (b : β) [h : ∀ b a, Only S (f b a)] :
    Only S (l.foldlM f b) := by
  induction l generalizing b with
  | nil => exact Only.ok _
  | cons a l ih => rw [List.foldlM_cons]; infer_instance

instance Only.run (p : P α) (data : Bytes) [h : OnlyP S p] : Only S (p.run data) := by
  have := h.only data
  unfold P.run
  split
  · exact Only.ok _
  · rename_i e he
    exact ⟨fun e' h' => by cases h'; exact this.only e he⟩

/-- An error that is passed on. -/
theorem Only.pass {r : Res α} [h : Only S r] {e : Err} (hr : r = .error e) :
    Only S (.error e : Res β) := ⟨fun e' h' => by cases h'; exact h.only e hr⟩

/-! ### Parsers -/

instance OnlyP.pure (a : α) : OnlyP S (Pure.pure a : P α) := ⟨fun _ => Only.ok _⟩

instance OnlyP.fail (e : Err) [Allows S e] : OnlyP S (P.fail e : P α) := ⟨fun _ => Only.error e⟩

instance OnlyP.ofOption (e : Err) [Allows S e] (o : Option α) : OnlyP S (P.ofOption e o) := by
  cases o with
  | none => exact OnlyP.fail e
  | some a => exact OnlyP.pure a

instance OnlyP.ofRes (r : Res α) [h : Only S r] : OnlyP S (P.ofRes r) := by
  cases r with
  | error e => exact ⟨fun _ => Only.pass (r := (.error e : Res α)) rfl⟩
  | ok a => exact OnlyP.pure a

instance OnlyP.bind (p : P α) (f : α → P β) [hp : OnlyP S p] [hf : ∀ a, OnlyP S (f a)] :
    OnlyP S (p >>= f) := by
  refine ⟨fun s => ?_⟩
  show Only S (P.bind' p f s)
  unfold P.bind'
  have := hp.only s
  split
  · exact (hf _).only _
  · rename_i e he
    exact Only.pass he

instance OnlyP.map (p : P α) (f : α → β) [hp : OnlyP S p] : OnlyP S (f <$> p) :=
  OnlyP.bind p (fun a => Pure.pure (f a))

instance OnlyP.ite (c : Prop) [Decidable c] (a b : P α) [OnlyP S a] [OnlyP S b] :
    OnlyP S (if c then a else b) := by
  split <;> infer_instance

instance OnlyP.remaining : OnlyP S remaining := ⟨fun _ => Only.ok _⟩

instance OnlyP.readN (n : Nat) [Allows S .eof] : OnlyP S (readN n) :=
  ⟨fun s => by unfold OneNote.readN; infer_instance⟩

instance OnlyP.advance (n : Nat) [Allows S .eof] : OnlyP S (advance n) :=
  ⟨fun s => by unfold OneNote.advance; infer_instance⟩

instance OnlyP.getLE (n : Nat) [Allows S .eof] : OnlyP S (getLE n) :=
  ⟨fun s => by unfold OneNote.getLE; infer_instance⟩

instance OnlyP.getU8 [Allows S .eof] : OnlyP S getU8 := OnlyP.getLE 1
instance OnlyP.getU16 [Allows S .eof] : OnlyP S getU16 := OnlyP.getLE 2
instance OnlyP.getU32 [Allows S .eof] : OnlyP S getU32 := OnlyP.getLE 4
instance OnlyP.getU64 [Allows S .eof] : OnlyP S getU64 := OnlyP.getLE 8

instance OnlyP.peekU8 [Allows S .eof] : OnlyP S peekU8 :=
  ⟨fun s => by unfold OneNote.peekU8; split <;> infer_instance⟩

instance OnlyP.replicateP (p : P α) (n : Nat) [OnlyP S p] : OnlyP S (replicateP p n) := by
  induction n with
  | zero => exact OnlyP.pure _
  | succ n ih => unfold OneNote.replicateP; infer_instance

instance OnlyP.mapP (f : α → P β) (l : List α) [∀ a, OnlyP S (f a)] : OnlyP S (mapP f l) := by
  induction l with
  | nil => exact OnlyP.pure _
  | cons a l ih => unfold OneNote.mapP; infer_instance

/-- Case distinctions and steps until instance search is enough. -/
macro "kinds" : tactic => `(tactic| repeat' (first
  | infer_instance
  | split
  | intro _
  | (refine @Only.pass _ _ _ _ ?_ _ (by assumption); infer_instance)
  | (refine OnlyP.bind (hp := ?_) (hf := ?_) _ _)
  | (refine Only.bind (hr := ?_) (hf := ?_) _ _)
  | (refine Only.mapM (h := ?_) _ _)
  | (refine Only.map (hr := ?_) _ _)
  | (refine OnlyP.map (hp := ?_) _ _)
  | dsimp only))

/-! ### The container -/

instance : OnlyP damaged Guid.parse := by unfold Guid.parse; kinds
instance : OnlyP damaged CompactU64.parse := by unfold CompactU64.parse; kinds
instance : OnlyP damaged ExGuid.parse := by unfold ExGuid.parse; kinds
instance : OnlyP damaged ExGuid.parseArray := by unfold ExGuid.parseArray; kinds
instance : OnlyP damaged CellId.parse := by unfold CellId.parse; kinds
instance : OnlyP damaged CellId.parseArray := by unfold CellId.parseArray; kinds
instance : OnlyP damaged SerialNumber.parse := by unfold SerialNumber.parse; kinds
instance : OnlyP damaged BinaryItem.parse := by unfold BinaryItem.parse; kinds
instance : OnlyP damaged ObjectHeader.parse16 := by unfold ObjectHeader.parse16; kinds
instance : OnlyP damaged ObjectHeader.parse32 := by unfold ObjectHeader.parse32; kinds
instance : OnlyP damaged ObjectHeader.parse := by unfold ObjectHeader.parse; kinds
instance (ty : ObjectType) (p : P ObjectHeader) [OnlyP damaged p] :
    OnlyP damaged (ObjectHeader.tryParseStart ty p) := by unfold ObjectHeader.tryParseStart; kinds
instance (ty : ObjectType) : OnlyP damaged (ObjectHeader.tryParse ty) := by
  unfold ObjectHeader.tryParse; kinds
instance (ty : ObjectType) : OnlyP damaged (ObjectHeader.tryParse16 ty) := by
  unfold ObjectHeader.tryParse16; kinds
instance (ty : ObjectType) : OnlyP damaged (ObjectHeader.tryParse32 ty) := by
  unfold ObjectHeader.tryParse32; kinds
instance : OnlyP damaged ObjectHeader.parseEnd16 := by unfold ObjectHeader.parseEnd16; kinds
instance : OnlyP damaged ObjectHeader.parseEnd8 := by unfold ObjectHeader.parseEnd8; kinds
instance (ty : ObjectType) (p : P ObjectType) [OnlyP damaged p] :
    OnlyP damaged (ObjectHeader.tryParseEnd ty p) := by unfold ObjectHeader.tryParseEnd; kinds
instance (ty : ObjectType) : OnlyP damaged (ObjectHeader.tryParseEnd16 ty) := by
  unfold ObjectHeader.tryParseEnd16; kinds
instance (ty : ObjectType) : OnlyP damaged (ObjectHeader.tryParseEnd8 ty) := by
  unfold ObjectHeader.tryParseEnd8; kinds
instance (ty : ObjectType) : OnlyP damaged (ObjectHeader.hasEnd8 ty) := by
  unfold ObjectHeader.hasEnd8; kinds

instance (ty : ObjectType) (body : σ → P σ) (n : Nat) (init : σ) [∀ x, OnlyP damaged (body x)] :
    OnlyP damaged (loopUntilEnd8 ty body n init) := by
  induction n generalizing init with
  | zero => unfold loopUntilEnd8; kinds
  | succ n ih => unfold loopUntilEnd8; kinds

instance (ty : ObjectType) (body : σ → P σ) (init : σ) [∀ x, OnlyP damaged (body x)] :
    OnlyP damaged (untilEnd8 ty body init) := by unfold untilEnd8; kinds

instance (si : StorageIndex) : OnlyP damaged (StorageIndex.parseItem si) := by
  unfold StorageIndex.parseItem; kinds
instance : OnlyP damaged StorageIndex.parse := by unfold StorageIndex.parse; kinds
instance (m : Map ExGuid CellId) : OnlyP damaged (StorageManifest.parseItem m) := by
  unfold StorageManifest.parseItem; kinds
instance : OnlyP damaged StorageManifest.parse := by unfold StorageManifest.parse; kinds
instance : OnlyP damaged CellManifest.parse := by unfold CellManifest.parse; kinds
instance (m : RevisionManifest) : OnlyP damaged (RevisionManifest.parseItem m) := by
  unfold RevisionManifest.parseItem; kinds
instance : OnlyP damaged RevisionManifest.parse := by unfold RevisionManifest.parse; kinds
instance : OnlyP damaged Fragment.parse := by unfold Fragment.parse; kinds
instance : OnlyP damaged ObjectDataBlob.parse := by unfold ObjectDataBlob.parse; kinds
instance (ds : List Declaration) : OnlyP damaged (ObjectGroup.parseDeclaration ds) := by
  unfold ObjectGroup.parseDeclaration; kinds
instance : OnlyP damaged ObjectGroup.parseDeclarations := by unfold ObjectGroup.parseDeclarations; kinds
instance (ms : List ChangeFrequency) : OnlyP damaged (ObjectGroup.parseMetadataItem ms) := by
  unfold ObjectGroup.parseMetadataItem; kinds
instance : OnlyP damaged ObjectGroup.parseMetadata := by unfold ObjectGroup.parseMetadata; kinds
instance (os : List GroupData) : OnlyP damaged (ObjectGroup.parseDataItem os) := by
  unfold ObjectGroup.parseDataItem; kinds
instance : OnlyP damaged ObjectGroup.parseData := by unfold ObjectGroup.parseData; kinds
instance : OnlyP damaged ObjectGroup.parseMetadataOpt := by unfold ObjectGroup.parseMetadataOpt; kinds
instance : OnlyP damaged ObjectGroup.parse := by unfold ObjectGroup.parse; kinds
instance (pkg : Package) : OnlyP damaged (Package.parseElement pkg) := by
  unfold Package.parseElement; kinds
instance : OnlyP damaged Package.parse := by unfold Package.parse; kinds
instance (a b c d : Guid) : OnlyP damaged (Packaging.parseLegacy a b c d) := by
  unfold Packaging.parseLegacy; kinds
instance : OnlyP damaged Packaging.parseFcr64x32 := by unfold Packaging.parseFcr64x32; kinds
instance : OnlyP damaged Packaging.parseVersion := by unfold Packaging.parseVersion; kinds
instance : OnlyP damaged Packaging.parseStoreHeader := by unfold Packaging.parseStoreHeader; kinds
instance (l : Nat × Nat) : Only damaged (Packaging.fcrEnd l) := by unfold Packaging.fcrEnd; kinds
instance (n : Nat) (l : Nat × Nat) : OnlyP damaged (Packaging.seekTransactionLog n l) := by
  unfold Packaging.seekTransactionLog; kinds
instance : OnlyP damaged Packaging.parseEmbedded := by unfold Packaging.parseEmbedded; kinds
instance (n : Nat) : OnlyP damaged (Packaging.parsePackaging n) := by
  unfold Packaging.parsePackaging; kinds
instance : OnlyP damaged Packaging.parse := by unfold Packaging.parse; kinds

/-! ### Objects and their properties -/

instance : OnlyP damaged CompactId.parse := by unfold CompactId.parse; kinds
instance : OnlyP damaged JcId.parse := by unfold JcId.parse; kinds
instance : OnlyP damaged ObjectStreamHeader.parse := by unfold ObjectStreamHeader.parse; kinds
instance : OnlyP damaged PropertyId.parse := by unfold PropertyId.parse; kinds
instance (set : P PropertySet) (id : Nat) [OnlyP damaged set] :
    OnlyP damaged (PropertyValue.parseWith set id) := by unfold PropertyValue.parseWith; kinds
instance (set : P PropertySet) (e : Nat × Nat) [OnlyP damaged set] :
    OnlyP damaged (PropertySet.parseEntry set e) := by unfold PropertySet.parseEntry; kinds
instance (set : P PropertySet) [OnlyP damaged set] : OnlyP damaged (PropertySet.parseWith set) := by
  unfold PropertySet.parseWith; kinds
instance (n : Nat) : OnlyP damaged (PropertySet.parseFuel n) := by
  induction n with
  | zero => unfold PropertySet.parseFuel; kinds
  | succ n ih => unfold PropertySet.parseFuel; kinds
instance : OnlyP damaged PropertySet.parse :=
  ⟨fun s => OnlyP.only (p := PropertySet.parseFuel (s.length + 1)) s⟩
instance : OnlyP damaged ObjectPropSet.parse := by unfold ObjectPropSet.parse; kinds

/-! ### The store -/

instance (f : α → Res β) (x : Option α) [h : ∀ a, Only S (f a)] :
    Only S (StoreHeader.optional f x) := by
  cases x with
  | none => exact Only.ok _
  | some a =>
    have := h a
    unfold StoreHeader.optional
    dsimp only
    split
    · exact Only.ok _
    · rename_i e he
      exact Only.pass he
instance (v : PropertyValue) : Only damaged (StoreHeader.parseGuid v) := by
  unfold StoreHeader.parseGuid; kinds
instance (v : PropertyValue) : Only damaged (StoreHeader.parseU32 v) := by
  unfold StoreHeader.parseU32; kinds
instance (g : ObjectGroup) : Only damaged (StoreHeader.parse g) := by unfold StoreHeader.parse; kinds
instance (id : ExGuid) (m : GroupMap) : Only damaged (Object.findBlobId id m) := by
  unfold Object.findBlobId; kinds
instance (a b c : ExGuid) (m : GroupMap) (pkg : Package) : Only damaged (Object.parse a b c m pkg) := by
  unfold Object.parse; kinds
instance (id : ExGuid) : Only damaged (RevisionRole.parse id) := by unfold RevisionRole.parse; kinds
instance (a b : ExGuid) (pkg : Package) (g : ObjectGroup) (os : Objects) (id : ExGuid) :
    Only damaged (Revision.addObject a b pkg g os id) := by
  unfold Revision.addObject
  split
  · infer_instance
  · split
    · infer_instance
    · split
      · rename_i h
        exact Only.pass h
      · infer_instance
instance (a b : ExGuid) (pkg : Package) (os : Objects) (id : ExGuid) :
    Only damaged (Revision.parseGroup a b pkg os id) := by unfold Revision.parseGroup; kinds
instance (rm : RevisionManifest) : Only damaged (Revision.parseRoots rm) := by
  unfold Revision.parseRoots; kinds
instance (pkg : Package) (si : StorageIndex) (rm : RevisionManifest) :
    Only damaged (Revision.baseOf pkg si rm) := by unfold Revision.baseOf; kinds
instance (a b : ExGuid) (si : StorageIndex) (pkg : Package) (id : ExGuid) (os : Objects) (rs : Roots) :
    Only damaged (Revision.parse a b si pkg id os rs) := by unfold Revision.parse; kinds
instance (a b : ExGuid) (si : StorageIndex) (pkg : Package) (n : Nat) (id : Option ExGuid) (os : Objects)
    (rs : Roots) : Only damaged (ObjectSpace.followRevisions a b si pkg n id os rs) := by
  induction n generalizing id os rs with
  | zero =>
    cases id with
    | none => exact Only.ok _
    | some id => exact Only.error .fuel
  | succ n ih =>
    cases id with
    | none => exact Only.ok _
    | some id =>
      unfold ObjectSpace.followRevisions
      split
      · rename_i h
        exact Only.pass h
      · infer_instance
instance (n : Nat) (ord : Order) (m : CellMapping) (si : StorageIndex) (pkg : Package) :
    Only damaged (ObjectSpace.parseFuel n ord m si pkg) := by
  unfold ObjectSpace.parseFuel
  dsimp only
  split
  · infer_instance
  · split
    · rename_i h
      exact Only.pass h
    · infer_instance
instance (ord : Order) (m : CellMapping) (si : StorageIndex) (pkg : Package) :
    Only damaged (ObjectSpace.parse ord m si pkg) := by unfold ObjectSpace.parse; kinds
instance (ord : Order) (id : CellId) (si : StorageIndex) (pkg : Package) :
    Only damaged (Store.parseObjectSpace ord id si pkg) := by unfold Store.parseObjectSpace; kinds
instance (ord : Order) (si : StorageIndex) (pkg : Package) (done : List CellId)
    (spaces : Map CellId ObjectSpace) (m : CellMapping) :
    Only damaged (Store.addSpace ord si pkg done spaces m) := by
  unfold Store.addSpace
  split
  · infer_instance
  · split
    · infer_instance
    · split
      · rename_i h
        exact Only.pass h
      · infer_instance
instance (m : StorageManifest) : Only damaged (Store.findHeaderCellId m) := by
  unfold Store.findHeaderCellId; kinds
instance (m : StorageManifest) : Only damaged (Store.findDataRootCellId m) := by
  unfold Store.findDataRootCellId; kinds
instance (ord : Order) (pkg : Package) (id : ExGuid) (si : StorageIndex) :
    Only damaged (pkg.findObjects ord id si) := by unfold Package.findObjects; dsimp only; kinds
instance (ord : Order) (p : Packaging) : Only damaged (Store.parse ord p) := by unfold Store.parse; kinds

end OneNote
