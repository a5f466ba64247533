/-
Reading the store of a file never panics.
-/
import Verif.Lemmas.Visit

namespace OneNote

theorem Fine.storeHeader (g : ObjectGroup) : Fine (StoreHeader.parse g) := by
  have guid : ∀ v, Fine (StoreHeader.optional StoreHeader.parseGuid v) := by
    intro v
    cases v with
    | none => exact Fine.ok _
    | some v =>
      have : Fine (StoreHeader.parseGuid v) := by
        unfold StoreHeader.parseGuid
        split
        · exact Fine.run Good.guid _
        · exact Fine.error (by simp) (by simp)
      unfold StoreHeader.optional
      simp only
      split
      · exact Fine.ok _
      · rename_i e h
        have := this.error_ne h
        exact Fine.error this.1 this.2
  have num : ∀ v, Fine (StoreHeader.optional StoreHeader.parseU32 v) := by
    intro v
    cases v with
    | none => exact Fine.ok _
    | some v =>
      have : Fine (StoreHeader.parseU32 v) := by
        unfold StoreHeader.parseU32
        split
        · exact Fine.ok _
        · exact Fine.error (by simp) (by simp)
      unfold StoreHeader.optional
      simp only
      split
      · exact Fine.ok _
      · rename_i e h
        have := this.error_ne h
        exact Fine.error this.1 this.2
  unfold StoreHeader.parse
  refine Fine.bind (Fine.orErr (by simp) (by simp)) fun x => ?_
  refine Fine.bind ?_ fun _ => ?_
  · split
    · exact Fine.ok _
    · exact Fine.error (by simp) (by simp)
  refine Fine.bind (Fine.run Good.objectPropSet _) fun _ => ?_
  refine Fine.bind (guid _) fun _ => Fine.bind (Fine.orErr (by simp) (by simp)) fun _ => ?_
  refine Fine.bind (guid _) fun _ => Fine.bind (Fine.orErr (by simp) (by simp)) fun _ => ?_
  refine Fine.bind (num _) fun _ => Fine.bind (num _) fun _ => ?_
  exact Fine.bind (Fine.orErr (by simp) (by simp)) fun _ => Fine.ok _

theorem Fine.findObjects (ord : Order) (pkg : Package) (cell : ExGuid) (si : StorageIndex) :
    Fine (pkg.findObjects ord cell si) := by
  unfold Package.findObjects
  simp only
  split
  · exact Fine.error (by simp) (by simp)
  · split
    · exact Fine.error (by simp) (by simp)
    · refine Fine.mapM _ fun r _ => ?_
      split
      · exact Fine.error (by simp) (by simp)
      · exact Fine.ok _

theorem followRevisions_noPanic (ctx sid : ExGuid) (si : StorageIndex) (pkg : Package) (n : Nat)
    (rev : Option ExGuid) (objects : Objects) (roots : Roots) :
    ObjectSpace.followRevisions ctx sid si pkg n rev objects roots ≠ .error .panic := by
  induction n generalizing rev objects roots with
  | zero =>
    cases rev with
    | none => simp [ObjectSpace.followRevisions]
    | some _ => simp [ObjectSpace.followRevisions]
  | succ n ih =>
    cases rev with
    | none => simp [ObjectSpace.followRevisions]
    | some rev =>
      unfold ObjectSpace.followRevisions
      have := fine_revision ctx sid si pkg rev objects roots
      split
      · rename_i e h
        simpa using (this.error_ne h).2
      · exact ih _ _ _

theorem objectSpace_noPanic (ord : Order) (m : CellMapping) (si : StorageIndex) (pkg : Package) :
    ObjectSpace.parse ord m si pkg ≠ .error .panic := by
  unfold ObjectSpace.parse ObjectSpace.parseFuel
  simp only
  split
  · split <;> simp
  · split
    · rename_i e h
      intro h'
      cases h'
      exact followRevisions_noPanic _ _ _ _ _ _ _ _ h
    · simp

theorem parseObjectSpace_noPanic (ord : Order) (cell : CellId) (si : StorageIndex)
    (pkg : Package) : Avoids .panic (Store.parseObjectSpace ord cell si pkg) := by
  unfold Store.parseObjectSpace
  split
  · exact Avoids.error (.inr rfl) (by simp) (by simp)
  · exact objectSpace_noPanic _ _ _ _

theorem store_noPanic (ord : Order) (p : Packaging) : Avoids .panic (Store.parse ord p) := by
  unfold Store.parse
  have opt : ∀ {α : Type} {o : Option α}, Avoids .panic (orErr .malformedOneStore o) := fun {_ _} =>
    Avoids.fine (.inr rfl) (Fine.orErr (by simp) (by simp))
  refine Avoids.bind opt fun si _ => Avoids.bind opt fun man _ => Avoids.bind opt fun hc _ => ?_
  refine Avoids.bind opt fun hm _ => ?_
  refine Avoids.bind (Avoids.fine (.inr rfl) (Fine.findObjects _ _ _ _)) fun _ _ => ?_
  refine Avoids.bind opt fun g _ => ?_
  refine Avoids.bind (Avoids.fine (.inr rfl) (Fine.storeHeader g)) fun _ _ => ?_
  refine Avoids.bind opt fun dc _ => Avoids.bind (parseObjectSpace_noPanic _ _ _ _) fun _ _ => ?_
  refine Avoids.bind ?_ fun _ _ => Avoids.ok _
  generalize ([] : Map CellId ObjectSpace) = acc
  generalize (si.cellMappings.values ord 4) = l
  induction l generalizing acc with
  | nil => exact Avoids.ok _
  | cons m l ih =>
    rw [List.foldlM_cons]
    refine Avoids.bind ?_ fun acc _ => ih acc
    unfold Store.addSpace
    split
    · exact Avoids.ok _
    · split
      · exact Avoids.ok _
      · have := parseObjectSpace_noPanic ord m.cellId si p.package
        split
        · rename_i e h
          intro h'
          cases h'
          exact this h
        · exact Avoids.ok _

theorem readStore_noPanic (ord : Order) (data : Bytes) : Avoids .panic (readStore ord data) :=
  Avoids.bind (Avoids.fine (.inr rfl) (Fine.run Good.packaging _)) fun p _ => store_noPanic ord p

end OneNote
