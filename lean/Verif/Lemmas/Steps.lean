/-
The counted functions give the same results, and bounds on the steps.
-/
import Verif.Model.Counted
import Verif.Lemmas.Follow
import Verif.Lemmas.Size
import Verif.Lemmas.Whole

namespace OneNote.Steps

open Spec Counted

variable {α β σ : Type}

/-! ### Results -/

theorem bind_result (c : Counted α) (f : α → Counted β) :
    (c >>= f).result = c.result >>= fun a => (f a).result := by
  show (Counted.bind' c f).result = _
  unfold Counted.bind'
  cases c.result <;> rfl

theorem pure_result (a : α) : (pure a : Counted α).result = .ok a := rfl
theorem tick_result (n : Nat) : (tick n).result = .ok () := rfl
theorem ofRes_result (r : Res α) : (ofRes r).result = r := rfl

theorem foldlM_result {f : σ → α → Counted σ} {g : σ → α → Res σ}
    (h : ∀ s a, (f s a).result = g s a) (l : List α) (s : σ) :
    (l.foldlM f s).result = l.foldlM g s := by
  induction l generalizing s with
  | nil => rfl
  | cons a l ih =>
    rw [List.foldlM_cons, List.foldlM_cons, bind_result, h]
    congr 1
    funext x
    exact ih x

theorem ok_bind (a : α) (f : α → Res β) : ((.ok a : Res α) >>= f) = f a := rfl

theorem parseGroup_result (ctx sid : ExGuid) (pkg : Package) (objects : Objects) (gid : ExGuid) :
    (Revision.parseGroupCounted ctx sid pkg objects gid).result =
      Revision.parseGroup ctx sid pkg objects gid := by
  unfold Revision.parseGroupCounted Revision.parseGroup
  rw [bind_result, tick_result, ok_bind, bind_result, ofRes_result]
  congr 1
  funext g
  rw [bind_result, tick_result, ok_bind]
  exact foldlM_result (fun _ _ => rfl) _ _

theorem revision_result (ctx sid : ExGuid) (si : StorageIndex) (pkg : Package) (r : ExGuid)
    (objects : Objects) (roots : Roots) :
    (Revision.parseCounted ctx sid si pkg r objects roots).result =
      Revision.parse ctx sid si pkg r objects roots := by
  unfold Revision.parseCounted Revision.parse
  rw [bind_result, tick_result, ok_bind, bind_result, ofRes_result]
  congr 1
  funext m
  rw [bind_result, ofRes_result]
  congr 1
  funext b
  rw [bind_result, tick_result, ok_bind, bind_result, ofRes_result]
  congr 1
  funext d
  rw [bind_result]
  rw [foldlM_result (parseGroup_result ctx sid pkg)]
  rfl

theorem follow_result (ctx sid : ExGuid) (si : StorageIndex) (pkg : Package) (n : Nat)
    (b : Option ExGuid) (objects : Objects) (roots : Roots) :
    (ObjectSpace.followCounted ctx sid si pkg n b objects roots).result =
      ObjectSpace.followRevisions ctx sid si pkg n b objects roots := by
  induction n generalizing b objects roots with
  | zero => cases b <;> rfl
  | succ n ih =>
    cases b with
    | none => rfl
    | some r =>
      unfold ObjectSpace.followCounted ObjectSpace.followRevisions
      rw [bind_result, revision_result]
      cases Revision.parse ctx sid si pkg r objects roots with
      | error e => rfl
      | ok x => exact ih ..

theorem space_result (ord : Order) (m : CellMapping) (si : StorageIndex) (pkg : Package) :
    (ObjectSpace.parseCounted ord m si pkg).result = ObjectSpace.parse ord m si pkg := by
  unfold ObjectSpace.parseCounted ObjectSpace.parse ObjectSpace.parseFuel
  rw [bind_result, tick_result, ok_bind]
  cases ObjectSpace.firstRevision ord si pkg m with
  | none =>
    dsimp only
    split <;> rfl
  | some r =>
    dsimp only
    rw [bind_result, follow_result]
    cases ObjectSpace.followRevisions m.cellId.fst m.cellId.snd si pkg
      (pkg.revisionManifests.length + 1) (some r) [] [] with
    | error e => rfl
    | ok x => rfl

theorem objectSpace_result (ord : Order) (c : CellId) (si : StorageIndex) (pkg : Package) :
    (Store.parseObjectSpaceCounted ord c si pkg).result = Store.parseObjectSpace ord c si pkg := by
  unfold Store.parseObjectSpaceCounted Store.parseObjectSpace
  cases Map.get? si.cellMappings c with
  | none => rfl
  | some m => exact space_result ..

theorem addSpace_result (ord : Order) (si : StorageIndex) (pkg : Package) (done : List CellId)
    (spaces : Map CellId ObjectSpace) (m : CellMapping) :
    (Store.addSpaceCounted ord si pkg done spaces m).result =
      Store.addSpace ord si pkg done spaces m := by
  unfold Store.addSpaceCounted Store.addSpace
  rw [bind_result, tick_result, ok_bind]
  split
  · rfl
  · split
    · rfl
    · rw [bind_result, objectSpace_result]
      cases Store.parseObjectSpace ord m.cellId si pkg with
      | error e => rfl
      | ok x => rfl

theorem store_result (ord : Order) (p : Packaging) :
    (Store.parseCounted ord p).result = Store.parse ord p := by
  unfold Store.parseCounted Store.parse
  rw [bind_result, ofRes_result]
  congr 1; funext si
  rw [bind_result, ofRes_result]
  congr 1; funext manifest
  rw [bind_result, ofRes_result]
  congr 1; funext header
  rw [bind_result, ofRes_result]
  congr 1; funext hm
  rw [bind_result, tick_result, ok_bind, bind_result, ofRes_result]
  congr 1; funext ho
  rw [bind_result, ofRes_result]
  congr 1; funext hc
  rw [bind_result, ofRes_result]
  congr 1; funext h
  rw [bind_result, ofRes_result]
  congr 1; funext dr
  rw [bind_result, objectSpace_result]
  congr 1; funext d
  rw [bind_result, foldlM_result (addSpace_result ord si p.package [header, dr])]
  rfl

theorem readStore_result (ord : Order) (data : Bytes) :
    (readStoreCounted ord data).result = readStore ord data := by
  unfold readStoreCounted readStore
  rw [bind_result, ofRes_result]
  congr 1; funext p
  exact store_result ord p

/-! ### Steps -/

theorem bind_steps (c : Counted α) (f : α → Counted β) :
    (c >>= f).steps = c.steps + match c.result with | .ok a => (f a).steps | .error _ => 0 := by
  show (Counted.bind' c f).steps = _
  unfold Counted.bind'
  cases c.result <;> rfl

theorem bind_le {c : Counted α} {f : α → Counted β} {m n : Nat} (h1 : c.steps ≤ m)
    (h2 : ∀ a, c.result = .ok a → (f a).steps ≤ n) : (c >>= f).steps ≤ m + n := by
  rw [bind_steps]
  cases h : c.result with
  | error e => dsimp only; omega
  | ok a => have := h2 a h; dsimp only; omega

theorem tick_bind (n : Nat) (f : Unit → Counted β) : (tick n >>= f).steps = n + (f ()).steps := rfl

theorem ofRes_le {r : Res α} {f : α → Counted β} {n : Nat}
    (h : ∀ a, r = .ok a → (f a).steps ≤ n) : (ofRes r >>= f).steps ≤ n := by
  have := bind_le (c := ofRes r) (m := 0) (Nat.le_refl 0) h
  omega

theorem foldlM_le {f : σ → α → Counted σ} {w : Nat} (l : List α) (s : σ)
    (h : ∀ s, ∀ a ∈ l, (f s a).steps ≤ w) : (l.foldlM f s).steps ≤ l.length * w := by
  induction l generalizing s with
  | nil => exact Nat.zero_le _
  | cons a l ih =>
    rw [List.foldlM_cons, List.length_cons, Nat.add_mul, Nat.one_mul, Nat.add_comm (l.length * w)]
    exact bind_le (h s a (.head _)) fun s' _ => ih s' fun s x hx => h s x (.tail _ hx)

/-! ### A group -/

/-- What is left to read of a group. -/
def left (objects : Objects) (l : GroupMap) : Nat :=
  (l.map fun e => if e.1.2 = 1 ∧ objects.contains e.1.1 = false then sizeGroupData e.2 else 0).sum

theorem left_mono (objects : Objects) (id : ExGuid) (o : Object) (l : GroupMap) :
    left (objects.insert id o) l ≤ left objects l := by
  induction l with
  | nil => exact Nat.le_refl _
  | cons e l ih =>
    unfold left at ih ⊢
    rw [List.map_cons, List.sum_cons, List.map_cons, List.sum_cons]
    refine Nat.add_le_add ?_ ih
    split
    · rename_i h
      refine Nat.le_of_eq (if_pos ⟨h.1, ?_⟩).symm
      have hx := h.2
      unfold Map.contains at hx ⊢
      rw [Map.get?_insert] at hx
      split at hx
      · cases hx
      · exact hx
    · exact Nat.zero_le _

theorem left_insert {objects : Objects} {id : ExGuid} (o : Object) {d : GroupData} {l : GroupMap}
    (hc : objects.contains id = false) (hl : ((id, 1), d) ∈ l) :
    left (objects.insert id o) l + sizeGroupData d ≤ left objects l := by
  have hself : (objects.insert id o).contains id = true := by
    unfold Map.contains
    rw [Map.get?_insert_self]
    rfl
  have mono := left_mono objects id o
  induction l with
  | nil => cases hl
  | cons e l ih =>
    rcases List.mem_cons.1 hl with rfl | hl
    · have := mono l
      unfold left at this ⊢
      rw [List.map_cons, List.sum_cons, List.map_cons, List.sum_cons, if_neg, if_pos ⟨rfl, hc⟩]
      · dsimp only; omega
      · rintro ⟨-, h⟩
        rw [hself] at h
        cases h
    · have h1 := ih hl
      have h2 := mono [e]
      unfold left at h1 h2 ⊢
      simp only [List.map_cons, List.map_nil, List.sum_cons, List.sum_nil] at h2 ⊢
      omega

theorem addObjects_steps (ctx sid : ExGuid) (pkg : Package) (g : ObjectGroup) (ids : List ExGuid)
    (objects : Objects) :
    (ids.foldlM (Revision.addObjectCounted ctx sid pkg g) objects).steps ≤
      ids.length + left objects (Revision.groupMap g) := by
  induction ids generalizing objects with
  | nil => exact Nat.zero_le _
  | cons id ids ih =>
    rw [List.foldlM_cons, bind_steps, List.length_cons]
    by_cases hc : objects.contains id = true
    · have h1 : (Revision.addObjectCounted ctx sid pkg g objects id).steps = 1 := if_pos hc
      have h2 : (Revision.addObjectCounted ctx sid pkg g objects id).result = .ok objects := if_pos hc
      rw [h1, h2]
      have := ih objects
      dsimp only
      omega
    · have h1 : (Revision.addObjectCounted ctx sid pkg g objects id).steps =
          1 + Revision.objectSteps g id := if_neg hc
      have hc : objects.contains id = false := by simpa using hc
      rw [h1]
      have key : ∀ o, Revision.objectSteps g id + left (objects.insert id o) (Revision.groupMap g) ≤
          left objects (Revision.groupMap g) := by
        intro o
        unfold Revision.objectSteps Object.findObject
        cases hd : Map.get? (Revision.groupMap g) (id, Object.partitionObjectData) with
        | none =>
          dsimp only
          rw [Nat.zero_add]
          exact left_mono _ _ _ _
        | some d =>
          have := left_insert o hc (Map.mem_of_get? hd)
          cases d <;> simp only [sizeGroupData] at this ⊢ <;> omega
      have hr : (Revision.addObjectCounted ctx sid pkg g objects id).result =
          Revision.addObject ctx sid pkg g objects id := rfl
      rw [hr]
      unfold Revision.addObject
      rw [if_neg (by simp [hc])]
      split
      · rename_i a ha
        split at ha
        · cases ha
        · split at ha
          · cases ha
          · rename_i o _
            cases ha
            have h2 := ih (objects.insert id o)
            have h3 := key o
            omega
      · have := key ⟨id, 0, ⟨[], [], [], []⟩, none, ⟨[], []⟩⟩
        omega

theorem left_group (g : ObjectGroup) (objects : Objects) :
    left objects (Revision.groupMap g) ≤ (g.objects.map sizeGroupData).sum := by
  have h0 : ∀ l : GroupMap, left objects l ≤ (l.map fun e => sizeGroupData e.2).sum := by
    intro l
    induction l with
    | nil => exact Nat.le_refl _
    | cons e l ih =>
      unfold left at ih ⊢
      rw [List.map_cons, List.sum_cons, List.map_cons, List.sum_cons]
      refine Nat.add_le_add ?_ ih
      split
      · exact Nat.le_refl _
      · exact Nat.zero_le _
  refine Nat.le_trans (h0 _) ?_
  have hf : ∀ (l : GroupMap) (q : (ExGuid × Nat) × GroupData → Bool),
      ((l.filter q).map fun e => sizeGroupData e.2).sum ≤ (l.map fun e => sizeGroupData e.2).sum := by
    intro l q
    induction l with
    | nil => exact Nat.le_refl _
    | cons e l ih =>
      rw [List.filter_cons]
      split
      · simp only [List.map_cons, List.sum_cons]; omega
      · simp only [List.map_cons, List.sum_cons]; omega
  have h1 : ∀ (es : List ((ExGuid × Nat) × GroupData)) (m : GroupMap),
      ((Map.extend m es).map fun e => sizeGroupData e.2).sum ≤
        (m.map fun e => sizeGroupData e.2).sum + (es.map fun e => sizeGroupData e.2).sum := by
    intro es
    induction es with
    | nil => intro m; exact Nat.le_refl _
    | cons e es ih =>
      intro m
      have a := ih (Map.insert m e.1 e.2)
      have b := hf m fun x => decide (x.1 ≠ e.1)
      have c : ((Map.insert m e.1 e.2).map fun e => sizeGroupData e.2).sum ≤
          (m.map fun e => sizeGroupData e.2).sum + sizeGroupData e.2 := by
        unfold Map.insert
        rw [List.map_append, List.sum_append]
        simp only [List.map_cons, List.map_nil, List.sum_cons, List.sum_nil]
        omega
      rw [List.map_cons, List.sum_cons]
      have d : Map.extend m (e :: es) = Map.extend (Map.insert m e.1 e.2) es := rfl
      rw [d]
      omega
  have h2 := h1 ((g.declarations.zip g.objects).map fun e =>
    ((e.1.objectId, e.1.partitionId), e.2)) []
  refine Nat.le_trans h2 ?_
  rw [List.map_map]
  simp only [List.map_nil, List.sum_nil, Nat.zero_add]
  have h3 : ∀ (ds : List Declaration) (os : List GroupData),
      ((ds.zip os).map ((fun e : (ExGuid × Nat) × GroupData => sizeGroupData e.2) ∘ fun e =>
        ((e.1.objectId, e.1.partitionId), e.2))).sum ≤ (os.map sizeGroupData).sum := by
    intro ds
    induction ds with
    | nil => intro os; exact Nat.zero_le _
    | cons d ds ih =>
      intro os
      cases os with
      | nil => exact Nat.zero_le _
      | cons o os =>
        have := ih os
        simp only [List.zip_cons_cons, List.map_cons, List.sum_cons, Function.comp] at this ⊢
        omega
  exact h3 _ _

theorem parseGroup_steps (ctx sid : ExGuid) (pkg : Package) (objects : Objects) (gid : ExGuid) :
    (Revision.parseGroupCounted ctx sid pkg objects gid).steps ≤
      2 * sizeMap sizeObjectGroup pkg.objectGroups + 1 := by
  unfold Revision.parseGroupCounted
  rw [tick_bind, Nat.add_comm]
  refine Nat.add_le_add_right (ofRes_le fun g hg => ?_) 1
  rw [tick_bind]
  have h1 := addObjects_steps ctx sid pkg g (g.declarations.map (·.objectId)) objects
  have h2 := left_group g objects
  rw [List.length_map] at h1
  have h3 : pkg.objectGroups.get? gid = some g := by
    unfold Package.findObjectGroup at hg
    cases h : Map.get? pkg.objectGroups gid with
    | none => rw [h] at hg; cases hg
    | some g' => rw [h] at hg; cases hg; rfl
  have h4 : 1 + sizeObjectGroup g ≤ sizeMap sizeObjectGroup pkg.objectGroups := by
    have := Map.mem_of_get? h3
    revert this
    generalize pkg.objectGroups = l
    intro hl
    unfold sizeMap
    induction l with
    | nil => cases hl
    | cons e l ih =>
      rw [List.map_cons, List.sum_cons]
      rcases List.mem_cons.1 hl with rfl | hl
      · dsimp only; omega
      · have := ih hl; omega
  have h5 : sizeObjectGroup g =
    g.declarations.length + g.metadata.length + (g.objects.map sizeGroupData).sum := rfl
  omega

/-! ### Revisions -/

/-- The most steps a reference to a group can take. -/
def perGroup (pkg : Package) : Nat := 2 * sizeMap sizeObjectGroup pkg.objectGroups + 1

theorem revision_steps (ctx sid : ExGuid) (si : StorageIndex) (pkg : Package) (r : ExGuid)
    (objects : Objects) (roots : Roots) :
    (Revision.parseCounted ctx sid si pkg r objects roots).steps ≤ 1 +
      match pkg.revisionManifests.get? r with
      | some m => sizeRevisionManifest m * perGroup pkg
      | none => 0 := by
  unfold Revision.parseCounted
  rw [tick_bind]
  refine Nat.add_le_add_left (ofRes_le fun m hm => ?_) 1
  have hm : pkg.revisionManifests.get? r = some m := by
    unfold Package.findRevisionManifest at hm
    cases h : Map.get? pkg.revisionManifests r with
    | none => rw [h] at hm; cases hm
    | some g' => rw [h] at hm; cases hm; rfl
  rw [hm]
  refine ofRes_le fun b hb => ?_
  rw [tick_bind]
  have h : (ofRes (Revision.parseRoots m) >>= fun declared =>
      m.groupReferences.foldlM (Revision.parseGroupCounted ctx sid pkg) objects >>= fun objects =>
      (pure (b, objects, roots.extend declared) :
        Counted (Option ExGuid × Objects × Roots))).steps ≤
      m.groupReferences.length * perGroup pkg := by
    refine ofRes_le fun d _ => ?_
    exact bind_le (n := 0) (foldlM_le _ _ fun s a _ => parseGroup_steps ctx sid pkg s a)
      fun _ _ => Nat.le_refl 0
  refine Nat.le_trans (Nat.add_le_add_left h _) ?_
  dsimp only
  unfold sizeRevisionManifest
  rw [Nat.add_mul]
  refine Nat.add_le_add_right ?_ _
  exact Nat.le_trans (Nat.le_add_left _ 2) (Nat.le_mul_of_pos_right _ (Nat.succ_pos _))

/-- The steps for one revision and for all of them. -/
def weight (pkg : Package) (m : RevisionManifest) : Nat :=
  (1 + sizeRevisionManifest m) * perGroup pkg

def weightOf (pkg : Package) (r : ExGuid) : Nat :=
  match pkg.revisionManifests.get? r with
  | some m => weight pkg m
  | none => 0

theorem revision_weight (ctx sid : ExGuid) (si : StorageIndex) (pkg : Package) (r : ExGuid)
    (objects : Objects) (roots : Roots) :
    (Revision.parseCounted ctx sid si pkg r objects roots).steps ≤ 1 + weightOf pkg r ∧
    ((∃ m, pkg.revisionManifests.get? r = some m) →
      (Revision.parseCounted ctx sid si pkg r objects roots).steps ≤ weightOf pkg r) := by
  have h := revision_steps ctx sid si pkg r objects roots
  have h1 : 1 ≤ perGroup pkg := Nat.succ_pos _
  unfold weightOf weight
  cases hm : pkg.revisionManifests.get? r with
  | none =>
    rw [hm] at h
    refine ⟨h, ?_⟩
    rintro ⟨m, hm⟩
    cases hm
  | some m =>
    rw [hm] at h
    dsimp only at h ⊢
    rw [Nat.add_mul, Nat.one_mul]
    generalize sizeRevisionManifest m * perGroup pkg = w at h ⊢
    exact ⟨by omega, fun _ => by omega⟩

theorem distinct_sum {l : List (ExGuid × RevisionManifest)} (w : RevisionManifest → Nat)
    {vs : List ExGuid} (hn : vs.Nodup) (hs : ∀ v ∈ vs, ∃ m, Map.get? l v = some m) :
    (vs.map fun v => match Map.get? l v with | some m => w m | none => 0).sum ≤
      (l.map fun e => w e.2).sum := by
  induction l generalizing vs with
  | nil =>
    cases vs with
    | nil => exact Nat.le_refl _
    | cons v vs =>
      obtain ⟨m, hm⟩ := hs v (.head _)
      cases hm
  | cons e l ih =>
    obtain ⟨k, m⟩ := e
    by_cases hk : k ∈ vs
    · have hp := List.perm_cons_erase hk
      have hn' := (hp.nodup_iff.1 hn)
      have hne : ∀ v ∈ vs.erase k, k ≠ v := fun v hv he => (List.nodup_cons.1 hn').1 (he ▸ hv)
      have hget : ∀ v ∈ vs.erase k, Map.get? ((k, m) :: l) v = Map.get? l v := by
        intro v hv
        rw [Map.get?, if_neg (hne v hv)]
      rw [(hp.map _).sum_nat, List.map_cons, List.sum_cons, List.map_cons, List.sum_cons]
      have h1 : Map.get? ((k, m) :: l) k = some m := by rw [Map.get?, if_pos rfl]
      rw [h1]
      refine Nat.add_le_add_left ?_ _
      rw [List.map_congr_left fun v hv => by rw [hget v hv]]
      refine ih (List.nodup_cons.1 hn').2 fun v hv => ?_
      rw [← hget v hv]
      exact hs v (List.mem_of_mem_erase hv)
    · have hget : ∀ v ∈ vs, Map.get? ((k, m) :: l) v = Map.get? l v := by
        intro v hv
        rw [Map.get?, if_neg fun h => hk (by rw [h]; exact hv)]
      rw [List.map_congr_left fun v hv => by rw [hget v hv]]
      refine Nat.le_trans (ih hn fun v hv => by rw [← hget v hv]; exact hs v hv) ?_
      rw [List.map_cons, List.sum_cons]
      omega

/-- All revisions together. -/
def allRevisions (pkg : Package) : Nat := (pkg.revisionManifests.map fun e => weight pkg e.2).sum

theorem allRevisions_eq (pkg : Package) :
    allRevisions pkg = sizeMap sizeRevisionManifest pkg.revisionManifests * perGroup pkg := by
  unfold allRevisions sizeMap weight
  generalize pkg.revisionManifests = l
  induction l with
  | nil => simp
  | cons e l ih => rw [List.map_cons, List.sum_cons, ih, List.map_cons, List.sum_cons, Nat.add_mul _ (List.sum _)]

theorem follow_steps {ctx sid : ExGuid} {si : StorageIndex} {pkg : Package} (n : Nat)
    (vs : List ExGuid) (b : Option ExGuid) (objects : Objects) (roots : Roots) (hnd : vs.Nodup)
    (hvs : ∀ v ∈ vs, ∃ b', (b' ∈ vs ∨ some b' = b) ∧ Processed si pkg objects v b')
    (h : ObjectSpace.followRevisions ctx sid si pkg n b objects roots ≠ .error .fuel) :
    (ObjectSpace.followCounted ctx sid si pkg n b objects roots).steps +
      (vs.map (weightOf pkg)).sum ≤ allRevisions pkg + 1 := by
  have hsum : ∀ vs : List ExGuid, vs.Nodup →
      (∀ v ∈ vs, ∃ m, pkg.revisionManifests.get? v = some m) →
      (vs.map (weightOf pkg)).sum ≤ allRevisions pkg := fun vs h1 h2 =>
    distinct_sum (weight pkg) h1 h2
  have hall : ∀ v ∈ vs, ∃ m, pkg.revisionManifests.get? v = some m := by
    intro v hv
    obtain ⟨-, -, m, d, hm, -⟩ := hvs v hv
    exact ⟨m, hm⟩
  induction n generalizing vs b objects roots with
  | zero =>
    cases b with
    | none =>
      have := hsum vs hnd hall
      show 0 + _ ≤ _
      omega
    | some r => exact absurd rfl h
  | succ n ih =>
    cases b with
    | none =>
      have := hsum vs hnd hall
      show 0 + _ ≤ _
      omega
    | some r =>
      have hr : r ∉ vs := by
        intro hr
        refine h (loop_forever (· ∈ vs) (fun v hv => ?_) _ r hr roots)
        obtain ⟨b', hb | hb, hp⟩ := hvs v hv
        · exact ⟨b', hb, hp⟩
        · cases hb
          exact ⟨r, hr, hp⟩
      obtain ⟨hw1, hw2⟩ := revision_weight ctx sid si pkg r objects roots
      unfold ObjectSpace.followCounted
      rw [bind_steps, revision_result]
      cases hp : Revision.parse ctx sid si pkg r objects roots with
      | error e =>
        dsimp only
        by_cases hm : ∃ m, pkg.revisionManifests.get? r = some m
        · have := hsum (r :: vs) (List.nodup_cons.2 ⟨hr, hnd⟩) (by
            intro v hv
            rcases List.mem_cons.1 hv with rfl | hv
            · exact hm
            · exact hall v hv)
          rw [List.map_cons, List.sum_cons] at this
          have := hw2 hm
          omega
        · have h0 : weightOf pkg r = 0 := by
            unfold weightOf
            cases hg : pkg.revisionManifests.get? r with
            | none => rfl
            | some m => exact absurd ⟨m, hg⟩ hm
          have := hsum vs hnd hall
          omega
      | ok x =>
        obtain ⟨b', o1, r1⟩ := x
        obtain ⟨m, d, hm, hb, hd, hg, rfl⟩ := revision_parse_ok.mp hp
        obtain ⟨g1, g2⟩ := parseGroups_grow hg
        dsimp only
        have hf : ObjectSpace.followRevisions ctx sid si pkg n b' o1 (roots.extend d) ≠
            .error .fuel := by
          intro he
          apply h
          unfold ObjectSpace.followRevisions
          rw [hp]
          exact he
        have hw := hw2 ⟨m, hm⟩
        cases b' with
        | none =>
          have hall' : ∀ v ∈ r :: vs, ∃ m, pkg.revisionManifests.get? v = some m := by
            intro v hv
            rcases List.mem_cons.1 hv with rfl | hv
            · exact ⟨m, hm⟩
            · exact hall v hv
          have := hsum (r :: vs) (List.nodup_cons.2 ⟨hr, hnd⟩) hall'
          rw [List.map_cons, List.sum_cons] at this
          have h0 : (ObjectSpace.followCounted ctx sid si pkg n none o1 (roots.extend d)).steps = 0 := by
            cases n <;> rfl
          rw [h0]
          omega
        | some b' =>
          have hvs' : ∀ v ∈ r :: vs, ∃ b2, (b2 ∈ r :: vs ∨ some b2 = some b') ∧
              Processed si pkg o1 v b2 := by
            intro v hv
            rcases List.mem_cons.mp hv with rfl | hv
            · exact ⟨b', .inr rfl, m, d, hm, hb, hd, g2⟩
            · obtain ⟨b2, hb2, hpv⟩ := hvs v hv
              refine ⟨b2, .inl ?_, hpv.grow g1⟩
              rcases hb2 with h | h
              · exact .tail _ h
              · cases h
                exact .head _
          have := ih (r :: vs) (some b') o1 (roots.extend d) (List.nodup_cons.2 ⟨hr, hnd⟩) hvs' hf (by
            intro v hv
            rcases List.mem_cons.1 hv with rfl | hv
            · exact ⟨m, hm⟩
            · exact hall v hv)
          rw [List.map_cons, List.sum_cons] at this
          omega

/-! ### Cells -/

/-- The most steps a cell can take. -/
def perCell (si : StorageIndex) (pkg : Package) : Nat :=
  si.revisionMappings.length + (allRevisions pkg + 1)

theorem space_steps {ord : Order} {m : CellMapping} {si : StorageIndex} {pkg : Package}
    (h : ObjectSpace.parse ord m si pkg ≠ .error .fuel) :
    (ObjectSpace.parseCounted ord m si pkg).steps ≤ perCell si pkg := by
  unfold ObjectSpace.parseCounted perCell
  rw [tick_bind]
  refine Nat.add_le_add ?_ ?_
  · unfold ObjectSpace.firstSteps
    split
    · exact Nat.zero_le _
    · exact Nat.le_refl _
  · cases hf : ObjectSpace.firstRevision ord si pkg m with
    | none =>
      dsimp only
      split <;> exact Nat.zero_le _
    | some r =>
      dsimp only
      refine bind_le (n := 0) ?_ fun _ _ => Nat.le_refl 0
      refine follow_steps _ [] _ _ _ .nil (fun v hv => (nomatch hv)) ?_
      intro he
      apply h
      unfold ObjectSpace.parse ObjectSpace.parseFuel
      simp only [hf, he]

theorem objectSpace_steps {ord : Order} {c : CellId} {si : StorageIndex} {pkg : Package}
    (h : Store.parseObjectSpace ord c si pkg ≠ .error .fuel) :
    (Store.parseObjectSpaceCounted ord c si pkg).steps ≤ perCell si pkg := by
  unfold Store.parseObjectSpaceCounted
  unfold Store.parseObjectSpace at h
  cases hm : Map.get? si.cellMappings c with
  | none => exact Nat.zero_le _
  | some m =>
    rw [hm] at h
    exact space_steps h

theorem addSpace_steps {ord : Order} {si : StorageIndex} {pkg : Package} {done : List CellId}
    {spaces : Map CellId ObjectSpace} {m : CellMapping}
    (h : Store.addSpace ord si pkg done spaces m ≠ .error .fuel) :
    (Store.addSpaceCounted ord si pkg done spaces m).steps ≤ 1 + perCell si pkg := by
  unfold Store.addSpaceCounted
  rw [tick_bind]
  refine Nat.add_le_add_left ?_ 1
  unfold Store.addSpace at h
  split
  · exact Nat.zero_le _
  · rename_i h1
    rw [if_neg h1] at h
    split
    · exact Nat.zero_le _
    · rename_i h2
      rw [if_neg h2] at h
      refine bind_le (n := 0) (objectSpace_steps ?_) fun _ _ => Nat.le_refl 0
      intro he
      rw [he] at h
      exact h rfl

theorem addSpaces_steps {ord : Order} {si : StorageIndex} {pkg : Package} {done : List CellId}
    (l : List CellMapping) (spaces : Map CellId ObjectSpace)
    (h : l.foldlM (Store.addSpace ord si pkg done) spaces ≠ .error .fuel) :
    (l.foldlM (Store.addSpaceCounted ord si pkg done) spaces).steps ≤
      l.length * (1 + perCell si pkg) := by
  induction l generalizing spaces with
  | nil => exact Nat.zero_le _
  | cons m l ih =>
    rw [List.foldlM_cons] at h
    rw [List.foldlM_cons, List.length_cons, Nat.add_mul, Nat.one_mul, Nat.add_comm (l.length * _)]
    refine bind_le (addSpace_steps ?_) fun s hs => ih s ?_
    · intro he
      rw [he] at h
      exact h rfl
    · rw [addSpace_result] at hs
      rw [hs] at h
      exact h

/-! ### The store -/

theorem findSteps_le {ord : Order} {pkg : Package} {cell : ExGuid} {si : StorageIndex} :
    Store.findSteps ord pkg cell si ≤ si.cellMappings.length + si.revisionMappings.length +
      sizeMap sizeRevisionManifest pkg.revisionManifests := by
  have hm : ∀ r m, pkg.findRevisionManifest r = some m →
      m.groupReferences.length ≤ sizeMap sizeRevisionManifest pkg.revisionManifests := by
    intro r m hm
    have := Map.mem_of_get? hm
    revert this
    generalize pkg.revisionManifests = l
    intro hl
    unfold sizeMap
    induction l with
    | nil => cases hl
    | cons e l ih =>
      rw [List.map_cons, List.sum_cons]
      rcases List.mem_cons.1 hl with rfl | hl
      · dsimp only [sizeRevisionManifest]; omega
      · have := ih hl; omega
  unfold Store.findSteps
  split
  · rename_i r _
    cases h : pkg.findRevisionManifest r with
    | none => exact Nat.zero_le _
    | some m =>
      have := hm r m h
      simp only [Option.map_some, Option.getD_some]
      omega
  · refine Nat.add_le_add_left ?_ _
    cases h : pkg.findObjects ord cell si with
    | error e => exact Nat.zero_le _
    | ok gs =>
      unfold Package.findObjects at h
      dsimp only at h
      split at h
      · cases h
      · rename_i r _
        split at h
        · cases h
        · rename_i m hr
          have h1 := hm r m hr
          have h2 : ∀ (f : ExGuid → Res ObjectGroup) (l : List ExGuid) (gs : List ObjectGroup),
              l.mapM f = .ok gs → gs.length = l.length := by
            intro f l
            induction l with
            | nil => intro gs h; cases h; rfl
            | cons a l ih =>
              intro gs h
              rw [List.mapM_cons] at h
              cases ha : f a with
              | error e => rw [ha] at h; cases h
              | ok b =>
                rw [ha] at h
                cases hl : l.mapM f with
                | error e => rw [hl] at h; cases h
                | ok bs =>
                  rw [hl] at h
                  cases h
                  simp [ih bs hl]
          have h3 := h2 _ _ _ h
          show gs.length ≤ _
          omega

theorem values_length {K V : Type} (ord : Order) (n : Nat) (m : Map K V) :
    (m.values ord n).length = m.length := by
  unfold Map.values
  rw [List.length_map]
  exact (ord.isPerm n m).length_eq

theorem bind_ne {r : Res α} {f : α → Res β} {a : α} (h : (r >>= f) ≠ .error .fuel) (hr : r = .ok a) :
    f a ≠ .error .fuel := by
  rw [hr] at h
  exact h

theorem ne_bind {r : Res α} {f : α → Res β} (h : (r >>= f) ≠ .error .fuel) : r ≠ .error .fuel := by
  intro hr
  rw [hr] at h
  exact h rfl

theorem store_steps {ord : Order} {p : Packaging} (h : Store.parse ord p ≠ .error .fuel) :
    (Store.parseCounted ord p).steps = 0 ∨ ∃ i si, (i, si) ∈ p.package.storageIndexes ∧
      (Store.parseCounted ord p).steps ≤ si.cellMappings.length + si.revisionMappings.length +
        sizeMap sizeRevisionManifest p.package.revisionManifests +
        (perCell si p.package + si.cellMappings.length * (1 + perCell si p.package)) := by
  unfold Store.parseCounted
  unfold Store.parse at h
  cases hsi : Store.storageIndexOf ord p with
  | none => exact .inl rfl
  | some si =>
    rw [hsi] at h
    have hmem : ∃ i, (i, si) ∈ p.package.storageIndexes := by
      unfold Store.storageIndexOf at hsi
      cases h1 : p.package.findStorageIndexById p.storageIndex with
      | some si' =>
        rw [h1] at hsi
        cases hsi
        exact ⟨_, Map.mem_of_get? h1⟩
      | none =>
        rw [h1] at hsi
        have hsi : p.package.findStorageIndex ord = some si := hsi
        unfold Package.findStorageIndex Map.values at hsi
        have := List.mem_of_mem_head? hsi
        obtain ⟨e, he, rfl⟩ := List.mem_map.1 this
        exact ⟨e.1, (ord.isPerm _ _).mem_iff.1 he⟩
    obtain ⟨i, hi⟩ := hmem
    refine .inr ⟨i, si, hi, ?_⟩
    refine ofRes_le fun si' hsi' => ?_
    cases hsi'
    refine ofRes_le fun manifest h1 => ?_
    refine ofRes_le fun header h2 => ?_
    refine ofRes_le fun hm h3 => ?_
    rw [tick_bind]
    refine Nat.add_le_add findSteps_le ?_
    refine ofRes_le fun ho h4 => ?_
    refine ofRes_le fun hc h5 => ?_
    refine ofRes_le fun hd h6 => ?_
    refine ofRes_le fun dr h7 => ?_
    replace h := bind_ne h rfl
    replace h := bind_ne h h1
    replace h := bind_ne h h2
    replace h := bind_ne h h3
    replace h := bind_ne h h4
    replace h := bind_ne h h5
    replace h := bind_ne h h6
    replace h := bind_ne h h7
    refine bind_le (objectSpace_steps (ne_bind h)) fun d h8 => ?_
    rw [objectSpace_result] at h8
    replace h := bind_ne h h8
    refine bind_le (n := 0) ?_ fun _ _ => Nat.le_refl 0
    have := addSpaces_steps (si.cellMappings.values ord 4) [] (ne_bind h)
    rwa [values_length] at this

theorem arithmetic {n c m r s : Nat} (h : c + 1 + m + r + s ≤ n) :
    c + m + r + (m + (r * (2 * s + 1) + 1) + c * (1 + (m + (r * (2 * s + 1) + 1)))) ≤
      (n + 1) * (n + 1) * (n + 1) := by
  obtain ⟨y, rfl⟩ := Nat.exists_eq_add_of_le (show c + 1 ≤ n by omega)
  have hy : m + r + s ≤ y := by omega
  have h1 : r * (2 * s + 1) ≤ y * y + r := by
    have h2 : (r + s) * (r + s) ≤ y * y := Nat.mul_le_mul (by omega) (by omega)
    have h3 : (r + s) * (r + s) = r * r + 2 * (r * s) + s * s := by
      rw [Nat.add_mul, Nat.mul_add, Nat.mul_add, Nat.mul_comm s r]; omega
    have h4 : r * (2 * s + 1) = 2 * (r * s) + r := by
      rw [Nat.mul_add, Nat.mul_one, Nat.mul_left_comm]
    generalize r * s = a at *
    generalize r * r = b at *
    generalize s * s = d at *
    omega
  generalize hp : r * (2 * s + 1) = p at *
  have h5 : c * (1 + (m + (p + 1))) ≤ c * (y * y + y + 2) :=
    Nat.mul_le_mul_left c (by generalize y * y = z at *; omega)
  have h6 : c * (y * y + y + 2) = c * (y * y) + c * y + 2 * c := by
    rw [Nat.mul_add, Nat.mul_add, Nat.mul_comm c 2]
  generalize hn : c + 1 + y = n
  have hcy : y ≤ n ∧ c ≤ n := by omega
  have h7 : c * (y * y) ≤ n * n * n := by
    rw [Nat.mul_assoc]
    exact Nat.mul_le_mul hcy.2 (Nat.mul_le_mul hcy.1 hcy.1)
  have h8 : c * y ≤ n * n := Nat.mul_le_mul hcy.2 hcy.1
  have h9 : y * y ≤ n * n := Nat.mul_le_mul hcy.1 hcy.1
  have h10 : (n + 1) * (n + 1) * (n + 1) = n * n * n + 3 * (n * n) + 3 * n + 1 := by
    simp only [Nat.add_mul, Nat.mul_add, Nat.mul_one, Nat.one_mul]
    omega
  rw [h10]
  generalize n * n * n = a1 at *
  generalize n * n = a2 at *
  generalize c * (y * y) = a3 at *
  generalize c * y = a4 at *
  generalize y * y = a5 at *
  omega

/-- The steps are at most the cube of the size. -/
theorem file_steps {ord : Order} {data : Bytes} (h : readStore ord data ≠ .error .fuel) :
    (readStoreCounted ord data).steps ≤ (data.length + 1) * (data.length + 1) * (data.length + 1) := by
  unfold readStoreCounted
  refine ofRes_le fun p hp => ?_
  have hsize : sizePackage p.package ≤ data.length := by
    unfold P.run at hp
    split at hp
    · rename_i v rest hv
      cases hp
      have := Step.packaging _ _ _ hv
      simp only at this
      omega
    · cases hp
  have h : Store.parse ord p ≠ .error .fuel := by
    unfold readStore at h
    exact bind_ne h hp
  rcases store_steps h with h0 | ⟨i, si, hi, hs⟩
  · omega
  · refine Nat.le_trans hs ?_
    have hidx : sizeStorageIndex si + 1 ≤ sizeMap sizeStorageIndex p.package.storageIndexes := by
      revert hi
      generalize p.package.storageIndexes = l
      intro hl
      unfold sizeMap
      induction l with
      | nil => cases hl
      | cons e l ih =>
        rw [List.map_cons, List.sum_cons]
        rcases List.mem_cons.1 hl with rfl | hl
        · dsimp only; omega
        · have := ih hl; omega
    unfold perCell
    rw [allRevisions_eq]
    unfold perGroup
    refine arithmetic ?_
    have : sizeStorageIndex si =
      si.manifestMappings.length + si.cellMappings.length + si.revisionMappings.length := rfl
    unfold sizePackage at hsize
    omega

/-! ### At least so many steps -/

theorem le_bind {c : Counted α} {f : α → Counted β} {b : β} (h : (c >>= f).result = .ok b) :
    ∃ a, c.result = .ok a ∧ (f a).result = .ok b ∧ (c >>= f).steps = c.steps + (f a).steps := by
  rw [bind_result] at h
  cases hc : c.result with
  | error e => rw [hc] at h; cases h
  | ok a =>
    rw [hc] at h
    refine ⟨a, rfl, h, ?_⟩
    rw [bind_steps, hc]

theorem le_foldlM {f : σ → α → Counted σ} (w : α → Nat)
    (hw : ∀ s a s', (f s a).result = .ok s' → w a ≤ (f s a).steps) {l : List α} {s s' : σ}
    (h : (l.foldlM f s).result = .ok s') : (l.map w).sum ≤ (l.foldlM f s).steps := by
  induction l generalizing s with
  | nil => exact Nat.zero_le _
  | cons a l ih =>
    rw [List.foldlM_cons] at h ⊢
    obtain ⟨s1, h1, h2, h3⟩ := le_bind h
    rw [h3, List.map_cons, List.sum_cons]
    exact Nat.add_le_add (hw _ _ _ h1) (ih h2)

theorem le_parseGroup {ctx sid : ExGuid} {pkg : Package} {objects o1 : Objects} {gid : ExGuid}
    {g : ObjectGroup} (hg : pkg.objectGroups.get? gid = some g)
    (h : (Revision.parseGroupCounted ctx sid pkg objects gid).result = .ok o1) :
    g.declarations.length ≤ (Revision.parseGroupCounted ctx sid pkg objects gid).steps := by
  unfold Revision.parseGroupCounted at h ⊢
  obtain ⟨u, h1, h2, h3⟩ := le_bind h
  rw [h3]
  obtain ⟨g', h4, h5, h6⟩ := le_bind h2
  have : g' = g := by
    have h4 : orErr Err.malformedOneStore (pkg.objectGroups.get? gid) = .ok g' := h4
    rw [hg] at h4
    cases h4
    rfl
  subst this
  rw [h6]
  obtain ⟨u, h7, h8, h9⟩ := le_bind h5
  rw [h9]
  show _ ≤ 1 + (0 + (g'.declarations.length + _))
  omega

theorem le_revision {ctx sid : ExGuid} {si : StorageIndex} {pkg : Package} {r gid : ExGuid}
    {objects : Objects} {roots : Roots} {x : Option ExGuid × Objects × Roots}
    {m : RevisionManifest} {g : ObjectGroup} {n : Nat}
    (hm : pkg.revisionManifests.get? r = some m) (hr : m.groupReferences = List.replicate n gid)
    (hg : pkg.objectGroups.get? gid = some g)
    (h : (Revision.parseCounted ctx sid si pkg r objects roots).result = .ok x) :
    n * g.declarations.length ≤ (Revision.parseCounted ctx sid si pkg r objects roots).steps := by
  unfold Revision.parseCounted at h ⊢
  obtain ⟨u, -, h2, h3⟩ := le_bind h
  rw [h3]
  obtain ⟨m', h4, h5, h6⟩ := le_bind h2
  have : m' = m := by
    have h4 : orErr Err.malformedOneStore (pkg.revisionManifests.get? r) = .ok m' := h4
    rw [hm] at h4
    cases h4
    rfl
  subst this
  rw [h6]
  obtain ⟨b, h7, h8, h9⟩ := le_bind h5
  rw [h9]
  obtain ⟨u, -, h11, h12⟩ := le_bind h8
  rw [h12]
  obtain ⟨d, -, h14, h15⟩ := le_bind h11
  rw [h15]
  obtain ⟨o, h16, -, h18⟩ := le_bind h14
  rw [h18]
  have := le_foldlM (fun x => if x = gid then g.declarations.length else 0) (fun s a s' h => by
    split
    · rename_i e
      subst e
      exact le_parseGroup hg h
    · exact Nat.zero_le _) h16
  rw [hr] at this ⊢
  rw [List.map_replicate, if_pos rfl, List.sum_replicate_nat] at this
  omega

theorem le_space {ord : Order} {mp : CellMapping} {si : StorageIndex} {pkg : Package} {r gid : ExGuid}
    {x : CellId × ObjectSpace} {m : RevisionManifest} {g : ObjectGroup} {n : Nat}
    (hf : ObjectSpace.firstRevision ord si pkg mp = some r)
    (hm : pkg.revisionManifests.get? r = some m) (hr : m.groupReferences = List.replicate n gid)
    (hg : pkg.objectGroups.get? gid = some g)
    (h : (ObjectSpace.parseCounted ord mp si pkg).result = .ok x) :
    n * g.declarations.length ≤ (ObjectSpace.parseCounted ord mp si pkg).steps := by
  unfold ObjectSpace.parseCounted at h ⊢
  obtain ⟨u, -, h2, h3⟩ := le_bind h
  rw [h3]
  rw [hf] at h2 ⊢
  dsimp only at h2 ⊢
  obtain ⟨y, h4, -, h6⟩ := le_bind h2
  rw [h6]
  have : n * g.declarations.length ≤ (ObjectSpace.followCounted mp.cellId.fst mp.cellId.snd si pkg
      (pkg.revisionManifests.length + 1) (some r) [] []).steps := by
    unfold ObjectSpace.followCounted at h4 ⊢
    obtain ⟨z, h7, -, h9⟩ := le_bind h4
    rw [h9]
    exact Nat.le_trans (le_revision hm hr hg h7) (Nat.le_add_right _ _)
  omega

theorem le_addSpace {ord : Order} {mp : CellMapping} {si : StorageIndex} {pkg : Package}
    {r gid : ExGuid} {done : List CellId} {spaces s1 : Map CellId ObjectSpace} {m : RevisionManifest}
    {g : ObjectGroup} {n : Nat} (h0 : mp.id.isNil = false) (h1 : mp.cellId ∉ done)
    (hc : si.cellMappings.get? mp.cellId = some mp)
    (hf : ObjectSpace.firstRevision ord si pkg mp = some r)
    (hm : pkg.revisionManifests.get? r = some m) (hr : m.groupReferences = List.replicate n gid)
    (hg : pkg.objectGroups.get? gid = some g)
    (h : (Store.addSpaceCounted ord si pkg done spaces mp).result = .ok s1) :
    n * g.declarations.length ≤ (Store.addSpaceCounted ord si pkg done spaces mp).steps := by
  unfold Store.addSpaceCounted at h ⊢
  obtain ⟨u, -, h2, h3⟩ := le_bind h
  rw [h3]
  rw [h0, if_neg (by simp), if_neg h1] at h2 ⊢
  obtain ⟨y, h4, -, h6⟩ := le_bind h2
  rw [h6]
  unfold Store.parseObjectSpaceCounted at h4 ⊢
  rw [hc] at h4 ⊢
  have := le_space hf hm hr hg h4
  dsimp only at this ⊢
  omega

/-- If every cell of `copies` has a first revision that refers `n` times to the same group. -/
theorem le_store {ord : Order} {p : Packaging} {store : Store} {si : StorageIndex}
    (hsi : Store.storageIndexOf ord p = some si) (w : CellMapping → Nat)
    (hw : ∀ done spaces mp s1, p.package.findStorageManifest ord ≠ none →
      (∃ sm hc dc, p.package.findStorageManifest ord = some sm ∧ Store.findHeaderCellId sm = .ok hc ∧
        Store.findDataRootCellId sm = .ok dc ∧ done = [hc, dc]) →
      (Store.addSpaceCounted ord si p.package done spaces mp).result = .ok s1 →
      w mp ≤ (Store.addSpaceCounted ord si p.package done spaces mp).steps)
    (h : (Store.parseCounted ord p).result = .ok store) :
    ((si.cellMappings.map Prod.snd).map w).sum ≤ (Store.parseCounted ord p).steps := by
  unfold Store.parseCounted at h ⊢
  obtain ⟨si', a1, h, e⟩ := le_bind h
  rw [hsi] at a1
  cases a1
  rw [e]
  obtain ⟨sm, a2, h, e⟩ := le_bind h
  rw [e]
  obtain ⟨hc, a3, h, e⟩ := le_bind h
  rw [e]
  obtain ⟨_, -, h, e⟩ := le_bind h
  rw [e]
  obtain ⟨_, -, h, e⟩ := le_bind h
  rw [e]
  obtain ⟨_, -, h, e⟩ := le_bind h
  rw [e]
  obtain ⟨_, -, h, e⟩ := le_bind h
  rw [e]
  obtain ⟨_, -, h, e⟩ := le_bind h
  rw [e]
  obtain ⟨dc, a4, h, e⟩ := le_bind h
  rw [e]
  obtain ⟨_, -, h, e⟩ := le_bind h
  rw [e]
  obtain ⟨_, a5, h, e⟩ := le_bind h
  rw [e]
  have a2 : p.package.findStorageManifest ord = some sm := by
    have a2 : orErr Err.malformedOneStore (p.package.findStorageManifest ord) = .ok sm := a2
    cases hx : p.package.findStorageManifest ord with
    | none => rw [hx] at a2; cases a2
    | some y => rw [hx] at a2; cases a2; rfl
  have key := le_foldlM w (fun s a s' h => hw _ s a s' (by rw [a2]; simp) ⟨sm, hc, dc, a2, a3, a4, rfl⟩ h) a5
  have hperm : ((si.cellMappings.values ord 4).map w).sum =
      ((si.cellMappings.map Prod.snd).map w).sum := by
    unfold Map.values
    exact (((ord.isPerm 4 si.cellMappings).map _).map _).sum_nat
  rw [hperm] at key
  refine Nat.le_trans key ?_
  generalize (List.foldlM _ _ _ : Counted (Map CellId ObjectSpace)).steps = z
  omega

theorem readStore_steps {ord : Order} {data rest : Bytes} {p : Packaging} {store : Store}
    (hp : Packaging.parse data = .ok (p, rest)) (h : readStore ord data = .ok store) :
    (Store.parseCounted ord p).result = .ok store ∧
      (readStoreCounted ord data).steps = (Store.parseCounted ord p).steps := by
  have hr : Packaging.parse.run data = .ok p := by
    unfold P.run
    rw [hp]
  unfold readStore at h
  unfold readStoreCounted
  rw [hr] at h ⊢
  refine ⟨?_, ?_⟩
  · rw [store_result]
    exact h
  · rw [bind_steps]
    exact Nat.zero_add _

end OneNote.Steps
