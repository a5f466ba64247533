/-
Object spaces without the objects that cannot be got to.
-/
import Verif.Lemmas.Reach
import Verif.Lemmas.Terminates
import Verif.Spec.ReachCycle

namespace OneNote.Pruned

open Spec Spec.Reach Spec.StoreContents

theorem get_filter (m : Objects) (keep : ExGuid → Bool) (id : ExGuid) :
    Map.get? (m.filter fun e => keep e.1) id = if keep id then m.get? id else none := by
  induction m with
  | nil => simp [Map.get?]
  | cons e m ih =>
    rw [List.filter_cons]
    by_cases he : e.1 = id
    · subst he
      by_cases hk : keep e.1
      · rw [if_pos hk, if_pos hk]
        simp [Map.get?]
      · rw [if_neg hk, if_neg hk, ih, if_neg hk]
    · by_cases hk : keep e.1
      · rw [if_pos hk]
        simp only [Map.get?, if_neg he, ih]
      · rw [if_neg hk, ih]
        simp only [Map.get?, if_neg he]

open Classical in
/-- Whether the object can be got to. -/
noncomputable def got (s : ObjectSpace) (id : ExGuid) : Bool := decide (Reachable s id)

theorem got_iff {s : ObjectSpace} {id : ExGuid} : got s id = true ↔ Reachable s id := by
  unfold got
  exact @decide_eq_true_iff _ (Classical.propDecidable _)

/-- The space without the objects that cannot be got to. -/
noncomputable def pruned (s : ObjectSpace) : ObjectSpace :=
  { s with objects := s.objects.filter fun e => got s e.1 }

theorem pruned_get {s : ObjectSpace} {id : ExGuid} :
    (pruned s).getObject id = if got s id then s.getObject id else none := get_filter _ _ _

theorem pruned_same (s : ObjectSpace) : SameReachable s (pruned s) :=
  ⟨fun _ => rfl, fun id h => by rw [pruned_get, if_pos (got_iff.2 h)]⟩

theorem child {s : ObjectSpace} {a b : ExGuid} (h : ChildOf (pruned s) a b) : Reachable s a ∧ ChildOf s a b := by
  obtain ⟨o, t, ids, h1, h2⟩ := h
  rw [pruned_get] at h1
  split at h1
  · rename_i hg
    exact ⟨got_iff.1 hg, o, t, ids, h1, h2⟩
  · cases h1

theorem descendant {s : ObjectSpace} {a b : ExGuid} (h : Descendant (pruned s) a b) :
    Reachable s a ∧ Descendant s a b := by
  induction h with
  | single h => exact ⟨(child h).1, .single (child h).2⟩
  | tail _ h ih => exact ⟨ih.1, .tail ih.2 (child h).2⟩

theorem pruned_acyclic {s : ObjectSpace} (h : NoCycle s) :
    Acyclic (pruned s) := fun id hd => h id (descendant hd).1 (descendant hd).2

theorem pruned_length (s : ObjectSpace) : (pruned s).objects.length ≤ s.objects.length :=
  List.length_filter_le _ _

/-- All pages without the objects that cannot be got to. -/
noncomputable def prunedStore (store : Store) : Store :=
  { store with objectSpaces := store.objectSpaces.map fun e => (e.1, pruned e.2) }

theorem get_map {K V : Type} [DecidableEq K] (m : Map K V) (f : V → V) (k : K) :
    Map.get? (List.map (fun e => (e.1, f e.2)) m) k = (Map.get? m k).map f := by
  induction m with
  | nil => rfl
  | cons e m ih =>
    by_cases he : e.1 = k
    · simp [Map.get?, he]
    · simp only [List.map_cons, Map.get?, if_neg he]
      exact ih

theorem prunedStore_get {store : Store} {c : CellId} :
    (prunedStore store).objectSpace c = (store.objectSpace c).map pruned := get_map _ _ _

theorem prunedStore_same (store : Store) : SameReachableStore store (prunedStore store) := by
  refine ⟨⟨fun _ => rfl, fun _ _ => rfl⟩, fun c => ?_⟩
  have := prunedStore_get (store := store) (c := c)
  unfold Store.objectSpace at this
  rw [this]
  cases store.objectSpaces.get? c with
  | none => exact trivial
  | some s => exact pruned_same s

theorem prunedStore_count (store : Store) : objectCount (prunedStore store) ≤ objectCount store := by
  unfold objectCount prunedStore
  rw [List.map_map]
  show (List.map _ store.objectSpaces).sum ≤ _
  generalize store.objectSpaces = l
  induction l with
  | nil => exact Nat.le_refl _
  | cons e l ih =>
    simp only [List.map_cons, List.sum_cons]
    exact Nat.add_le_add (pruned_length e.2) ih

theorem section_noFuel {store : Store} (ha : ∀ cell space, store.objectSpace cell = some space →
      NoCycle space) (name : Text) (n : Nat)
    (hn : objectCount store < n) : parseSectionStore n store name ≠ .error .fuel := by
  rw [section_reach (prunedStore_same store)]
  have hc : ∀ cell space, (prunedStore store).objectSpace cell = some space → Acyclic space := by
    intro cell space h
    rw [prunedStore_get] at h
    obtain ⟨s, hs, rfl⟩ := Option.map_eq_some_iff.1 h
    exact pruned_acyclic (ha cell s hs)
  have h := OneNote.section_noFuel hc name
  have hle : objectCount (prunedStore store) + 1 ≤ n := by
    have := prunedStore_count store
    omega
  rcases refines_section hle (prunedStore store) name with h' | h'
  · exact absurd h' h
  · rw [← h']
    exact h

theorem toc_noFuel {space : ObjectSpace} (ha : NoCycle space)
    (n : Nat) (hn : space.objects.length < n) : parseToc n space ≠ .error .fuel := by
  rw [toc_reach (pruned_same space)]
  have h := OneNote.toc_noFuel (pruned_acyclic ha)
  have hle : (pruned space).objects.length + 1 ≤ n := by
    have := pruned_length space
    omega
  rcases refines_toc (pruned space) hle with h' | h'
  · exact absurd h' h
  · rw [← h']
    exact h

theorem terminates_section {store : Store} (ha : ∀ cell space, store.objectSpace cell = some space →
      NoCycle space) (name : Text) : Terminates fun n => parseSectionStore n store name :=
  Terminates.of_refines (fun _ _ h => refines_section h store name)
    (section_noFuel ha name _ (Nat.lt_succ_self _))

theorem terminates_toc {space : ObjectSpace} (ha : NoCycle space) : Terminates fun n => parseToc n space :=
  Terminates.of_refines (fun _ _ h => refines_toc space h) (toc_noFuel ha _ (Nat.lt_succ_self _))

theorem terminates_sectionFile (env : Env)
    (hs : ∀ p data, env.fs.read p = some data → readStore env.ord data ≠ .error .fuel ∧
      ∀ store, readStore env.ord data = .ok store → NoCycleStore store) (path : Path) :
    Terminates fun n => parseSectionFile (env.more n) path := by
  refine Terminates.bind (f := fun _ => orErr .io (env.fs.read path))
    (g := fun n data => readStore env.ord data >>= fun store =>
    if store.schema ≠ sectionSchema then .error .notASectionFile else
      orErr .invalidPath path.fileName >>= fun name => parseSectionStore n store name)
    (Terminates.const (Fine.orErr (by simp) (by simp)).1) fun data hd => ?_
  obtain ⟨k, hd⟩ := hd
  have hd := orErr_some (hd k (Nat.le_refl k))
  refine Terminates.bind (Terminates.const (hs path data hd).1) fun store ht => ?_
  obtain ⟨k, ht⟩ := ht
  have ht := ht k (Nat.le_refl k)
  by_cases hsch : store.schema ≠ sectionSchema
  · simp only [if_pos hsch]
    exact Terminates.const (by simp)
  · simp only [if_neg hsch]
    refine Terminates.bind (Terminates.const (Fine.orErr (by simp) (by simp)).1) fun name _ => ?_
    exact terminates_section ((hs path data hd).2 store ht).2 name

theorem terminates_notebook (env : Env) (limit : Nat)
    (hl : ∀ p : Path, limit < p.length → env.fs.read p = none)
    (hs : ∀ p data, env.fs.read p = some data → readStore env.ord data ≠ .error .fuel ∧
      ∀ store, readStore env.ord data = .ok store → NoCycleStore store)
    (m : Nat) (path : Path) (hm : limit < path.length + m) :
    Terminates fun n => parseNotebook (env.more n) n path := by
  induction m generalizing path with
  | zero =>
    refine Terminates.shift ?_
    have : ∀ n, parseNotebook (env.more (n + 1)) (n + 1) path = .error .io := by
      intro n
      unfold parseNotebook
      show (orErr .io (env.fs.read path) >>= _) = _
      rw [hl path (by omega)]
      rfl
    simp only [this]
    exact Terminates.const (by simp)
  | succ m ih =>
    refine Terminates.shift ?_
    refine Terminates.bind (f := fun _ => orErr .io (env.fs.read path))
      (g := fun n data => readStore env.ord data >>= fun store =>
      if store.schema ≠ tocSchema then .error .notATocFile else
      orErr .invalidPath path.parent >>= fun baseDir =>
      parseToc (n + 1) store.dataRoot >>= fun x =>
      x.1.mapM (resolveEntryPath env.fs env.sanitise baseDir) >>= fun paths =>
      (paths.filter (keepEntry env)).mapM
        (parseEntry (parseNotebook (env.more (n + 1)) n) (env.more (n + 1))) >>= fun entries =>
      pure ({ entries, color := x.2 } : Notebook))
      (Terminates.const (Fine.orErr (by simp) (by simp)).1) fun data hd => ?_
    obtain ⟨k, hd⟩ := hd
    have hd := orErr_some (hd k (Nat.le_refl k))
    refine Terminates.bind (Terminates.const (hs path data hd).1) fun store ht => ?_
    obtain ⟨k, ht⟩ := ht
    have ht := ht k (Nat.le_refl k)
    by_cases hsch : store.schema ≠ tocSchema
    · simp only [if_pos hsch]
      exact Terminates.const (by simp)
    simp only [if_neg hsch]
    refine Terminates.bind (Terminates.const (Fine.orErr (by simp) (by simp)).1) fun base hb => ?_
    obtain ⟨k, hb⟩ := hb
    have hb := parent_length (orErr_some (hb k (Nat.le_refl k)))
    refine Terminates.bind (Terminates.next
      (terminates_toc ((hs path data hd).2 store ht).1)) fun x _ => ?_
    refine Terminates.bind (Terminates.const
      (Fine.mapM _ fun e _ => Fine.resolveEntryPath _ _ _ e).1) fun paths hp => ?_
    obtain ⟨k, hp⟩ := hp
    have hp := hp k (Nat.le_refl k)
    refine Terminates.bind (Terminates.mapM _ fun p hpm => ?_) fun _ _ =>
      Terminates.const (by intro h; cases h)
    obtain ⟨e, _, he⟩ := each_mem (mapM_each.1 hp) (List.mem_filter.1 hpm).1
    obtain ⟨⟨names, hne, -, rfl⟩, -⟩ := resolveEntryPath_ok he
    have hn := List.length_pos_iff.mpr hne
    unfold parseEntry
    by_cases hf : env.fs.isFile (base ++ names.map .normal) = true
    · have : ∀ n, (env.more n).fs.isFile (base ++ names.map .normal) = true := fun _ => hf
      simp only [if_pos (this _)]
      exact Terminates.map (Terminates.next (terminates_sectionFile env hs _))
    · have : ∀ n, ¬ (env.more n).fs.isFile (base ++ names.map .normal) = true := fun _ => hf
      simp only [if_neg (this _)]
      refine Terminates.map ?_
      refine Terminates.bind (f := fun _ => orErr .invalidPath _)
        (Terminates.const (Fine.orErr (by simp) (by simp)).1) fun _ _ => ?_
      refine Terminates.bind (f := fun _ => orErr .io (env.fs.readDir _))
        (Terminates.const (Fine.orErr (by simp) (by simp)).1) fun listing _ => ?_
      refine Terminates.bind (f := fun _ => findToc _ listing)
        (Terminates.const (Fine.findToc _ _).1) fun toc hk => ?_
      obtain ⟨k, hk⟩ := hk
      obtain ⟨stem, _, rfl, _⟩ := findToc_ok (hk k (Nat.le_refl k))
      refine Terminates.bind ?_ fun _ _ => Terminates.const (by intro h; cases h)
      obtain ⟨k, r, hr, hk⟩ := ih (base ++ names.map .normal ++
        [.normal (stem ++ ".onetoc2".toList)]) (by
          simp only [List.length_append, List.length_map, List.length_cons, List.length_nil]
          omega)
      refine ⟨k, r, hr, fun n hn => ?_⟩
      have h1 := hk k (Nat.le_refl k)
      rcases refines_notebook env (a := k) (b := n + 1) (m := k) (n := n) (by omega) hn
        (base ++ names.map .normal ++ [.normal (stem ++ ".onetoc2".toList)]) with h2 | h2
      · exact absurd (h1.symm.trans h2) hr
      · exact h2.symm.trans h1

/-! ### Checking that a store has no cycle -/

/-- All objects that this one refers to are in the set. -/
def refersInto (set : List ExGuid) (o : Object) : Bool :=
  o.mapping.objects.all fun e => e.2.all fun r => decide (r.2 ∈ set)

/-- Its children are in the set, and of a lower rank. -/
def childrenIn (set : List ExGuid) (rank : ExGuid → Nat) (id : ExGuid) (o : Object) : Bool :=
  [PropertyType.elementChildNodes, .contentChildNodes, .tocChildren].all fun t =>
    match ObjectReference.parseVec t o with
    | .ok (some ids) => ids.all fun b => decide (rank b < rank id ∧ b ∈ set)
    | _ => true

/-- The roots are in the set, and the two conditions hold for its objects. -/
def rankedIn (set : List ExGuid) (rank : ExGuid → Nat) (space : ObjectSpace) : Bool :=
  space.roots.all (fun r => decide (r.2 ∈ set)) && space.objects.all fun x =>
    !decide (x.1 ∈ set) || (refersInto set x.2 && childrenIn set rank x.1 x.2)

theorem noCycle_of {set : List ExGuid} {rank : ExGuid → Nat} {space : ObjectSpace}
    (h : rankedIn set rank space = true) : NoCycle space := by
  rw [rankedIn, Bool.and_eq_true] at h
  obtain ⟨hr, ho⟩ := h
  have object : ∀ a o, space.getObject a = some o → a ∈ set →
      refersInto set o = true ∧ childrenIn set rank a o = true := fun a o h1 h2 => by
    have := List.all_eq_true.mp ho (a, o) (Map.mem_of_get? h1)
    rw [Bool.or_eq_true] at this
    rcases this with h | h
    · simp [h2] at h
    · exact Bool.and_eq_true_iff.1 h
  have reach : ∀ id, Reachable space id → id ∈ set := by
    intro id h
    induction h with
    | root h => exact of_decide_eq_true (List.all_eq_true.mp hr _ (Map.mem_of_get? h))
    | step _ h1 h2 ih =>
      obtain ⟨cid, entries, h3, h4⟩ := h2
      obtain ⟨r, h5, rfl⟩ := List.mem_map.1 h4
      have := List.all_eq_true.mp (object _ _ h1 ih).1 _ (Map.mem_of_get? h3)
      exact of_decide_eq_true (List.all_eq_true.mp this r h5)
  have step : ∀ a b, a ∈ set → ChildOf space a b → rank b < rank a ∧ b ∈ set := by
    rintro a b ha ⟨o, t, ids, h1, ht, hr, hb⟩
    have := List.all_eq_true.mp (object a o h1 ha).2 t ht
    rcases hr with hr | ⟨_, rfl⟩
    · rw [hr] at this
      exact of_decide_eq_true (List.all_eq_true.mp this b hb)
    · cases hb
  intro id hid hd
  have key : ∀ b, Descendant space id b → rank b < rank id ∧ b ∈ set := by
    intro b hb
    induction hb with
    | single h => exact step _ _ (reach id hid) h
    | tail _ h ih => exact ⟨Nat.lt_trans (step _ _ ih.2 h).1 ih.1, (step _ _ ih.2 h).2⟩
  exact Nat.lt_irrefl _ (key id hd).1

theorem noCycleStore_of {set : List ExGuid} {rank : ExGuid → Nat} {store : Store}
    (h : (rankedIn set rank store.dataRoot && store.objectSpaces.all fun s => rankedIn set rank s.2) = true) :
    NoCycleStore store := by
  rw [Bool.and_eq_true] at h
  exact ⟨noCycle_of h.1, fun cell space hc =>
    noCycle_of (List.all_eq_true.mp h.2 _ (Map.mem_of_get? hc))⟩

theorem noCycleStore_of_acyclic {store : Store} (h : AcyclicStore store) : NoCycleStore store :=
  ⟨fun id _ => h.1 id, fun cell space hc id _ => h.2 cell space hc id⟩

end OneNote.Pruned
