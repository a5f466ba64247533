/-
Helper lemmas for references.
-/
import Verif.Lemmas.MappingTable
import Verif.Lemmas.Lookup
import Verif.Lemmas.PropSetGood
import Verif.Spec.References

namespace OneNote

open Spec

/-- The two weights of a stream. -/
def Spec.Stream.obj (s : Stream) : Nat := if s = .objects then 1 else 0
def Spec.Stream.spc (s : Stream) : Nat := if s = .spaces then 1 else 0

theorem Stream.obj_mul (s : Stream) (n : Nat) : s.obj * n = if s = .objects then n else 0 := by
  cases s <;> simp [Spec.Stream.obj]

theorem Stream.spc_mul (s : Stream) (n : Nat) : s.spc * n = if s = .spaces then n else 0 := by
  cases s <;> simp [Spec.Stream.spc]

mutual
theorem references_eq (s : Stream) (v : PropertyValue) (h : SingleSetsFree s v) :
    PropertyValue.references s.obj s.spc v = idsUsed s v := by
  match v with
  | .empty | .bool _ | .u8 _ | .u16 _ | .u32 _ | .u64 _ | .vec _ | .contextId | .contextIds _ =>
    simp [PropertyValue.references, idsUsed]
  | .objectId => simp [PropertyValue.references, idsUsed, Spec.Stream.obj]
  | .objectIds n => simp [PropertyValue.references, idsUsed, Stream.obj_mul]
  | .objectSpaceId => simp [PropertyValue.references, idsUsed, Spec.Stream.spc]
  | .objectSpaceIds n => simp [PropertyValue.references, idsUsed, Stream.spc_mul]
  | .propertyValues _ sets =>
    rw [PropertyValue.references, idsUsed]
    exact referencesSets_eq s sets h
  | .propertySet set =>
    rw [PropertyValue.references, idsUsed]
    · exact Eq.symm h
    all_goals simp

theorem referencesSets_eq (s : Stream) (x : List (List (Nat × (Nat × PropertyValue))))
    (h : SingleSetsFreeSets s x) :
    PropertyValue.referencesSets s.obj s.spc x = idsUsedSets s x := by
  match x with
  | [] => simp [PropertyValue.referencesSets, idsUsedSets]
  | a :: x =>
    rw [PropertyValue.referencesSets, idsUsedSets, referencesSet_eq s a h.1,
      referencesSets_eq s x h.2]

theorem referencesSet_eq (s : Stream) (x : List (Nat × (Nat × PropertyValue)))
    (h : SingleSetsFreeSet s x) :
    PropertyValue.referencesSet s.obj s.spc x = idsUsedSet s x := by
  match x with
  | [] => simp [PropertyValue.referencesSet, idsUsedSet]
  | (_, _, v) :: x =>
    rw [PropertyValue.referencesSet, idsUsedSet, references_eq s v h.1, referencesSet_eq s x h.2]
end

/-- A list with distinct keys is its own map. -/
theorem Map.extend_of_nodup {K V : Type} [DecidableEq K] (m es : List (K × V))
    (h : ((m ++ es).map Prod.fst).Nodup) : Map.extend m es = m ++ es := by
  induction es generalizing m with
  | nil => simp [Map.extend]
  | cons e es ih =>
    obtain ⟨k, v⟩ := e
    show Map.extend (Map.insert m k v) es = _
    have hi : Map.insert m k v = m ++ [(k, v)] := by
      unfold Map.insert
      congr 1
      rw [List.filter_eq_self]
      intro a ha
      simp only [decide_eq_true_eq]
      rintro rfl
      rw [List.map_append, List.nodup_append] at h
      exact h.2.2 a.1 (List.mem_map_of_mem ha) a.1 (by simp) rfl
    rw [hi, ih _ (by simpa using h)]
    simp

theorem setOf_distinct {es : List (Nat × PropertyValue)} (h : DistinctIds es) :
    setOf es = es.zipIdx.map fun e => (e.1.1, (e.2, e.1.2)) := by
  unfold setOf Map.ofList
  rw [Map.extend_of_nodup]
  · simp
  · rw [List.nil_append, List.map_map]
    have : (Prod.fst ∘ fun (e : (Nat × PropertyValue) × Nat) => (e.1.1, (e.2, e.1.2))) =
      Prod.fst ∘ Prod.fst := rfl
    rw [this, ← List.map_map, List.zipIdx_map_fst]
    exact h

theorem zipIdx_filter_lt (es : List (Nat × PropertyValue)) (i k : Nat) (hk : i + es.length ≤ k) :
    (es.zipIdx i).filter (fun e => decide (e.2 < k)) = es.zipIdx i := by
  rw [List.filter_eq_self]
  intro a ha
  have := List.snd_lt_of_mem_zipIdx ha
  simp; omega

theorem zipIdx_filter_ge (es : List (Nat × PropertyValue)) (i k : Nat) (hk : k ≤ i) :
    (es.zipIdx i).filter (fun e => decide (e.2 < k)) = [] := by
  rw [List.filter_eq_nil_iff]
  intro a ha
  have := List.le_snd_of_mem_zipIdx ha
  simp; omega

/-- The properties before the asked one. -/
theorem predecessors_eq {o : Object} {t : PropertyType} {pre post : List (Nat × PropertyValue)}
    {v : PropertyValue}
    (hp : o.props.properties = setOf (pre ++ (t.code % 2 ^ 26, v) :: post))
    (hd : DistinctIds (pre ++ (t.code % 2 ^ 26, v) :: post)) :
    o.props.get t = some v ∧ predecessors t o = .ok (pre.map Prod.snd) := by
  have hpost : ∀ e ∈ post, e.1 ≠ t.code % 2 ^ 26 := by
    intro e he h
    unfold DistinctIds at hd
    rw [List.map_append, List.nodup_append, List.map_cons, List.nodup_cons] at hd
    exact hd.2.1.1 (List.mem_map.mpr ⟨e, he, h⟩)
  have hg := (setOf_get?_some (es := pre ++ (t.code % 2 ^ 26, v) :: post)
    (k := t.code % 2 ^ 26) (i := pre.length) (v := v)).mpr ⟨pre, post, rfl, rfl, hpost⟩
  constructor
  · unfold ObjectPropSet.get PropertySet.get PropertyId.id
    rw [and_3ffffff, hp, show (67108864 : Nat) = 2 ^ 26 from rfl, hg]
    rfl
  · unfold predecessors PropertySet.index PropertyId.id
    rw [and_3ffffff, hp, show (67108864 : Nat) = 2 ^ 26 from rfl, hg]
    simp only [Option.map_some]
    congr 1
    rw [setOf_distinct hd, List.filter_map, List.zipIdx_append, List.filter_append,
      List.zipIdx_cons, List.filter_cons]
    have h1 : ((fun (e : Nat × (Nat × PropertyValue)) => decide (e.2.1 < pre.length)) ∘
        fun (e : (Nat × PropertyValue) × Nat) => (e.1.1, (e.2, e.1.2))) =
        fun e => decide (e.2 < pre.length) := rfl
    rw [h1, zipIdx_filter_lt _ _ _ (by omega), zipIdx_filter_ge _ _ _ (by omega)]
    simp only [Nat.zero_add, Nat.lt_irrefl, decide_false, Bool.false_eq_true, if_false,
      List.append_nil, List.map_map]
    have h2 : ((fun (e : Nat × (Nat × PropertyValue)) => e.2.2) ∘
        fun (e : (Nat × PropertyValue) × Nat) => (e.1.1, (e.2, e.1.2))) = Prod.snd ∘ Prod.fst := rfl
    rw [h2, ← List.map_map, List.zipIdx_map_fst]

theorem countRefs_eq (s : Stream) (es : List (Nat × PropertyValue))
    (h : ∀ e ∈ es, SingleSetsFree s e.2) :
    ((es.map Prod.snd).map (PropertyValue.references s.obj s.spc)).sum = idsUsedBy s es := by
  unfold idsUsedBy
  rw [List.map_map]
  congr 1
  refine List.map_congr_left fun e he => ?_
  exact references_eq s e.2 (h e he)

theorem objectOffset_eq {o : Object} {t : PropertyType} {pre post : List (Nat × PropertyValue)}
    {v : PropertyValue}
    (hp : o.props.properties = setOf (pre ++ (t.code % 2 ^ 26, v) :: post))
    (hd : DistinctIds (pre ++ (t.code % 2 ^ 26, v) :: post))
    (hf : ∀ e ∈ pre, SingleSetsFree .objects e.2) :
    ObjectReference.getOffset t o = .ok (idsUsedBy .objects pre) := by
  unfold ObjectReference.getOffset
  rw [(predecessors_eq hp hd).2]
  exact congrArg Except.ok (countRefs_eq .objects pre hf)

theorem spaceOffset_eq {o : Object} {t : PropertyType} {pre post : List (Nat × PropertyValue)}
    {v : PropertyValue}
    (hp : o.props.properties = setOf (pre ++ (t.code % 2 ^ 26, v) :: post))
    (hd : DistinctIds (pre ++ (t.code % 2 ^ 26, v) :: post))
    (hf : ∀ e ∈ pre, SingleSetsFree .spaces e.2) :
    ObjectSpaceReference.getOffset t o = .ok (idsUsedBy .spaces pre) := by
  unfold ObjectSpaceReference.getOffset
  rw [(predecessors_eq hp hd).2]
  exact congrArg Except.ok (countRefs_eq .spaces pre hf)

/-- Walking over a slice of a list by position. -/
theorem filterMap_slice {α β : Type} (l : List α) (off n : Nat) (f : Nat → α → Option β) :
    (((l.drop off).take n).zipIdx.filterMap fun e => f (e.2 + off) e.1) =
      (List.range n).filterMap fun j => l[off + j]?.bind (f (off + j)) := by
  induction n with
  | zero => simp
  | succ n ih =>
    rw [List.range_succ, List.filterMap_append, ← ih, List.take_add_one, List.zipIdx_append,
      List.filterMap_append]
    congr 1
    rw [List.getElem?_drop]
    cases hx : l[off + n]? with
    | none => simp [hx]
    | some x =>
      have hlt : off + n < l.length := (List.getElem?_eq_some_iff.mp hx).1
      have hlen : ((l.drop off).take n).length = n := by
        rw [List.length_take, List.length_drop]; omega
      rw [hlen]
      simp only [Option.toList_some, List.zipIdx_cons, List.zipIdx_nil, List.filterMap_cons,
        List.filterMap_nil, Nat.zero_add, hx, Option.bind_some]
      rw [Nat.add_comm n off]

/-- What reading an object from a group gives. -/
theorem object_parse_ok {id ctx sid : ExGuid} {objects : GroupMap} {pkg : Package} {o : Object}
    (h : Object.parse id ctx sid objects pkg = .ok o) :
    ∃ refs cells data, objects.get? (id, 1) = some (.object refs cells data) ∧
      ObjectPropSet.parse.run data = .ok o.props ∧
      refs.length ≤ o.props.objectIds.length ∧
      o.props.contextIds.length + o.props.objectSpaceIds.length = cells.length ∧
      o.contextId = ctx ∧
      o.mapping = Object.mappingOf o.props sid refs cells := by
  unfold Object.parse Object.findObject Object.partitionMetadata Object.partitionObjectData at h
  cases h4 : Map.get? objects (id, 4) with
  | none => rw [h4] at h; cases h
  | some m =>
  cases h1 : Map.get? objects (id, 1) with
  | none => rw [h4, h1] at h; cases h
  | some d =>
  rw [h4, h1] at h
  cases m with
  | excluded => cases h
  | blobReference => cases h
  | object g c md =>
  cases d with
  | excluded => cases hj : JcId.parse.run md <;> simp [orErr, hj, bind, Except.bind] at h
  | blobReference => cases hj : JcId.parse.run md <;> simp [orErr, hj, bind, Except.bind] at h
  | object refs cells data =>
  refine ⟨refs, cells, data, rfl, ?_⟩
  simp only [orErr, bind, Except.bind, pure, Except.pure] at h
  cases hj : JcId.parse.run md with
  | error e => rw [hj] at h; cases h
  | ok jc =>
  cases hp : ObjectPropSet.parse.run data with
  | error e => rw [hj, hp] at h; cases h
  | ok props =>
  rw [hj, hp] at h
  simp only at h
  cases hb : Object.findBlobId id objects with
  | error e => rw [hb] at h; cases h
  | ok b =>
  rw [hb] at h
  simp only at h
  split at h
  · cases h
  · split at h
    · cases h
    · split at h
      · cases h
      · cases h
        exact ⟨rfl, by show _ ≤ props.objectIds.length; omega, by show props.contextIds.length + props.objectSpaceIds.length = _; omega, rfl, rfl⟩

/-- An object read from a file has the streams and properties that were written. -/
theorem object_from_file {id ctx sid : ExGuid} {objects : GroupMap} {pkg : Package}
    {o : Object} {refs : List ExGuid} {cells : List CellId} {data : Bytes}
    {oids osids ctxs : List CompactId} {es : List (Nat × PropertyValue)}
    (ho : Object.parse id ctx sid objects pkg = .ok o)
    (hg : objects.get? (id, 1) = some (.object refs cells data))
    (hb : ObjectPropSetEnc oids osids ctxs es data)
    (h1 : oids.length < 2 ^ 24 ∧ ∀ c ∈ oids, CompactIdOk c)
    (h2 : osids.length < 2 ^ 24 ∧ ∀ c ∈ osids, CompactIdOk c)
    (h3 : ctxs.length < 2 ^ 24 ∧ ∀ c ∈ ctxs, CompactIdOk c) :
    o.props = ⟨oids, osids, ctxs, setOf es⟩ ∧
      o.mapping = Object.mappingOf ⟨oids, osids, ctxs, setOf es⟩ sid refs cells ∧
      ctxs.length + osids.length = cells.length := by
  obtain ⟨refs', cells', data', hg', hp', -, hl, -, hm⟩ := object_parse_ok ho
  rw [hg] at hg'
  cases hg'
  have hr := objectPropSet_reads hb h1 h2 h3 []
  rw [List.append_nil] at hr
  unfold P.run at hp'
  rw [hr] at hp'
  have hpr := (Except.ok.inj hp').symm
  refine ⟨hpr, by rw [hm, hpr], by rw [← hl, hpr]⟩

/-- Reading a list by positions from `off` on. -/
theorem filterMap_range {β : Type} (l : List β) (off n : Nat) :
    ((List.range n).filterMap fun j => l[off + j]?) = (l.drop off).take n := by
  induction n with
  | zero => simp
  | succ n ih =>
    rw [List.range_succ, List.filterMap_append, List.take_add_one, List.getElem?_drop, ih]
    cases h : l[off + n]? <;> simp [h]

theorem referencesSet_values (a b : Nat) (s : PropertySet) :
    (s.values.map (PropertyValue.references a b)).sum = PropertyValue.referencesSet a b s := by
  unfold PropertySet.values
  induction s with
  | nil => simp [PropertyValue.referencesSet]
  | cons e s ih =>
    obtain ⟨k, i, v⟩ := e
    rw [PropertyValue.referencesSet, ← ih]
    rfl

theorem mapM_cons_ok {α β : Type} {f : α → Res β} {a : α} {l : List α} {r : List β} :
    (a :: l).mapM f = .ok r ↔ ∃ b bs, f a = .ok b ∧ l.mapM f = .ok bs ∧ r = b :: bs := by
  rw [List.mapM_cons]
  cases f a with
  | error e => simp [bind, Except.bind]
  | ok b =>
    cases l.mapM f with
    | error e => simp [bind, Except.bind]
    | ok bs => simp [bind, Except.bind, pure, Except.pure, eq_comm]

theorem mapM_ok {α β : Type} (f : α → Res β) (g : α → β) (l : List α)
    (h : ∀ a ∈ l, f a = .ok (g a)) : l.mapM f = .ok (l.map g) := by
  induction l with
  | nil => rfl
  | cons a l ih =>
    rw [List.mapM_cons, h a (by simp), ih fun x hx => h x (List.mem_cons_of_mem _ hx)]
    rfl

/-- An object id at a position that has a reference resolves to that reference. -/
theorem mapping_object {props : ObjectPropSet} {sid : ExGuid} {refs : List ExGuid}
    {cells : List CellId} {p : Nat} {c : CompactId} {x : ExGuid}
    (hc : props.objectIds[p]? = some c) (hx : refs[p]? = some x) :
    (Object.mappingOf props sid refs cells).getObject p c = some x := by
  unfold Object.mappingOf MappingTable.getObject MappingTable.fromEntries
  apply MappingTable.lookup_at
  have hz : (props.objectIds.zip refs)[p]? = some (c, x) := by
    rw [List.getElem?_zip_eq_some]; exact ⟨hc, hx⟩
  rw [List.getElem?_append_left (List.getElem?_eq_some_iff.mp hz).1, hz]

end OneNote
