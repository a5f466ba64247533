/-
Objects whose references move along with their properties have the same fields.
-/
import Verif.Lemmas.SameObjects
import Verif.Lemmas.MappingTable
import Verif.Spec.StoreContents

namespace OneNote.Same

open Spec Spec.Fields Spec.Objects Spec.StoreContents

theorem count_unique {α : Type} [BEq α] [LawfulBEq α] {l : List α} {a : α} (h : l.count a ≤ 1)
    {i j : Nat} (hi : l[i]? = some a) (hj : l[j]? = some a) : i = j := by
  induction l generalizing i j with
  | nil => cases hi
  | cons x l ih =>
    rw [List.count_cons] at h
    have pos : ∀ {k : Nat}, l[k]? = some a → 0 < l.count a := fun hk =>
      List.count_pos_iff.2 (List.mem_of_getElem? hk)
    cases i with
    | zero =>
      simp only [List.getElem?_cons_zero, Option.some.injEq] at hi
      cases j with
      | zero => rfl
      | succ j =>
        have := pos (k := j) (by simpa using hj)
        simp [hi] at h
        omega
    | succ i =>
      have hp := pos (k := i) (by simpa using hi)
      cases j with
      | zero =>
        simp only [List.getElem?_cons_zero, Option.some.injEq] at hj
        simp [hj] at h
        omega
      | succ j => exact congrArg _ (ih (by split at h <;> omega) (by simpa using hi) (by simpa using hj))

/-- All references of an object. -/
def allIn (cs : List Carried) : List (CompactId × ExGuid) := cs.flatMap (·.refs)

theorem idsIn_eq (cs : List Carried) : idsIn cs = (allIn cs).map Prod.fst := by
  unfold idsIn allIn
  rw [List.map_flatMap]

theorem refsIn_eq (cs : List Carried) : refsIn cs = (allIn cs).map Prod.snd := by
  unfold refsIn allIn
  rw [List.map_flatMap]

theorem zip_map {α β : Type} (l : List (α × β)) : (l.map Prod.fst).zip (l.map Prod.snd) = l := by
  induction l with
  | nil => rfl
  | cons a l ih => rw [List.map_cons, List.map_cons, List.zip_cons_cons, ih]

theorem zip_in (cs : List Carried) : (idsIn cs).zip (refsIn cs) = allIn cs := by
  rw [idsIn_eq, refsIn_eq, zip_map]

theorem allIn_append (a b : List Carried) : allIn (a ++ b) = allIn a ++ allIn b := by
  unfold allIn
  rw [List.flatMap_append]

theorem counted_used (s : Stream) {v : PropertyValue} (h : SingleSetsFree s v) :
    idsCounted s v = idsUsed s v := by
  rw [← references_counted, references_eq s v h]

section
variable {ctx : List CompactId} {cs cs' : List Carried}

theorem carried_counts (h : ∀ c ∈ cs, c.refs.length = idsUsed .objects c.value)
    (hf : ∀ c ∈ cs, SingleSetsFree .objects c.value) :
    counts .objects (entriesIn cs) = (allIn cs).length := by
  induction cs with
  | nil => rfl
  | cons c cs ih =>
    show idsCounted .objects c.value + counts .objects (entriesIn cs) = (c.refs ++ allIn cs).length
    rw [List.length_append, ih (fun c hc => h c (.tail _ hc)) fun c hc => hf c (.tail _ hc),
      h c (.head _), counted_used .objects (hf c (.head _))]

theorem carried_some (hd : DistinctIds (entriesIn cs)) {w : Nat} {v : PropertyValue} :
    (setOf (entriesIn cs)).get w = some v ↔
      ∃ pre c post, cs = pre ++ c :: post ∧ c.key = w % 2 ^ 26 ∧ c.value = v := by
  rw [get_some hd]
  constructor
  · rintro ⟨pre, post, h⟩
    obtain ⟨l, r, rfl, -, h2⟩ := List.map_eq_append_iff.1 h
    obtain ⟨c, r, rfl, h3, -⟩ := List.map_eq_cons_iff.1 h2
    exact ⟨l, c, r, rfl, congrArg Prod.fst h3, congrArg Prod.snd h3⟩
  · rintro ⟨pre, c, post, rfl, h1, h2⟩
    refine ⟨entriesIn pre, entriesIn post, ?_⟩
    rw [← h1, ← h2]
    unfold entriesIn
    rw [List.map_append, List.map_cons]

theorem carried_starts (s : Stream) {pre post : List Carried} {c : Carried}
    (hd : DistinctIds (entriesIn (pre ++ c :: post))) {w : Nat} (hw : c.key = w % 2 ^ 26) {pos : Nat} :
    StartsAt s (setOf (entriesIn (pre ++ c :: post))) w pos ↔ pos = counts s (entriesIn pre) := by
  have e : entriesIn (pre ++ c :: post) =
      entriesIn pre ++ (w % 2 ^ 26, c.value) :: entriesIn post := by
    rw [← hw]
    unfold entriesIn
    rw [List.map_append, List.map_cons]
  rw [e] at hd ⊢
  exact starts_iff s hd

/-- Where the references of a property are. -/
theorem carried_pos (h : CarriesAll cs) (hf : Countable ctx cs) {pre post : List Carried} {c : Carried}
    (he : cs = pre ++ c :: post) : allIn cs = allIn pre ++ (c.refs ++ allIn post) ∧
      counts .objects (entriesIn pre) = (allIn pre).length := by
  subst he
  refine ⟨allIn_append pre (c :: post), carried_counts (fun c hc => h.taken c (by simp [hc]))
    fun c hc => hf.counted c (by simp [hc])⟩

end

/-- An object that stores these properties. `more` are the entries of its table for contexts. -/
structure Carries (cs : List Carried) (ctx : List CompactId) (osids : List CompactId)
    (more : List (CompactId × ExGuid)) (spaces : List (CompactId × CellId)) (o : Object) : Prop where
  all : CarriesAll cs
  fine : Countable ctx cs
  contexts : ∃ l, more = ctx.zip l
  objectIds : o.props.objectIds = idsIn cs
  objectSpaceIds : o.props.objectSpaceIds = osids
  properties : o.props.properties = setOf (entriesIn cs)
  mapping : o.mapping = .fromEntries (allIn cs ++ more) spaces

section
variable {cs cs' : List Carried} {ctx osids : List CompactId} {more : List (CompactId × ExGuid)}
  {spaces : List (CompactId × CellId)} {o o' : Object}

/-- A reference at its own place. -/
theorem own_place (h : Carries cs ctx osids more spaces o) {pre post : List Carried} {c : Carried}
    (he : cs = pre ++ c :: post) {j : Nat} (hj : j < c.refs.length) :
    (o.props.objectIds[(allIn pre).length + j]?.bind (o.mapping.getObject ((allIn pre).length + j))) =
      some c.refs[j].2 ∧ o.props.objectIds[(allIn pre).length + j]? = some c.refs[j].1 := by
  have hp := (carried_pos h.all h.fine he).1
  have ha : (allIn cs)[(allIn pre).length + j]? = some c.refs[j] := by
    rw [hp, List.getElem?_append_right (by omega), Nat.add_sub_cancel_left,
      List.getElem?_append_left hj, List.getElem?_eq_getElem hj]
  have hi : o.props.objectIds[(allIn pre).length + j]? = some c.refs[j].1 := by
    rw [h.objectIds, idsIn_eq, List.getElem?_map, ha]; rfl
  refine ⟨?_, hi⟩
  rw [hi, h.mapping]
  show MappingTable.lookup _ _ (MappingTable.tableOf _) = _
  refine MappingTable.lookup_at ?_
  rw [List.getElem?_append_left (List.getElem?_eq_some_iff.1 ha).1, ha]

/-- A reference of a nested property set, wherever the table is asked. -/
theorem any_place (h : Carries cs ctx osids more spaces o) {c : Carried} (hc : c ∈ cs)
    (hk : c.key ∈ nestedKeys) {r : CompactId × ExGuid} (hr : r ∈ c.refs) (i : Nat) :
    o.mapping.getObject i r.1 = some r.2 := by
  rw [h.mapping]
  show MappingTable.lookup _ _ (MappingTable.tableOf _) = _
  have hm : r ∈ allIn cs ++ more := List.mem_append_left _ (List.mem_flatMap.2 ⟨c, hc, hr⟩)
  obtain ⟨j, hj, e⟩ := List.getElem_of_mem hm
  have hj' : (allIn cs ++ more)[j]? = some (r.1, r.2) := by
    rw [List.getElem?_eq_getElem hj, e]
  refine MappingTable.lookup_once i hj' fun k y hy => ?_
  have hcount := h.fine.nested c hc hk r hr
  have hle : ((allIn cs ++ more).map Prod.fst).count r.1 ≤ 1 := by
    rw [List.map_append, List.count_append, ← idsIn_eq]
    rw [List.count_append] at hcount
    obtain ⟨l, rfl⟩ := h.contexts
    have : ((ctx.zip l).map Prod.fst).count r.1 ≤ ctx.count r.1 := by
      clear h hm hj e hj' hy hcount
      induction ctx generalizing l with
      | nil => simp
      | cons x ctx ih =>
        cases l with
        | nil => simp
        | cons y l =>
          rw [List.zip_cons_cons, List.map_cons, List.count_cons, List.count_cons]
          exact Nat.add_le_add_right (ih l) _
    omega
  refine count_unique hle (i := k) (j := j) ?_ ?_
  · rw [List.getElem?_map, hy]; rfl
  · rw [List.getElem?_map, hj']; rfl

theorem moved_length (hc : Carries cs ctx osids more spaces o) {pre post : List Carried} {c : Carried}
    (he : cs = pre ++ c :: post) : c.refs.length = idsCounted .objects c.value := by
  have hm : c ∈ cs := by rw [he]; simp
  rw [hc.all.taken c hm, counted_used _ (hc.fine.counted c hm)]

variable (hc : Carries cs ctx osids more spaces o) (hc' : Carries cs' ctx osids more spaces o')
  (hs : CarriesTheSame cs cs')
include hc hc' hs

theorem moved_found {w : Nat} (hw : w % 2 ^ 26 ∈ readKeys) {v : PropertyValue}
    (hg : o.props.properties.get w = some v) : ∃ pre c post pre' c' post', cs = pre ++ c :: post ∧
      cs' = pre' ++ c' :: post' ∧ c.key = w % 2 ^ 26 ∧ c'.key = w % 2 ^ 26 ∧ c.value = v ∧
      SameValue (w % 2 ^ 26) v c'.value ∧ c'.refs = c.refs ∧
      o'.props.properties.get w = some c'.value := by
  rw [hc.properties, carried_some hc.all.once] at hg
  obtain ⟨pre, c, post, he, hk, rfl⟩ := hg
  obtain ⟨c', hm, h1, h2, h3⟩ := hs.there c (by rw [he]; simp) (hk ▸ hw)
  obtain ⟨pre', post', he'⟩ := List.append_of_mem hm
  exact ⟨pre, c, post, pre', c', post', he, he', hk, h1.trans hk, rfl, hk ▸ h2, h3,
    by rw [hc'.properties, carried_some hc'.all.once]; exact ⟨pre', c', post', he', h1.trans hk, rfl⟩⟩

theorem moved_none {w : Nat} (hw : w % 2 ^ 26 ∈ readKeys) (hg : o.props.properties.get w = none) :
    o'.props.properties.get w = none := by
  cases h : o'.props.properties.get w with
  | none => rfl
  | some v =>
    obtain ⟨_, _, _, _, _, _, _, _, _, _, _, _, _, h9⟩ :=
      moved_found hc' hc ⟨hs.back, hs.there, hs.spaces.symm⟩ hw h
    rw [hg] at h9
    cases h9

theorem moved_values : SameValues o.props.properties o'.props.properties := by
  intro w hw
  cases h : o.props.properties.get w with
  | none => exact moved_none hc hc' hs hw.1 h
  | some v =>
    obtain ⟨_, _, _, _, _, _, _, _, _, _, _, h7, _, h9⟩ := moved_found hc hc' hs hw.1 h
    rcases h7 with rfl | ⟨h, -⟩
    · exact h9
    · exact absurd h hw.2

theorem moved_starts {pre post pre' post' : List Carried} {c c' : Carried} {w : Nat}
    (he : cs = pre ++ c :: post) (he' : cs' = pre' ++ c' :: post') (hk : c.key = w % 2 ^ 26)
    (hk' : c'.key = w % 2 ^ 26) :
    (∀ pos, StartsAt .objects o.props.properties w pos ↔ pos = (allIn pre).length) ∧
      ∀ pos, StartsAt .objects o'.props.properties w pos ↔ pos = (allIn pre').length := by
  refine ⟨fun pos => ?_, fun pos => ?_⟩
  · rw [← (carried_pos hc.all hc.fine he).2, hc.properties]
    have := hc.all.once
    subst he
    exact carried_starts .objects this hk
  · rw [← (carried_pos hc'.all hc'.fine he').2, hc'.properties]
    have := hc'.all.once
    subst he'
    exact carried_starts .objects this hk'

theorem moved_ref (w : Nat) (x : Option ExGuid) (hw : Plain w) (h : Ref o w x) : Ref o' w x := by
  rcases h with ⟨h1, rfl⟩ | ⟨pos, id, h1, h2, h3, rfl⟩
  · exact .inl ⟨(moved_values hc hc' hs w hw).trans h1, rfl⟩
  · obtain ⟨pre, c, post, pre', c', post', he, he', hk, hk', hv, -, hr, -⟩ :=
      moved_found hc hc' hs hw.1 h1
    have hst := moved_starts hc hc' hs he he' hk hk'
    have hl := moved_length hc he
    rw [hv] at hl
    replace hl : c.refs.length = 1 := hl
    obtain rfl := (hst.1 pos).1 h2
    have hl' : 0 < c'.refs.length := by rw [hr]; omega
    obtain ⟨a1, a2⟩ := own_place hc he (j := 0) (by omega)
    obtain ⟨b1, b2⟩ := own_place hc' he' (j := 0) (by rw [hr]; omega)
    simp only [Nat.add_zero] at a1 a2 b1 b2
    rw [a2] at h3
    cases h3
    refine .inr ⟨_, _, (moved_values hc hc' hs w hw).trans h1, (hst.2 _).2 rfl, b2, ?_⟩
    rw [a2] at a1
    rw [b2] at b1
    have e : o.mapping.getObject (allIn pre).length c.refs[0].1 = some c.refs[0].2 := a1
    have e' : o'.mapping.getObject (allIn pre').length c'.refs[0].1 = some c'.refs[0].2 := b1
    rw [e, e']
    simp only [hr]

theorem moved_refList (w : Nat) (x : List ExGuid) (hw : Plain w) (h : RefList o w x) :
    RefList o' w x := by
  obtain ⟨n, pos, h1, h2, rfl⟩ := h
  obtain ⟨pre, c, post, pre', c', post', he, he', hk, hk', hv, -, hr, -⟩ :=
    moved_found hc hc' hs hw.1 h1
  have hst := moved_starts hc hc' hs he he' hk hk'
  have hl := moved_length hc he
  rw [hv] at hl
  replace hl : c.refs.length = n := hl
  obtain rfl := (hst.1 pos).1 h2
  refine ⟨n, _, (moved_values hc hc' hs w hw).trans h1, (hst.2 _).2 rfl, ?_⟩
  have congr : ∀ {f g : Nat → Option ExGuid} {l : List Nat}, (∀ j ∈ l, f j = g j) →
      l.filterMap f = l.filterMap g := by
    intro f g l hfg
    induction l with
    | nil => rfl
    | cons j l ih =>
      rw [List.filterMap_cons, List.filterMap_cons, hfg j (.head _),
        ih fun j hj => hfg j (.tail _ hj)]
  refine congr fun j hj => ?_
  have hj := List.mem_range.1 hj
  rw [(own_place hc he (j := j) (by omega)).1, (own_place hc' he' (j := j) (by rw [hr]; omega)).1]
  simp only [hr]

end

theorem split_same {α : Type} {p q p' q' : List α} {a : α} (h : p ++ a :: q = p' ++ a :: q')
    (hp : a ∉ p) (hp' : a ∉ p') : p = p' := by
  induction p generalizing p' with
  | nil =>
    cases p' with
    | nil => rfl
    | cons b p' =>
      simp only [List.nil_append, List.cons_append, List.cons.injEq] at h
      exact absurd (h.1 ▸ List.mem_cons_self) hp'
  | cons b p ih =>
    cases p' with
    | nil =>
      simp only [List.nil_append, List.cons_append, List.cons.injEq] at h
      exact absurd (h.1 ▸ List.mem_cons_self) hp
    | cons b' p' =>
      simp only [List.cons_append, List.cons.injEq] at h
      rw [h.1, ih h.2 (fun hm => hp (.tail _ hm)) fun hm => hp' (.tail _ hm)]

theorem counts_spaces (es : List (Nat × PropertyValue)) :
    counts .spaces (es.filter fun e => decide (idsCounted .spaces e.2 ≠ 0)) = counts .spaces es := by
  induction es with
  | nil => rfl
  | cons e es ih =>
    by_cases h : idsCounted .spaces e.2 ≠ 0
    · rw [List.filter_cons_of_pos (by simpa using h)]
      show _ + counts _ _ = _ + counts _ es
      rw [ih]
    · rw [List.filter_cons_of_neg (by simpa using h), ih]
      show _ = idsCounted _ e.2 + counts _ es
      omega

theorem spaces_before {es es' pre post pre' post' : List (Nat × PropertyValue)}
    {e : Nat × PropertyValue} (hd : DistinctIds es) (hd' : DistinctIds es')
    (he : es = pre ++ e :: post) (he' : es' = pre' ++ e :: post')
    (hf : es.filter (fun e => decide (idsCounted .spaces e.2 ≠ 0)) =
      es'.filter fun e => decide (idsCounted .spaces e.2 ≠ 0))
    (h : idsCounted .spaces e.2 ≠ 0) : counts .spaces pre = counts .spaces pre' := by
  have hp : ∀ {es pre post : List (Nat × PropertyValue)}, DistinctIds es → es = pre ++ e :: post →
      e ∉ pre.filter fun e => decide (idsCounted .spaces e.2 ≠ 0) := by
    intro es pre post hd he hm
    subst he
    unfold DistinctIds at hd
    rw [List.map_append, List.nodup_append] at hd
    exact hd.2.2 e.1 (List.mem_map.2 ⟨e, (List.mem_filter.1 hm).1, rfl⟩) e.1 (by simp) rfl
  have h1 := hp hd he
  have h2 := hp hd' he'
  rw [he, he', List.filter_append, List.filter_append, List.filter_cons_of_pos (by simpa using h),
    List.filter_cons_of_pos (by simpa using h)] at hf
  rw [← counts_spaces pre, ← counts_spaces pre', split_same hf h1 h2]

section
variable {cs cs' : List Carried} {ctx osids : List CompactId} {more : List (CompactId × ExGuid)}
  {spaces : List (CompactId × CellId)} {o o' : Object}
variable (hc : Carries cs ctx osids more spaces o) (hc' : Carries cs' ctx osids more spaces o')
  (hs : CarriesTheSame cs cs')
include hc hc' hs

theorem moved_cellRefs (w : Nat) (x : List CellId) (hw : Plain w) (h : CellRefs o w x) :
    CellRefs o' w x := by
  rcases h with ⟨h1, rfl⟩ | ⟨n, pos, h1, h2, rfl⟩
  · exact .inl ⟨(moved_values hc hc' hs w hw).trans h1, rfl⟩
  · have hg := (moved_values hc hc' hs w hw).trans h1
    obtain ⟨pre, c, post, pre', c', post', he, he', hk, hk', hv, -, -, h9⟩ :=
      moved_found hc hc' hs hw.1 h1
    have hv' : c'.value = .objectSpaceIds n := by
      rw [hg] at h9
      exact (Option.some.inj h9).symm
    have ho := hc.all.once
    have ho' := hc'.all.once
    have e : entriesIn cs = entriesIn pre ++ (w % 2 ^ 26, .objectSpaceIds n) :: entriesIn post := by
      rw [he, ← hk, ← hv]
      unfold entriesIn
      rw [List.map_append, List.map_cons]
    have e' : entriesIn cs' = entriesIn pre' ++ (w % 2 ^ 26, .objectSpaceIds n) :: entriesIn post' := by
      rw [he', ← hk', ← hv']
      unfold entriesIn
      rw [List.map_append, List.map_cons]
    rw [hc.properties, e, starts_iff .spaces (e ▸ ho)] at h2
    refine .inr ⟨n, counts .spaces (entriesIn pre'), hg, ?_, ?_⟩
    · rw [hc'.properties, e', starts_iff .spaces (e' ▸ ho')]
    · cases n with
      | zero => rfl
      | succ n =>
        rw [← spaces_before ho ho' e e' hs.spaces (by simp [idsCounted]), ← h2, hc.objectSpaceIds,
          hc'.objectSpaceIds, hc.mapping, hc'.mapping]
        rfl

theorem moved_nested (w : Nat) (inners : List Object)
    (hk : w % 2 ^ 26 ∈ readKeys ∧ w % 2 ^ 26 ∈ nestedKeys) (h : Nested o w inners) :
    ∃ inners', Nested o' w inners' ∧ Each Seen inners inners' := by
  obtain ⟨hw, hn⟩ := hk
  rcases h with ⟨h1, rfl⟩ | ⟨kind, sets, h1, he⟩
  · exact ⟨[], .inl ⟨moved_none hc hc' hs hw h1, rfl⟩, .nil⟩
  · obtain ⟨pre, c, post, pre', c', post', hd, hd', hk, hk', hv, hsv, hr, h9⟩ :=
      moved_found hc hc' hs hw h1
    have hst := moved_starts hc hc' hs hd hd' hk hk'
    have hl := moved_length hc hd
    rw [hv] at hl
    replace hl : c.refs.length = idsCountedSets .objects sets := hl
    have hcm : c ∈ cs := by rw [hd]; simp
    have hcm' : c' ∈ cs' := by rw [hd']; simp
    have hsp : ∃ q, StartsAt .spaces o'.props.properties w q := by
      rw [hc'.properties]
      have := hc'.all.once
      subst hd'
      exact ⟨_, (carried_starts .spaces this hk').2 rfl⟩
    obtain ⟨q, hq⟩ := hsp
    obtain ⟨sets', hv', hss⟩ : ∃ sets', c'.value = .propertyValues kind sets' ∧
        Each (SameSet SameValue) sets sets' := by
      rcases hsv with e | ⟨-, kind', sets1, sets', h5, h5', h6⟩
      · refine ⟨sets, e.symm, ?_⟩
        clear he h1 hv e hl
        induction sets with
        | nil => exact .nil
        | cons s _ ih => exact .cons (sameSet_refl s) ih
      · cases h5
        refine ⟨sets', h5', each_mono h6 ?_⟩
        rintro s s' - ⟨es, es', rfl, rfl, hss⟩
        exact sameSet_mono (fun _ _ _ h => .inl h)
          (same_set (R := fun _ => Eq) (fun _ _ _ h _ => h ▸ rfl) (fun _ _ _ h => h.symm) hss)
    have slice : ∀ set ∈ sets, (o.props.objectIds.drop (allIn pre).length).take
        (idsCountedSet .objects set) = (c.refs.map Prod.fst).take (idsCountedSet .objects set) := by
      intro set hset
      rw [hc.objectIds, idsIn_eq, (carried_pos hc.all hc.fine hd).1, List.map_append, List.map_append,
        List.drop_left' (List.length_map ..), List.take_append_of_le_length]
      rw [List.length_map, hl]
      exact sets_count hset
    have slice' : ∀ set ∈ sets, (o'.props.objectIds.drop (allIn pre').length).take
        (idsCountedSet .objects set) = (c.refs.map Prod.fst).take (idsCountedSet .objects set) := by
      intro set hset
      rw [hc'.objectIds, idsIn_eq, (carried_pos hc'.all hc'.fine hd').1, List.map_append, List.map_append, hr,
        List.drop_left' (List.length_map ..), List.take_append_of_le_length]
      rw [List.length_map, hl]
      exact sets_count hset
    have one : ∀ set ∈ sets, ∀ set' inner, SameSet SameValue set set' →
        Fields.Inside o w kind set inner →
        ∃ inner', Fields.Inside o' w kind set' inner' ∧ Seen inner inner' := by
      intro set hset set' inner hss hin
      obtain ⟨pos, pos', h3, h4, rfl⟩ := hin
      obtain rfl := (hst.1 pos).1 h3
      refine ⟨_, ⟨(allIn pre').length, q, (hst.2 _).2 rfl, hq, rfl⟩,
        fun _ hw => get_plain hss hw, fun w' x hw' hx => ?_⟩
      have hids : ∀ {i : Nat} {id : CompactId},
          ((c.refs.map Prod.fst).take (idsCountedSet .objects set))[i]? = some id →
          o'.mapping.getObject i id = o.mapping.getObject i id := by
        intro i id hid
        obtain ⟨r, hr1, rfl⟩ := List.mem_map.1 (List.mem_of_mem_take (List.mem_of_getElem? hid))
        rw [any_place hc hcm (hk ▸ hn) hr1, any_place hc' hcm' (hk' ▸ hn) (hr ▸ hr1)]
      rcases hx with ⟨h5, rfl⟩ | ⟨p, id, h5, h6, h7, rfl⟩
      · exact .inl ⟨(get_plain hss hw').trans h5, rfl⟩
      · obtain ⟨h8, h10⟩ := stored_plain hss hw' h5
        obtain ⟨p', h11, h12⟩ := h10 _ _ h6
        obtain rfl := h12 (.inl (by decide))
        dsimp only at h7
        rw [slice set hset] at h7
        refine .inr ⟨p', id, h8, h11, ?_, (hids h7).symm⟩
        dsimp only
        rw [hss.total, slice' set hset]
        exact h7
    have all : ∀ {sets0 sets0' : List PropertySet} {inners : List Object}, (∀ s ∈ sets0, s ∈ sets) →
        Each (SameSet SameValue) sets0 sets0' → Each (Fields.Inside o w kind) sets0 inners →
        ∃ inners', Each (Fields.Inside o' w kind) sets0' inners' ∧ Each Seen inners inners' := by
      intro sets0 sets0' inners hsub hss he
      induction hss generalizing inners with
      | nil => cases he; exact ⟨[], .nil, .nil⟩
      | cons h1 _ ih =>
        cases he with
        | cons h2 h3 =>
          obtain ⟨i', h4, h5⟩ := one _ (hsub _ (.head _)) _ _ h1 h2
          obtain ⟨is', h6, h7⟩ := ih (fun s hs => hsub s (.tail _ hs)) h3
          exact ⟨i' :: is', .cons h4 h6, .cons h5 h7⟩
    obtain ⟨inners', h3, h4⟩ := all (fun _ h => h) hss he
    exact ⟨inners', .inr ⟨kind, sets', hv' ▸ h9, h3⟩, h4⟩

theorem moved_view (hk : o'.jcId = o.jcId) (hx : o'.contextId = o.contextId)
    (hf : o'.fileData = o.fileData) : View o o' :=
  ⟨hk, hx, hf, moved_values hc hc' hs, moved_ref hc hc' hs, moved_refList hc hc' hs,
    moved_cellRefs hc hc' hs, moved_nested hc hc' hs⟩

end

theorem carried_values {cs cs' : List Carried} {ctx : List CompactId} (h : CarriesAll cs)
    (h' : CarriesAll cs') (hf : Countable ctx cs) (hf' : Countable ctx cs') (hs : CarriesTheSame cs cs') :
    SameValues (setOf (entriesIn cs)) (setOf (entriesIn cs')) := by
  have id : ExGuid := default
  exact moved_values (o := ⟨id, 0, ⟨idsIn cs, [], [], setOf (entriesIn cs)⟩, none,
      .fromEntries (allIn cs ++ ctx.zip []) []⟩)
    (o' := ⟨id, 0, ⟨idsIn cs', [], [], setOf (entriesIn cs')⟩, none,
      .fromEntries (allIn cs' ++ ctx.zip []) []⟩)
    (osids := []) (spaces := []) ⟨h, hf, ⟨[], rfl⟩, rfl, rfl, rfl, rfl⟩
    ⟨h', hf', ⟨[], rfl⟩, rfl, rfl, rfl, rfl⟩ hs

end OneNote.Same
