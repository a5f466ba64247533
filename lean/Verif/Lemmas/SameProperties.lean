/-
Property lists that say the same: what is looked up in them is the same.
-/
import Verif.Spec.SameProperties
import Verif.Lemmas.References
import Verif.Lemmas.Refs
import Verif.Lemmas.MapM

namespace OneNote.Same

open Spec Spec.Fields

/-- What a reader sees of two property sets. -/
structure SameSet (R : Nat → PropertyValue → PropertyValue → Prop) (ps ps' : PropertySet) : Prop where
  absent : ∀ w, w % 2 ^ 26 ∈ readKeys → ps.get w = none → ps'.get w = none
  stored : ∀ w v, w % 2 ^ 26 ∈ readKeys → ps.get w = some v → ∃ v', ps'.get w = some v' ∧
    R (w % 2 ^ 26) v v' ∧
    ∀ s pos, StartsAt s ps w pos → ∃ pos', StartsAt s ps' w pos' ∧ (Takes v → pos' = pos)
  total : ∀ s, idsCountedSet s ps' = idsCountedSet s ps

/-- How many identifiers the properties take. -/
def counts (s : Stream) (es : List (Nat × PropertyValue)) : Nat :=
  (es.map fun e => idsCounted s e.2).sum

theorem counts_append (s : Stream) (a b : List (Nat × PropertyValue)) :
    counts s (a ++ b) = counts s a + counts s b := by
  unfold counts
  rw [List.map_append, List.sum_append]

theorem counts_filter (s : Stream) (es : List (Nat × PropertyValue)) :
    counts s (es.filter fun e => decide (Takes e.2)) = counts s es := by
  induction es with
  | nil => rfl
  | cons e es ih =>
    by_cases h : Takes e.2
    · rw [List.filter_cons_of_pos (by simpa using h)]
      show _ + counts s _ = _ + counts s es
      rw [ih]
    · rw [List.filter_cons_of_neg (by simpa using h), ih]
      have h0 : idsCounted s e.2 = 0 := by
        unfold Takes at h
        cases s <;> omega
      show _ = idsCounted s e.2 + counts s es
      rw [h0, Nat.zero_add]

theorem counts_each {R : Nat → PropertyValue → PropertyValue → Prop}
    (hR : ∀ k v v', R k v v' → ∀ s, idsCounted s v = idsCounted s v') (s : Stream)
    {es es' : List (Nat × PropertyValue)}
    (h : Each (fun e e' => e.1 = e'.1 ∧ R e.1 e.2 e'.2) es es') : counts s es = counts s es' := by
  induction h with
  | nil => rfl
  | cons hr _ ih =>
    show idsCounted s _ + counts s _ = idsCounted s _ + counts s _
    rw [hR _ _ _ hr.2 s, ih]

theorem counted_setOf (s : Stream) {es : List (Nat × PropertyValue)} (h : DistinctIds es) :
    idsCountedSet s (setOf es) = counts s es := by
  rw [idsCountedSet_sum, setOf_distinct h, List.map_map]
  unfold counts
  have : ((fun (e : Nat × (Nat × PropertyValue)) => idsCounted s e.2.2) ∘
      fun (e : (Nat × PropertyValue) × Nat) => (e.1.1, (e.2, e.1.2))) =
      (fun e : Nat × PropertyValue => idsCounted s e.2) ∘ Prod.fst := rfl
  rw [this, ← List.map_map, List.zipIdx_map_fst]

theorem key_eq (w : Nat) : PropertyId.id w = w % 2 ^ 26 := by
  unfold PropertyId.id
  rw [and_3ffffff]

theorem get_some {es : List (Nat × PropertyValue)} (hd : DistinctIds es) {w : Nat} {v : PropertyValue} :
    (setOf es).get w = some v ↔ ∃ pre post, es = pre ++ (w % 2 ^ 26, v) :: post := by
  unfold PropertySet.get
  rw [key_eq]
  constructor
  · intro h
    obtain ⟨⟨i, x⟩, h1, rfl⟩ := Option.map_eq_some_iff.1 h
    obtain ⟨pre, post, h2, -, -⟩ := setOf_get?_some.1 h1
    exact ⟨pre, post, h2⟩
  · rintro ⟨pre, post, rfl⟩
    rw [setOf_get?_some.2 ⟨pre, post, rfl, rfl, ?_⟩]
    · rfl
    · intro e he h
      unfold DistinctIds at hd
      rw [List.map_append, List.nodup_append, List.map_cons, List.nodup_cons] at hd
      exact hd.2.1.1 (List.mem_map.mpr ⟨e, he, h⟩)

theorem get_none {es : List (Nat × PropertyValue)} {w : Nat} :
    (setOf es).get w = none ↔ ∀ e ∈ es, e.1 ≠ w % 2 ^ 26 := by
  unfold PropertySet.get
  rw [key_eq, Option.map_eq_none_iff, setOf_get?_none]

theorem starts_iff (s : Stream) {pre post : List (Nat × PropertyValue)} {w : Nat} {v : PropertyValue}
    (hd : DistinctIds (pre ++ (w % 2 ^ 26, v) :: post)) {pos : Nat} :
    StartsAt s (setOf (pre ++ (w % 2 ^ 26, v) :: post)) w pos ↔ pos = counts s pre := by
  have hpost : ∀ e ∈ post, e.1 ≠ w % 2 ^ 26 := by
    intro e he h
    unfold DistinctIds at hd
    rw [List.map_append, List.nodup_append, List.map_cons, List.nodup_cons] at hd
    exact hd.2.1.1 (List.mem_map.mpr ⟨e, he, h⟩)
  have hg := (setOf_get?_some (v := v)).2 ⟨pre, post, rfl, rfl, hpost⟩
  unfold StartsAt PropertySet.index
  rw [key_eq, hg]
  simp only [Option.map_some, Option.some.injEq, exists_eq_left']
  have hf : ((setOf (pre ++ (w % 2 ^ 26, v) :: post)).filter fun e => decide (e.2.1 < pre.length)).map
      (fun e => idsCounted s e.2.2) = pre.map fun e => idsCounted s e.2 := by
    rw [setOf_distinct hd, List.filter_map, List.zipIdx_append, List.filter_append,
      List.zipIdx_cons, List.filter_cons]
    have h1 : ((fun (e : Nat × (Nat × PropertyValue)) => decide (e.2.1 < pre.length)) ∘
        fun (e : (Nat × PropertyValue) × Nat) => (e.1.1, (e.2, e.1.2))) =
        fun e => decide (e.2 < pre.length) := rfl
    rw [h1, zipIdx_filter_lt _ _ _ (by omega), zipIdx_filter_ge _ _ _ (by omega)]
    simp only [Nat.zero_add, Nat.lt_irrefl, decide_false, Bool.false_eq_true, if_false,
      List.append_nil, List.map_map]
    have h2 : ((fun (e : Nat × (Nat × PropertyValue)) => idsCounted s e.2.2) ∘
        fun (e : (Nat × PropertyValue) × Nat) => (e.1.1, (e.2, e.1.2))) =
        (fun e : Nat × PropertyValue => idsCounted s e.2) ∘ Prod.fst := rfl
    rw [h2, ← List.map_map, List.zipIdx_map_fst]
  rw [hf]
  rfl

section
variable {α β : Type} {P : α → β → Prop}

theorem each_split {pre post : List α} {a : α} {bs : List β} (h : Each P (pre ++ a :: post) bs) :
    ∃ pre' b post', bs = pre' ++ b :: post' ∧ Each P pre pre' ∧ P a b := by
  induction pre generalizing bs with
  | nil => cases h with | cons h1 _ => exact ⟨[], _, _, rfl, .nil, h1⟩
  | cons x pre ih =>
    cases h with
    | cons h1 h2 =>
      obtain ⟨pre', b, post', rfl, h3, h4⟩ := ih h2
      exact ⟨_ :: pre', b, post', rfl, .cons h1 h3, h4⟩

theorem each_flip {as : List α} {bs : List β} (h : Each P as bs) : Each (fun b a => P a b) bs as := by
  induction h with
  | nil => exact .nil
  | cons h1 _ ih => exact .cons h1 ih

end

section
variable {R : Nat → PropertyValue → PropertyValue → Prop}

theorem same_stored (hR : ∀ k v v', R k v v' → ∀ s, idsCounted s v = idsCounted s v')
    {es es' : List (Nat × PropertyValue)} (h : SayTheSame R es es') {w : Nat} {v : PropertyValue}
    (hw : w % 2 ^ 26 ∈ readKeys) (hg : (setOf es).get w = some v) : ∃ v', (setOf es').get w = some v' ∧
    R (w % 2 ^ 26) v v' ∧
    ∀ s pos, StartsAt s (setOf es) w pos → ∃ pos', StartsAt s (setOf es') w pos' ∧
      (Takes v → pos' = pos) := by
  obtain ⟨pre, post, he⟩ := (get_some h.once).1 hg
  by_cases ht : Takes v
  · have hf : es.filter (fun e => decide (Takes e.2)) = pre.filter (fun e => decide (Takes e.2)) ++
        (w % 2 ^ 26, v) :: post.filter (fun e => decide (Takes e.2)) := by
      rw [he, List.filter_append, List.filter_cons_of_pos (by simpa using ht)]
    have hs := h.taking
    rw [hf] at hs
    obtain ⟨a, ⟨k, v'⟩, b, h1, h2, h3, h4⟩ := each_split hs
    dsimp only at h3 h4
    subst h3
    obtain ⟨l1, l2, hl, ha, hb⟩ := List.filter_eq_append_iff.1 h1
    obtain ⟨m1, m2, hm, hm1, hm2, -⟩ := List.filter_eq_cons_iff.1 hb
    have hes' : es' = (l1 ++ m1) ++ (w % 2 ^ 26, v') :: m2 := by
      rw [hl, hm, List.append_assoc]
    refine ⟨v', (get_some h.once').2 ⟨_, _, hes'⟩, h4, fun s pos hp => ?_⟩
    have hd := h.once
    have hd' := h.once'
    rw [he] at hp hd
    rw [hes'] at hd' ⊢
    rw [starts_iff s hd] at hp
    refine ⟨_, (starts_iff s hd').2 rfl, fun _ => ?_⟩
    have hm0 : counts s m1 = 0 := by
      have : m1.filter (fun e => decide (Takes e.2)) = [] := by
        rw [List.filter_eq_nil_iff]
        exact hm1
      rw [← counts_filter, this]
      rfl
    rw [counts_append, hm0, Nat.add_zero, ← counts_filter, ha, hp, ← counts_filter s pre]
    exact (counts_each hR s h2).symm
  · obtain ⟨v', h1, h2⟩ := h.there _ hw v (by rw [he]; simp) ht
    obtain ⟨l1, l2, hl⟩ := List.append_of_mem h1
    refine ⟨v', (get_some h.once').2 ⟨_, _, hl⟩, h2, fun s pos _ => ?_⟩
    have hd' := h.once'
    rw [hl] at hd' ⊢
    exact ⟨_, (starts_iff s hd').2 rfl, fun h => absurd h ht⟩

theorem symm (hs : ∀ k v v', R k v v' → R k v' v) {es es' : List (Nat × PropertyValue)}
    (h : SayTheSame R es es') : SayTheSame R es' es where
  once := h.once'
  once' := h.once
  taking := each_mono (each_flip h.taking) fun e e' _ he => ⟨he.1.symm, he.1 ▸ hs _ _ _ he.2⟩
  there := fun k hk v hv ht => by
    obtain ⟨v', h1, h2⟩ := h.back k hk v hv ht
    exact ⟨v', h1, hs _ _ _ h2⟩
  back := fun k hk v hv ht => by
    obtain ⟨v', h1, h2⟩ := h.there k hk v hv ht
    exact ⟨v', h1, hs _ _ _ h2⟩

theorem same_set (hR : ∀ k v v', R k v v' → ∀ s, idsCounted s v = idsCounted s v')
    (hs : ∀ k v v', R k v v' → R k v' v) {es es' : List (Nat × PropertyValue)}
    (h : SayTheSame R es es') : SameSet R (setOf es) (setOf es') where
  absent := fun w hw hn => by
    cases hv : (setOf es').get w with
    | none => rfl
    | some v' =>
      obtain ⟨v, h1, -⟩ := same_stored hR (symm hs h) hw hv
      rw [hn] at h1
      cases h1
  stored := fun w v hw hg => same_stored hR h hw hg
  total := fun s => by
    rw [counted_setOf s h.once, counted_setOf s h.once', ← counts_filter, ← counts_filter s es]
    exact (counts_each hR s h.taking).symm

end

theorem sets_counted {sets sets' : List PropertySet}
    (h : Each (fun s s' => ∃ es es', s = setOf es ∧ s' = setOf es' ∧ SayTheSame (fun _ => Eq) es es')
      sets sets') (s : Stream) : idsCountedSets s sets = idsCountedSets s sets' := by
  induction h with
  | nil => rfl
  | cons hr _ ih =>
    obtain ⟨es, es', rfl, rfl, hs⟩ := hr
    have := (same_set (R := fun _ => Eq) (fun _ _ _ h _ => h ▸ rfl) (fun _ _ _ h => h.symm) hs).total s
    show idsCountedSet s _ + idsCountedSets s _ = idsCountedSet s _ + idsCountedSets s _
    rw [this, ih]

theorem value_counted (k : Nat) (v v' : PropertyValue) (h : SameValue k v v') (s : Stream) :
    idsCounted s v = idsCounted s v' := by
  rcases h with rfl | ⟨-, kind, sets, sets', rfl, rfl, he⟩
  · rfl
  · show idsCountedSets s sets = idsCountedSets s sets'
    exact sets_counted he s

theorem value_symm (k : Nat) (v v' : PropertyValue) (h : SameValue k v v') : SameValue k v' v := by
  rcases h with rfl | ⟨hk, kind, sets, sets', rfl, rfl, he⟩
  · exact .inl rfl
  · refine .inr ⟨hk, kind, sets', sets, rfl, rfl, each_mono (each_flip he) ?_⟩
    rintro s s' - ⟨es, es', rfl, rfl, hs⟩
    exact ⟨es', es, rfl, rfl, symm (fun _ _ _ h => h.symm) hs⟩

end OneNote.Same
