/-
Helper lemmas for the mapping table.
-/
import Verif.Lemmas.Map
import Verif.Model.References

namespace OneNote

namespace MappingTable

variable {T : Type}

/-- The entries recorded for `cid`, with their positions. -/
def entriesOf (es : List (CompactId × T)) (cid : CompactId) : List (Nat × T) :=
  (es.zipIdx.filter fun e => decide (e.1.1 = cid)).map fun e => (e.2, e.1.2)

theorem tableOf_append (es : List (CompactId × T)) (e : CompactId × T) :
    tableOf (es ++ [e]) = push (tableOf es) (e, es.length) := by
  unfold tableOf
  rw [List.zipIdx_append, List.foldl_append]
  simp

theorem entriesOf_append (es : List (CompactId × T)) (e : CompactId × T) (cid : CompactId) :
    entriesOf (es ++ [e]) cid =
      entriesOf es cid ++ if e.1 = cid then [(es.length, e.2)] else [] := by
  unfold entriesOf
  rw [List.zipIdx_append, List.filter_append, List.map_append]
  simp only [List.zipIdx_cons, List.zipIdx_nil, List.filter_cons, List.filter_nil, Nat.zero_add]
  split <;> simp_all

theorem get?_tableOf (es : List (CompactId × T)) (cid : CompactId) :
    Map.get? (tableOf es) cid = if entriesOf es cid = [] then none else some (entriesOf es cid) := by
  rw [← List.reverse_reverse es]
  induction es.reverse with
  | nil => rfl
  | cons e l ih =>
    rw [List.reverse_cons, tableOf_append, entriesOf_append]
    unfold push
    rw [Map.get?_insert]
    by_cases h : e.1 = cid
    · subst h
      rw [if_pos rfl, ih]
      split
      · rename_i h'
        simp [h']
      · simp
    · have h' : ¬ cid = e.1 := fun h' => h h'.symm
      rw [if_neg h', ih, if_neg h, List.append_nil]

theorem mem_entriesOf {es : List (CompactId × T)} {cid : CompactId} {i : Nat} {x : T} :
    (i, x) ∈ entriesOf es cid ↔ es[i]? = some (cid, x) := by
  unfold entriesOf
  simp only [List.mem_map, List.mem_filter, decide_eq_true_eq, Prod.mk.injEq]
  constructor
  · rintro ⟨⟨⟨c, y⟩, j⟩, ⟨h1, h2⟩, h3, h4⟩
    simp only at h2 h3 h4
    subst h2 h3 h4
    exact List.mem_zipIdx_iff_getElem?.mp h1
  · intro h
    exact ⟨((cid, x), i), ⟨List.mem_zipIdx_iff_getElem?.mpr h, rfl⟩, rfl, rfl⟩

/-- The first entry at a position is the one recorded there. -/
theorem find?_entriesOf (es : List (CompactId × T)) (cid : CompactId) (i : Nat) (x : T) :
    ((entriesOf es cid).find? fun e => decide (e.1 = i)).map Prod.snd = some x ↔
      es[i]? = some (cid, x) := by
  constructor
  · intro h
    cases hf : (entriesOf es cid).find? (fun e => decide (e.1 = i)) with
    | none => rw [hf] at h; cases h
    | some e =>
      rw [hf] at h
      cases h
      have h1 := List.mem_of_find?_eq_some hf
      have h2 := List.find?_some hf
      simp only [decide_eq_true_eq] at h2
      obtain ⟨j, y⟩ := e
      simp only at h2
      subst h2
      exact mem_entriesOf.mp h1
  · intro h
    have hm := mem_entriesOf.mpr h
    cases hf : (entriesOf es cid).find? (fun e => decide (e.1 = i)) with
    | none =>
      have := List.find?_eq_none.mp hf _ hm
      simp at this
    | some e =>
      have h1 := List.mem_of_find?_eq_some hf
      have h2 := List.find?_some hf
      simp only [decide_eq_true_eq] at h2
      obtain ⟨j, y⟩ := e
      simp only at h2
      subst h2
      have h3 := mem_entriesOf.mp h1
      rw [h] at h3
      cases h3
      rfl

/-- Recorded at the asked position: that entry. -/
theorem lookup_at {es : List (CompactId × T)} {cid : CompactId} {i : Nat} {x : T}
    (h : es[i]? = some (cid, x)) : lookup i cid (tableOf es) = some x := by
  unfold lookup
  rw [get?_tableOf]
  have hm := mem_entriesOf.mpr h
  have hn : entriesOf es cid ≠ [] := fun h' => by rw [h'] at hm; cases hm
  rw [if_neg hn]
  have hf := (find?_entriesOf es cid i x).mpr h
  generalize entriesOf es cid = l at *
  match l, hn with
  | [(j, y)], _ =>
    simp only [List.mem_singleton, Prod.mk.injEq] at hm
    simp [hm.2]
  | _ :: _ :: _, _ => exact hf

/-- Recorded for this compact id only once: that entry, whatever the position. -/
theorem lookup_once {es : List (CompactId × T)} {cid : CompactId} {j : Nat} {x : T} (i : Nat)
    (h : es[j]? = some (cid, x)) (hu : ∀ k y, es[k]? = some (cid, y) → k = j) :
    lookup i cid (tableOf es) = some x := by
  unfold lookup
  rw [get?_tableOf]
  have hm := mem_entriesOf.mpr h
  have hn : entriesOf es cid ≠ [] := fun h' => by rw [h'] at hm; cases hm
  rw [if_neg hn]
  have hnd : (entriesOf es cid).Pairwise (fun a b => a.1 ≠ b.1) := by
    unfold entriesOf
    rw [List.pairwise_map]
    refine List.Pairwise.filter _ ?_
    have : (es.zipIdx.map Prod.snd).Nodup := by
      rw [List.zipIdx_map_snd]; exact List.nodup_range'
    rw [List.nodup_iff_pairwise_ne, List.pairwise_map] at this
    exact this
  have hall : ∀ e ∈ entriesOf es cid, e.1 = j := by
    rintro ⟨k, y⟩ he
    exact hu k y (mem_entriesOf.mp he)
  generalize entriesOf es cid = l at *
  match l, hn with
  | [(k, y)], _ =>
    simp only [List.mem_singleton, Prod.mk.injEq] at hm
    simp [hm.2]
  | a :: b :: l, _ =>
    have h1 := hall a (by simp)
    have h2 := hall b (by simp)
    simp only [List.pairwise_cons, List.mem_cons, forall_eq_or_imp] at hnd
    exact absurd (h1.trans h2.symm) hnd.1.1

/-- Recorded at two positions: only the entry at the asked position. -/
theorem lookup_several {es : List (CompactId × T)} {cid : CompactId} {j k : Nat} {y z : T}
    (hj : es[j]? = some (cid, y)) (hk : es[k]? = some (cid, z)) (hne : j ≠ k) (i : Nat) (x : T) :
    lookup i cid (tableOf es) = some x ↔ es[i]? = some (cid, x) := by
  constructor
  · intro h
    unfold lookup at h
    rw [get?_tableOf] at h
    have hm := mem_entriesOf.mpr hj
    have hm' := mem_entriesOf.mpr hk
    have hn : entriesOf es cid ≠ [] := fun h' => by rw [h'] at hm; cases hm
    rw [if_neg hn] at h
    rw [← find?_entriesOf es cid i x]
    generalize entriesOf es cid = l at *
    match l, hn with
    | [(a, b)], _ =>
      simp only [List.mem_singleton, Prod.mk.injEq] at hm hm'
      exact absurd (hm.1.trans hm'.1.symm) hne
    | _ :: _ :: _, _ => exact h
  · exact lookup_at

theorem lookup_mem {es : List (CompactId × T)} {cid : CompactId} {i : Nat} {x : T}
    (h : lookup i cid (tableOf es) = some x) : (cid, x) ∈ es := by
  unfold lookup at h
  rw [get?_tableOf] at h
  split at h
  · cases h
  · rename_i a b hs
    split at hs
    · cases hs
    · have hq := Option.some.inj hs
      have : (a, b) ∈ entriesOf es cid := by rw [hq]; simp
      cases h
      exact List.mem_of_getElem? (mem_entriesOf.mp this)
  · rename_i hs
    split at hs
    · cases hs
    · have hq := Option.some.inj hs
      subst hq
      exact List.mem_of_getElem? ((find?_entriesOf es cid i x).mp h)

theorem lookup_none {es : List (CompactId × T)} {cid : CompactId} (i : Nat)
    (h : ∀ x, (cid, x) ∉ es) : lookup i cid (tableOf es) = none := by
  cases hl : lookup i cid (tableOf es) with
  | none => rfl
  | some x => exact absurd (lookup_mem hl) (h x)

end MappingTable

end OneNote
