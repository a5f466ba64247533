/-
Helper lemmas for finite maps.
-/
import Verif.Spec.Container

namespace OneNote

open Spec

variable {K V : Type} [DecidableEq K]

namespace Map

theorem get?_append (m m' : Map K V) (k : K) :
    Map.get? (m ++ m') k = (Map.get? m k).or (Map.get? m' k) := by
  induction m with
  | nil => rfl
  | cons e m ih =>
    obtain ⟨k', v⟩ := e
    simp only [List.cons_append, get?]
    split
    · rfl
    · exact ih

theorem get?_filter_ne (m : Map K V) (k k' : K) (h : k' ≠ k) :
    Map.get? (m.filter (fun e => decide (e.1 ≠ k))) k' = Map.get? m k' := by
  induction m with
  | nil => rfl
  | cons e m ih =>
    obtain ⟨k0, v⟩ := e
    by_cases h0 : k0 = k
    · subst h0
      simp only [ne_eq, decide_not, List.filter_cons, decide_true, Bool.not_true, Bool.false_eq_true,
        if_false, get?]
      rw [if_neg (fun h' => h h'.symm)]
      simpa using ih
    · simp only [ne_eq, decide_not, List.filter_cons, h0, decide_false, Bool.not_false, if_true,
        get?]
      split
      · rfl
      · simpa using ih

theorem get?_filter_self (m : Map K V) (k : K) :
    Map.get? (m.filter (fun e => decide (e.1 ≠ k))) k = none := by
  induction m with
  | nil => rfl
  | cons e m ih =>
    obtain ⟨k0, v⟩ := e
    by_cases h0 : k0 = k
    · subst h0
      simpa using ih
    · simp only [ne_eq, decide_not, List.filter_cons, h0, decide_false, Bool.not_false, if_true,
        get?, if_false]
      simpa using ih

@[simp] theorem get?_insert_self (m : Map K V) (k : K) (v : V) :
    (Map.insert m k v).get? k = some v := by
  unfold Map.insert
  rw [get?_append, get?_filter_self]
  simp [get?]

theorem get?_insert_ne (m : Map K V) (k k' : K) (v : V) (h : k' ≠ k) :
    (Map.insert m k v).get? k' = m.get? k' := by
  unfold Map.insert
  rw [get?_append, get?_filter_ne _ _ _ h]
  have : ¬ k = k' := fun h' => h h'.symm
  simp [get?, this]

theorem get?_insert (m : Map K V) (k k' : K) (v : V) :
    (Map.insert m k v).get? k' = if k' = k then some v else m.get? k' := by
  split
  · subst_vars; simp
  · rw [get?_insert_ne _ _ _ _ (by assumption)]

theorem ofList_append_singleton (es : List (K × V)) (k : K) (v : V) :
    Map.ofList (es ++ [(k, v)]) = (Map.ofList es).insert k v := by
  simp [Map.ofList, Map.extend]

theorem extend_append (m : Map K V) (es es' : List (K × V)) :
    Map.extend m (es ++ es') = Map.extend (Map.extend m es) es' := by
  simp [Map.extend]

theorem lastWith_append_singleton (es : List (K × V)) (k k' : K) (v : V) :
    lastWith (es ++ [(k, v)]) k' = if k' = k then some v else lastWith es k' := by
  unfold lastWith
  simp only [List.reverse_append, List.reverse_cons, List.reverse_nil, List.nil_append,
    List.cons_append, List.find?_cons]
  by_cases h : k' = k
  · subst h; simp
  · have : ¬ k = k' := fun h' => h h'.symm
    simp [h, this]

theorem get?_extend (m : Map K V) (es : List (K × V)) (k : K) :
    (Map.extend m es).get? k = (lastWith es k).or (m.get? k) := by
  rw [← List.reverse_reverse es]
  induction es.reverse with
  | nil => simp [Map.extend, lastWith]
  | cons e es ih =>
    obtain ⟨k', v⟩ := e
    rw [List.reverse_cons, extend_append, lastWith_append_singleton]
    show (Map.insert (Map.extend m es.reverse) k' v).get? k = _
    rw [get?_insert]
    split
    · simp
    · exact ih

theorem get?_ofList (es : List (K × V)) (k : K) : (Map.ofList es).get? k = lastWith es k := by
  unfold Map.ofList
  rw [get?_extend]
  simp [get?]

theorem nodup_insert (m : Map K V) (k : K) (v : V) (h : (m.map Prod.fst).Nodup) :
    ((Map.insert m k v).map Prod.fst).Nodup := by
  unfold Map.insert
  rw [List.map_append, List.nodup_append]
  refine ⟨?_, by simp, ?_⟩
  · exact List.Nodup.sublist (List.Sublist.map _ List.filter_sublist) h
  · intro a ha b hb
    simp at ha hb
    subst hb
    exact ha.2

theorem nodup_extend (m : Map K V) (es : List (K × V)) (h : (m.map Prod.fst).Nodup) :
    ((Map.extend m es).map Prod.fst).Nodup := by
  induction es generalizing m with
  | nil => exact h
  | cons e es ih => exact ih _ (nodup_insert m e.1 e.2 h)

theorem nodup_ofList (es : List (K × V)) : ((Map.ofList es).map Prod.fst).Nodup :=
  nodup_extend [] es (by simp)

theorem mem_of_get? {m : Map K V} {k : K} {v : V} (h : m.get? k = some v) : (k, v) ∈ m := by
  induction m with
  | nil => cases h
  | cons e m ih =>
    obtain ⟨k', v'⟩ := e
    simp only [get?] at h
    split at h
    · cases h; subst_vars; simp
    · exact List.mem_cons_of_mem _ (ih h)

theorem get?_of_mem {m : Map K V} {k : K} {v : V} (hn : (m.map Prod.fst).Nodup)
    (h : (k, v) ∈ m) : m.get? k = some v := by
  induction m with
  | nil => cases h
  | cons e m ih =>
    obtain ⟨k', v'⟩ := e
    simp only [List.map_cons, List.nodup_cons] at hn
    simp only [get?]
    rcases List.mem_cons.mp h with h | h
    · cases h; simp
    · have : k' ≠ k := by
        rintro rfl
        exact hn.1 (List.mem_map.mpr ⟨_, h, rfl⟩)
      rw [if_neg this]
      exact ih hn.2 h

end Map

end OneNote
