/-
Looking up the last entry with a key.
-/
import Verif.Lemmas.Map
import Verif.Spec.PropSet

namespace OneNote

open Spec

variable {K V : Type} [DecidableEq K]

theorem lastWith_eq_some {es : List (K × V)} {k : K} {v : V} :
    lastWith es k = some v ↔
      ∃ pre post, es = pre ++ (k, v) :: post ∧ ∀ e ∈ post, e.1 ≠ k := by
  rw [← List.reverse_reverse es]
  induction es.reverse with
  | nil => simp [lastWith]
  | cons e l ih =>
    obtain ⟨k', v'⟩ := e
    rw [List.reverse_cons, Map.lastWith_append_singleton]
    by_cases h : k = k'
    · subst h
      simp only [if_true, Option.some.injEq]
      constructor
      · rintro rfl; exact ⟨l.reverse, [], by simp, by simp⟩
      · rintro ⟨pre, post, h1, h2⟩
        rcases List.eq_nil_or_concat post with rfl | ⟨post', x, rfl⟩
        · have := (List.append_inj' h1 rfl).2
          simp at this; exact this
        · have h1' : l.reverse ++ [(k, v')] = (pre ++ (k, v) :: post') ++ [x] := by
            rw [h1]; simp
          have := (List.append_inj' h1' rfl).2
          simp at this
          subst this
          exact absurd rfl (h2 (k, v') (by simp))
    · rw [if_neg h, ih]
      constructor
      · rintro ⟨pre, post, h1, h2⟩
        refine ⟨pre, post ++ [(k', v')], by rw [h1]; simp, ?_⟩
        intro e he
        rcases List.mem_append.mp he with he | he
        · exact h2 e he
        · simp at he; subst he; exact fun h' => h h'.symm
      · rintro ⟨pre, post, h1, h2⟩
        rcases List.eq_nil_or_concat post with rfl | ⟨post', x, rfl⟩
        · have := (List.append_inj' h1 rfl).2
          simp at this; exact absurd this.1.symm h
        · have h1' : l.reverse ++ [(k', v')] = (pre ++ (k, v) :: post') ++ [x] := by
            rw [h1]; simp
          have := (List.append_inj' h1' rfl).1
          exact ⟨pre, post', this, fun e he => h2 e (by simp [he])⟩

theorem lastWith_eq_none {es : List (K × V)} {k : K} :
    lastWith es k = none ↔ ∀ e ∈ es, e.1 ≠ k := by
  unfold lastWith
  simp

theorem indexed_append (pre post : List (Nat × PropertyValue)) (i : Nat) :
    ((pre ++ post).zipIdx i).map (fun e => (e.1.1, (e.2, e.1.2))) =
      (pre.zipIdx i).map (fun e => (e.1.1, (e.2, e.1.2))) ++
        (post.zipIdx (i + pre.length)).map (fun e => (e.1.1, (e.2, e.1.2))) := by
  rw [List.zipIdx_append, List.map_append]

theorem indexed_keys (es : List (Nat × PropertyValue)) (i k : Nat) :
    (∀ e ∈ (es.zipIdx i).map (fun e => (e.1.1, (e.2, e.1.2))), e.1 ≠ k) ↔ ∀ e ∈ es, e.1 ≠ k := by
  induction es generalizing i with
  | nil => simp
  | cons e es ih =>
    have := ih (i + 1)
    simp only [List.zipIdx_cons, List.map_cons, List.forall_mem_cons, this]

theorem setOf_get?_some {es : List (Nat × PropertyValue)} {k i : Nat} {v : PropertyValue} :
    Map.get? (setOf es) k = some (i, v) ↔
      ∃ pre post, es = pre ++ (k, v) :: post ∧ pre.length = i ∧ ∀ e ∈ post, e.1 ≠ k := by
  unfold setOf
  rw [Map.get?_ofList]
  constructor
  · intro h
    cases hl : lastWith es k with
    | none =>
      rw [lastWith_eq_none] at hl
      have := (indexed_keys es 0 k).mpr hl
      rw [lastWith_eq_none.mpr this] at h
      cases h
    | some v' =>
      obtain ⟨pre, post, rfl, h2⟩ := lastWith_eq_some.mp hl
      have : lastWith ((pre ++ (k, v') :: post).zipIdx.map (fun e => (e.1.1, (e.2, e.1.2)))) k =
          some (pre.length, v') := by
        rw [lastWith_eq_some]
        refine ⟨(pre.zipIdx 0).map (fun e => (e.1.1, (e.2, e.1.2))), _,
          by rw [indexed_append, List.zipIdx_cons, List.map_cons, Nat.zero_add], ?_⟩
        exact (indexed_keys _ _ _).mpr h2
      rw [this] at h
      cases h
      exact ⟨pre, post, rfl, rfl, h2⟩
  · rintro ⟨pre, post, rfl, rfl, h2⟩
    rw [lastWith_eq_some]
    refine ⟨(pre.zipIdx 0).map (fun e => (e.1.1, (e.2, e.1.2))), _,
      by rw [indexed_append, List.zipIdx_cons, List.map_cons, Nat.zero_add], ?_⟩
    exact (indexed_keys _ _ _).mpr h2

theorem setOf_get?_none {es : List (Nat × PropertyValue)} {k : Nat} :
    Map.get? (setOf es) k = none ↔ ∀ e ∈ es, e.1 ≠ k := by
  unfold setOf
  rw [Map.get?_ofList, lastWith_eq_none, indexed_keys]

end OneNote
