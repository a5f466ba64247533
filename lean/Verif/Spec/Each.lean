/-
Two lists related position by position.
-/
namespace OneNote.Spec

/-- `Each R as bs`: the lists have the same length and `R` relates the elements at every position. -/
inductive Each {α β : Type} (R : α → β → Prop) : List α → List β → Prop where
  | nil : Each R [] []
  | cons {a : α} {b : β} {as : List α} {bs : List β} :
      R a b → Each R as bs → Each R (a :: as) (b :: bs)

/-- `Each` in terms of length and positions. -/
theorem each_iff {α β : Type} (R : α → β → Prop) (as : List α) (bs : List β) :
    Each R as bs ↔ as.length = bs.length ∧
      ∀ (i : Nat) (h : i < as.length) (h' : i < bs.length), R as[i] bs[i] := by
  constructor
  · intro h
    induction h with
    | nil => exact ⟨rfl, fun i h => absurd h (Nat.not_lt_zero i)⟩
    | cons hr _ ih =>
      refine ⟨by simp [ih.1], fun i h h' => ?_⟩
      cases i with
      | zero => exact hr
      | succ i => exact ih.2 i (Nat.lt_of_succ_lt_succ h) (Nat.lt_of_succ_lt_succ h')
  · rintro ⟨hl, h⟩
    induction as generalizing bs with
    | nil =>
      cases bs with
      | nil => exact .nil
      | cons b bs => cases hl
    | cons a as ih =>
      cases bs with
      | nil => cases hl
      | cons b bs =>
        refine .cons (h 0 (by simp) (by simp)) (ih bs (by simpa using hl) fun i hi hi' => ?_)
        exact h (i + 1) (Nat.succ_lt_succ hi) (Nat.succ_lt_succ hi')

end OneNote.Spec
