/-
Termination of a computation with a bound on its nested calls.
-/
import Verif.Model.Basic

namespace OneNote.Spec

/-- `f n` is the result of a computation with at most `n` nested calls. The computation ends if from
some number of calls on the result is always the same and is not that calls ran out. -/
def Terminates {α : Type} (f : Nat → Res α) : Prop :=
  ∃ k r, r ≠ .error .fuel ∧ ∀ n, k ≤ n → f n = r

/-- The computation runs out of any number of nested calls. -/
def Diverges {α : Type} (f : Nat → Res α) : Prop := ∀ n, f n = .error .fuel

end OneNote.Spec
