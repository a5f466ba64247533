/-
Trimming a repeated suffix.
-/
import Verif.Model.Section

namespace OneNote

theorem stripReversed_iff (suffix s rest : Text) :
    stripReversed suffix s = some rest ↔ s = suffix ++ rest := by
  induction suffix generalizing s with
  | nil => simp [stripReversed, eq_comm]
  | cons c cs ih =>
    cases s with
    | nil => simp [stripReversed]
    | cons d ds =>
      unfold stripReversed
      split
      · rename_i h
        rw [ih, List.cons_append, List.cons.injEq]
        exact ⟨fun e => ⟨h.symm, e⟩, fun e => e.2⟩
      · rename_i h
        simp only [reduceCtorEq, List.cons_append, List.cons.injEq, false_iff, not_and]
        exact fun e => absurd e.symm h

theorem trimReversed_spec (suffix : Text) (hs : suffix ≠ []) (n : Nat) (s : Text)
    (hn : s.length ≤ n) : ∃ k, s = (List.replicate k suffix).flatten ++ trimReversed suffix n s ∧
      ¬ ∃ rest, trimReversed suffix n s = suffix ++ rest := by
  induction n generalizing s with
  | zero =>
    refine ⟨0, by simp [trimReversed], ?_⟩
    rintro ⟨rest, h⟩
    cases s with
    | nil => cases suffix with
      | nil => exact hs rfl
      | cons c cs => cases h
    | cons c cs => simp at hn
  | succ n ih =>
    unfold trimReversed
    split
    · rename_i rest h
      rw [stripReversed_iff] at h
      have hl : 0 < suffix.length := List.length_pos_iff.2 hs
      obtain ⟨k, hk, hno⟩ := ih rest (by rw [h, List.length_append] at hn; omega)
      refine ⟨k + 1, ?_, hno⟩
      rw [List.replicate_succ, List.flatten_cons, List.append_assoc, ← hk]
      exact h
    · rename_i h
      refine ⟨0, by simp, ?_⟩
      rintro ⟨rest, hr⟩
      rw [(stripReversed_iff suffix s rest).2 hr] at h
      cases h

theorem reverse_flatten_replicate (k : Nat) (s : Text) :
    (List.replicate k s.reverse).flatten.reverse = (List.replicate k s).flatten := by
  induction k with
  | zero => rfl
  | succ k ih =>
    rw [List.replicate_succ', List.flatten_append, List.reverse_append, ih, List.replicate_succ]
    simp

/-- The result of trimming: what is left after as many suffixes as possible. -/
theorem trimEndMatches_spec (suffix s : Text) (hs : suffix ≠ []) :
    ∃ k, s = trimEndMatches suffix s ++ (List.replicate k suffix).flatten ∧
      ¬ ∃ b, trimEndMatches suffix s = b ++ suffix := by
  obtain ⟨k, hk, hno⟩ := trimReversed_spec suffix.reverse (by simpa using hs) s.length s.reverse
    (by simp)
  refine ⟨k, ?_, ?_⟩
  · unfold trimEndMatches
    have := congrArg List.reverse hk
    rw [List.reverse_reverse, List.reverse_append, reverse_flatten_replicate] at this
    exact this
  · rintro ⟨b, hb⟩
    refine hno ⟨b.reverse, ?_⟩
    unfold trimEndMatches at hb
    have := congrArg List.reverse hb
    rw [List.reverse_reverse, List.reverse_append] at this
    exact this

/-- There is only one such result. -/
theorem trimmed_unique (suffix a b : Text) (ha : ¬ ∃ x, a = x ++ suffix)
    (hb : ¬ ∃ x, b = x ++ suffix) : ∀ k l : Nat,
    a ++ (List.replicate k suffix).flatten = b ++ (List.replicate l suffix).flatten → a = b
  | 0, 0, h => by simpa using h
  | 0, l + 1, h => by
    refine absurd ⟨b ++ (List.replicate l suffix).flatten, ?_⟩ ha
    simpa [List.replicate_succ'] using h
  | k + 1, 0, h => by
    refine absurd ⟨a ++ (List.replicate k suffix).flatten, ?_⟩ hb
    simpa [List.replicate_succ'] using h.symm
  | k + 1, l + 1, h => by
    refine trimmed_unique suffix a b ha hb k l ?_
    rw [List.replicate_succ', List.replicate_succ', List.flatten_append, List.flatten_append,
      ← List.append_assoc, ← List.append_assoc] at h
    exact List.append_cancel_right h

end OneNote
