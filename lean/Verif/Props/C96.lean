/-
C96: The work to read a file is in proportion to its size.

False: a revision is read anew for every cell that has it (the cache in /repo/src/onestore/mod.rs
L79-82 is never filled), and an object group is gone through for every reference to it
(revision.rs L88-95), so the steps can grow with the third power of the size (`C96_refuted`,
`C96_quadratic_refuted`). They never grow faster (`C96_partial`).

What a step is says `Model/Counted.lean`.
-/
import Verif.Lemmas.Repeated

namespace OneNote

open Spec

/-- The functions that count their steps are the same program. -/
theorem C96_same_program (ord : Order) (data : Bytes) :
    (readStoreCounted ord data).result = readStore ord data := Steps.readStore_result ord data

/-- **Refuted**: for every `n` there is a section file of some hundred bytes times `n`, which shows a
single empty page, but to read it takes `n * n * n` steps. -/
theorem C96_refuted (n : Nat) (hn : n < 2 ^ 31) (name : Text) :
    ∃ data fuel s p, data.length ≤ 5000 + 700 * n ∧
      (∀ ord, parseSectionBuffer fuel ord data name = .ok s) ∧ s.pageSeries = [⟨[p]⟩] ∧
      p.contents = [] ∧
      ∀ ord, n * n * n ≤ (readStoreCounted ord data).steps := by
  obtain ⟨s, p, hs, h1, h2⟩ := Repeated.section_written hn name
  obtain ⟨fuel, hf⟩ := C47_section_complete _ name s (Repeated.plain hn) hs
  refine ⟨Repeated.file n, fuel, s, p, Repeated.file_length n, hf, h1, h2, fun ord => ?_⟩
  obtain ⟨_, -, h⟩ := Repeated.steps hn ord
  exact h

/-- So a thousand steps for each byte are not enough. -/
theorem C96_factor_refuted : ¬ ∀ ord data, (∃ store, readStore ord data = .ok store) →
    (readStoreCounted ord data).steps ≤ 1000 * data.length := by
  intro h
  obtain ⟨store, hr, hs⟩ := Repeated.steps (k := 1000000) (by decide) Order.id
  have h1 := h _ _ ⟨store, hr⟩
  have h2 := Repeated.file_length 1000000
  omega

/-- Nor is the square of the size, or that a hundred times. -/
theorem C96_quadratic_refuted : ¬ ∀ ord data, (∃ store, readStore ord data = .ok store) →
    (readStoreCounted ord data).steps ≤ 100 * (data.length * data.length) := by
  intro h
  obtain ⟨store, hr, hs⟩ := Repeated.steps (k := 1000000000) (by decide) Order.id
  have h1 := h _ _ ⟨store, hr⟩
  have h2 := Repeated.file_length 1000000000
  have h3 : (Repeated.file 1000000000).length * (Repeated.file 1000000000).length ≤
      (5000 + 700 * 1000000000) * (5000 + 700 * 1000000000) := Nat.mul_le_mul h2 h2
  omega

/-- **What holds**: whether the file is read or rejected, the steps are at most the third power of the
size. The exception are the files for which the code never comes to an end (`C23`). Missing from the
full statement: a bound in proportion to the size. -/
theorem C96_partial (ord : Order) (data : Bytes) (h : readStore ord data ≠ .error .fuel) :
    (readStoreCounted ord data).steps ≤ (data.length + 1) ^ 3 := by
  have := Steps.file_steps h
  rw [Nat.pow_succ, Nat.pow_succ, Nat.pow_succ, Nat.pow_zero, Nat.one_mul]
  exact this

/-- A file that takes at least a thousand steps and at most the third power of its size. -/
example : ∃ store, readStore Order.id (Repeated.file 10) = .ok store ∧
    1000 ≤ (readStoreCounted Order.id (Repeated.file 10)).steps ∧
    (readStoreCounted Order.id (Repeated.file 10)).steps ≤ ((Repeated.file 10).length + 1) ^ 3 := by
  obtain ⟨store, h1, h2⟩ := Repeated.steps (k := 10) (by decide) Order.id
  exact ⟨store, h1, h2, C96_partial _ _ (by rw [h1]; intro h; cases h)⟩

#print axioms C96_same_program
#print axioms C96_refuted
#print axioms C96_factor_refuted
#print axioms C96_quadratic_refuted
#print axioms C96_partial

end OneNote
