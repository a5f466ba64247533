/-
C92: Reading a file takes memory in proportion to its size.

False: a revision that several cells share is read anew for each of them (`C92_refuted`,
`C92_factor_refuted`; the cache in /repo/src/onestore/mod.rs L79-82 is never filled). What holds is that
the number of objects in memory is at most a quarter of the square of the size (`C92_partial`).
-/
import Verif.Lemmas.Copies

namespace OneNote

open Spec Spec.Memory

/-- **Refuted**: for every `n` there is a section file of some hundred bytes times `n`, which shows a
single empty page, but to read it `n * n` objects are held in memory at the same time. -/
theorem C92_refuted (n : Nat) (hn : n < 2 ^ 31) (name : Text) :
    ∃ data fuel s p, data.length ≤ 5000 + 600 * n ∧
      (∀ ord, parseSectionBuffer fuel ord data name = .ok s) ∧ s.pageSeries = [⟨[p]⟩] ∧
      p.contents = [] ∧
      ∀ ord, ∃ store, readStore ord data = .ok store ∧ HoldsAtLeast (n * n) store := by
  obtain ⟨s, p, hs, h1, h2⟩ := Copies.section_written hn name
  obtain ⟨fuel, hf⟩ := C47_section_complete _ name s (Copies.plain hn) hs
  exact ⟨Copies.file n, fuel, s, p, Copies.file_length n, hf, h1, h2, Copies.held hn⟩

/-- So even a million objects for each byte are not enough. -/
theorem C92_factor_refuted : ¬ ∀ ord data store n, readStore ord data = .ok store →
    HoldsAtLeast n store → n ≤ 1000000 * data.length := by
  intro h
  obtain ⟨data, _, _, _, hl, _, _, _, hs⟩ := C92_refuted 1000000000 (by decide) []
  obtain ⟨store, hr, hh⟩ := hs Order.id
  have := h _ _ _ _ hr hh
  omega

/-- **What holds**: a file mentions so many cells and so many objects, together at most as many as it
has bytes, and at most one object is held for each cell and each object. So the objects held are at most
a quarter of the square of the size. Missing from the full statement: a bound in proportion to the
size. -/
theorem C92_partial (ord : Order) (data : Bytes) (store : Store)
    (h : readStore ord data = .ok store) (n : Nat) (hn : HoldsAtLeast n store) :
    (∃ cells objects, cells + objects ≤ data.length ∧ n ≤ cells * objects) ∧
      4 * n ≤ data.length * data.length := by
  obtain ⟨a, b, h1, h2⟩ := Copies.held_few (readStore_sound h) hn
  refine ⟨⟨a, b, h1, h2⟩, ?_⟩
  have h3 : (a + b) * (a + b) ≤ data.length * data.length := Nat.mul_le_mul h1 h1
  refine Nat.le_trans ?_ h3
  refine Nat.le_trans (Nat.mul_le_mul_left 4 h2) ?_
  rcases Nat.le_total a b with hab | hab
  · obtain ⟨c, rfl⟩ := Nat.exists_eq_add_of_le hab
    have : (a + (a + c)) * (a + (a + c)) = 4 * (a * (a + c)) + c * c := by
      simp only [Nat.mul_add, Nat.add_mul, Nat.mul_comm c a]; omega
    omega
  · obtain ⟨c, rfl⟩ := Nat.exists_eq_add_of_le hab
    have : (b + c + b) * (b + c + b) = 4 * ((b + c) * b) + c * c := by
      simp only [Nat.mul_add, Nat.add_mul, Nat.mul_comm c b]; omega
    omega

/-- A file from which nine objects in three cells are read. -/
example : ∃ store, readStore Order.id (Copies.file 3) = .ok store ∧ HoldsAtLeast 9 store ∧
    (Copies.file 3).length < 7000 := by
  obtain ⟨store, h1, h2⟩ := Copies.held (k := 3) (by decide) Order.id
  exact ⟨store, h1, h2, Nat.lt_of_le_of_lt (Copies.file_length 3) (by decide)⟩

#print axioms C92_refuted
#print axioms C92_factor_refuted
#print axioms C92_partial

end OneNote
