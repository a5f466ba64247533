/-
C08: Declared counts cannot amplify memory use.
-/
import Verif.Lemmas.Size
import Verif.Lemmas.Sample

namespace OneNote

open Spec

/-- What the parsed container holds (identifiers, cells, mappings, declarations, objects and
payload bytes) is at most the number of bytes consumed. -/
theorem C08_no_amplification (s rest : Bytes) (v : Packaging)
    (h : Packaging.parse s = .ok (v, rest)) : sizePackage v.package + rest.length ≤ s.length := by
  have := Step.packaging s v rest h
  simpa using this

/-- A count-prefixed list of identifiers whose count exceeds the remaining input is an error, for
every count. -/
theorem C08_count_too_large (c s : Bytes) (n : Nat) (hc : Compact n c) (hn : s.length < n) :
    (∃ e, ExGuid.parseArray (c ++ s) = .error e) ∧ (∃ e, CellId.parseArray (c ++ s) = .error e) ∧
      BinaryItem.parse (c ++ s) = .error .eof := by
  refine ⟨?_, ?_, ?_⟩
  · unfold ExGuid.parseArray
    rw [P.bind_ok (compact_enc hc s)]
    cases h : replicateP ExGuid.parse n s with
    | error e => exact ⟨e, rfl⟩
    | ok w =>
      obtain ⟨l, r⟩ := w
      have hl : ∀ n (s : Bytes) l r, replicateP ExGuid.parse n s = .ok (l, r) → l.length = n := by
        intro n
        induction n with
        | zero => intro s l r h; cases h; rfl
        | succ n ih =>
          intro s l r h
          unfold replicateP at h
          rw [P.bind_eq_ok] at h
          obtain ⟨a, r1, -, h2⟩ := h
          rw [P.bind_eq_ok] at h2
          obtain ⟨as, r2, h2, h3⟩ := h2
          cases h3
          simp [ih _ _ _ h2]
      have h1 := Step.replicateP Eats.exguid _ _ _ _ h
      have h2 := hl _ _ _ _ h
      omega
  · unfold CellId.parseArray
    rw [P.bind_ok (compact_enc hc s)]
    cases h : replicateP CellId.parse n s with
    | error e => exact ⟨e, rfl⟩
    | ok w =>
      obtain ⟨l, r⟩ := w
      have hl : ∀ n (s : Bytes) l r, replicateP CellId.parse n s = .ok (l, r) → l.length = n := by
        intro n
        induction n with
        | zero => intro s l r h; cases h; rfl
        | succ n ih =>
          intro s l r h
          unfold replicateP at h
          rw [P.bind_eq_ok] at h
          obtain ⟨a, r1, -, h2⟩ := h
          rw [P.bind_eq_ok] at h2
          obtain ⟨as, r2, h2, h3⟩ := h2
          cases h3
          simp [ih _ _ _ h2]
      have h1 := Step.replicateP Eats.cellId _ _ _ _ h
      have h2 := hl _ _ _ _ h
      omega
  · unfold BinaryItem.parse
    rw [P.bind_ok (compact_enc hc s)]
    simp [readN, hn]

/-- The sample container is accepted and holds 13 units. -/
example : ∃ v, Packaging.parse (sampleFile ++ [7]) = .ok (v, [7]) ∧ sizePackage v.package = 13 :=
  ⟨_, sampleFile_parse [7], by decide⟩

/-- A count of 2^64 - 1 with two bytes left. -/
example : BinaryItem.parse ((0x80 :: leBytes 8 (2 ^ 64 - 1)) ++ [1, 2]) = .error .eof :=
  (C08_count_too_large _ _ _ (.wide _ (by decide)) (by decide)).2.2

#print axioms C08_no_amplification
#print axioms C08_count_too_large

end OneNote
