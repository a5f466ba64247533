/-
C28: Truncated or over-long ink numbers are rejected. FALSE of the code: data that ends inside a
number is decoded as if the number were complete, and bits beyond the 64th are dropped.
-/
import Verif.Lemmas.MultiByte
import Verif.Lemmas.Readings2
import Verif.Spec.SampleDrawing

namespace OneNote

open Spec.Ink

/-- Data without any byte, or with fewer numbers than announced, is rejected. -/
theorem C28_missing_numbers_partial (len : Bytes) (ns : List Bytes)
    (hl : Complete len ∧ len.length ≤ 10 ∧ value len < 2 ^ 64)
    (hn : ∀ bs ∈ ns, Complete bs ∧ bs.length ≤ 10 ∧ value bs < 2 ^ 64)
    (hc : ns.length < value len / 2) :
    MultiByte.decodeSigned [] = .error .malformedOneNoteFile ∧
      MultiByte.decodeSigned (len ++ ns.flatten) = .error .malformedOneNoteFile := by
  refine ⟨rfl, ?_⟩
  unfold MultiByte.decodeSigned MultiByte.decode
  rw [decodeUint_complete _ hl.1 hl.2.1 hl.2.2]
  simp only
  rw [Nat.shiftRight_eq_div_pow, Nat.pow_one]
  obtain ⟨k, hk⟩ : ∃ k, value len / 2 = ns.length + (k + 1) := ⟨value len / 2 - ns.length - 1, by omega⟩
  rw [hk, decodeLoop_after _ [] ns len.length (k + 1) hn (by rw [List.drop_left]; simp) (by simp),
    MultiByte.decodeLoop]
  simp [Except.map]

/-- A number of more than ten bytes is rejected, as the length or as any of the numbers. -/
theorem C28_overlong_partial (len : Bytes) (ns : List Bytes) (bad : Bytes) (b : UInt8)
    (rest : Bytes)
    (hl : Complete len ∧ len.length ≤ 10 ∧ value len < 2 ^ 64)
    (hn : ∀ bs ∈ ns, Complete bs ∧ bs.length ≤ 10 ∧ value bs < 2 ^ 64)
    (hc : ns.length < value len / 2) (hbad : bad.length = 10 ∧ ∀ x ∈ bad, more x) :
    MultiByte.decodeSigned (bad ++ b :: rest) = .error .malformedOneNoteFile ∧
      MultiByte.decodeSigned (len ++ (ns.flatten ++ (bad ++ b :: rest)))
        = .error .malformedOneNoteFile := by
  have hb : MultiByte.decodeUint (bad ++ b :: rest) = .error .malformedOneNoteFile :=
    decodeUintLoop_overlong bad b rest 0 0 hbad.2 hbad.1
  unfold MultiByte.decodeSigned MultiByte.decode
  refine ⟨by rw [hb], ?_⟩
  rw [decodeUint_complete _ hl.1 hl.2.1 hl.2.2]
  simp only
  rw [Nat.shiftRight_eq_div_pow, Nat.pow_one]
  obtain ⟨k, hk⟩ : ∃ k, value len / 2 = ns.length + (k + 1) := ⟨value len / 2 - ns.length - 1, by omega⟩
  rw [hk, decodeLoop_after _ (bad ++ b :: rest) ns len.length (k + 1) hn (by rw [List.drop_left])
    (by simp), MultiByte.decodeLoop]
  have hlt : ¬ len.length + ns.flatten.length
      ≥ (len ++ (ns.flatten ++ (bad ++ b :: rest))).length := by
    simp only [List.length_append, List.length_cons]; omega
  have hdrop : (len ++ (ns.flatten ++ (bad ++ b :: rest))).drop (len.length + ns.flatten.length)
      = bad ++ b :: rest := by
    rw [← List.drop_drop, List.drop_left, List.drop_left]
  simp only [hlt, if_false]
  rw [hdrop, hb]
  rfl

/-- What happens instead when the data ends inside the last announced number, for every such data:
the groups that are there are returned as the number. -/
theorem C28_truncated_accepted (len : Bytes) (ns : List Bytes) (bs : Bytes)
    (hl : Complete len ∧ len.length ≤ 10 ∧ value len < 2 ^ 64)
    (hn : ∀ bs ∈ ns, Complete bs ∧ bs.length ≤ 10 ∧ value bs < 2 ^ 64)
    (hc : value len / 2 = ns.length + 1)
    (hb : (∀ x ∈ bs, more x) ∧ 0 < bs.length ∧ bs.length ≤ 9) :
    MultiByte.decodeSigned (len ++ (ns.flatten ++ bs))
      = .ok ((ns.map fun b => unzigzag (value b)) ++ [unzigzag (value bs)]) := by
  have ht : MultiByte.decodeUint bs = .ok (value bs, bs.length) := by
    have := decodeUintLoop_truncated bs 0 0 hb.1 (by simp) (by omega) (by omega)
    simpa [MultiByte.decodeUint] using this
  unfold MultiByte.decodeSigned MultiByte.decode
  rw [decodeUint_complete _ hl.1 hl.2.1 hl.2.2]
  simp only
  rw [Nat.shiftRight_eq_div_pow, Nat.pow_one, hc,
    decodeLoop_after _ bs ns len.length 1 hn (by rw [List.drop_left]) (by simp),
    MultiByte.decodeLoop]
  have hlt : ¬ len.length + ns.flatten.length ≥ (len ++ (ns.flatten ++ bs)).length := by
    simp only [List.length_append]; omega
  have hdrop : (len ++ (ns.flatten ++ bs)).drop (len.length + ns.flatten.length) = bs := by
    rw [← List.drop_drop, List.drop_left, List.drop_left]
  simp only [hlt, if_false]
  rw [hdrop, ht]
  simp only [MultiByte.decodeLoop, Except.map, List.map_append, List.map_map, List.map_cons,
    List.map_nil, signed_eq]
  congr 2
  apply List.map_congr_left
  intro b _
  exact signed_eq _

/-- **Exactly what is accepted**: a number, then half as many numbers as it says. A number has at most
ten bytes, and is complete or cut off by the end of the data; of its value the lowest 64 bits are taken.
Everything else is malformed. -/
theorem C28_accepted_exactly (data : Bytes) :
    (∀ vs, MultiByte.decodeSigned data = .ok vs ↔ ∃ count rest ns, Spec.Value.Number data count rest ∧
      Spec.Value.Numbers rest ns ∧ ns.length = count / 2 ∧ vs = ns.map unzigzag) ∧
    ∀ e, MultiByte.decodeSigned data = .error e → e = .malformedOneNoteFile := by
  refine ⟨fun vs => ?_, fun e h => ?_⟩
  · rw [decodeSigned_iff]
    constructor
    · rintro ⟨d, k, rest, ns, h1, h2⟩
      cases h1
      exact ⟨k, rest, ns, h2⟩
    · rintro ⟨k, rest, ns, h⟩
      exact ⟨data, k, rest, ns, rfl, h⟩
  · unfold MultiByte.decodeSigned MultiByte.decode at h
    have hu : ∀ d e, MultiByte.decodeUint d = .error e → e = .malformedOneNoteFile := by
      intro d e h
      have key : ∀ (d : Bytes) v k, MultiByte.decodeUintLoop d v k = .error e →
          e = .malformedOneNoteFile := by
        intro d
        induction d with
        | nil =>
          intro v k h
          unfold MultiByte.decodeUintLoop at h
          split at h <;> cases h
          rfl
        | cons b d ih =>
          intro v k h
          unfold MultiByte.decodeUintLoop at h
          split at h
          · cases h; rfl
          split at h
          · cases h; rfl
          dsimp only at h
          split at h
          · exact ih _ _ h
          · cases h
      exact key d 0 0 h
    have hl : ∀ n i e, MultiByte.decodeLoop data n i = .error e → e = .malformedOneNoteFile := by
      intro n
      induction n with
      | zero => intro i e h; cases h
      | succ n ih =>
        intro i e h
        unfold MultiByte.decodeLoop at h
        split at h
        · cases h; rfl
        split at h
        · next hx => cases h; exact hu _ _ hx
        · split at h
          · next hx => cases h; exact ih _ _ hx
          · cases h
    split at h
    · next hx =>
      cases h
      split at hx
      · next hy => cases hx; exact hu _ _ hy
      · exact hl _ _ _ hx
    · cases h

/-- The number 200 cut off after its first byte is accepted and read as 8. -/
theorem C28_truncation_refuted :
    ¬ ∀ (vs : List Int) (p q : Bytes), (∀ v ∈ vs, v.natAbs < 2 ^ 63) → vs.length < 2 ^ 63 →
      numbers vs = p ++ q → q ≠ [] → ∃ e, MultiByte.decodeSigned p = .error e := by
  intro h
  obtain ⟨e, he⟩ := h [200] [0x02, 0x90] [0x03] (by decide) (by decide)
    (by simp [numbers, zigzag]; simp [uint]) (by simp)
  rw [show MultiByte.decodeSigned [0x02, 0x90] = .ok [8] by decide +kernel] at he
  cases he

/-- The number 2^65, which does not fit in 64 bits, is accepted and read as 0. -/
theorem C28_overflow_refuted :
    ¬ ∀ (n : Nat), 2 ^ 64 ≤ n →
      ∃ e, MultiByte.decodeSigned (uint 2 ++ uint n) = .error e := by
  intro h
  obtain ⟨e, he⟩ := h (2 ^ 65) (by decide)
  rw [show uint 2 ++ uint (2 ^ 65)
      = [0x02, 0x80, 0x80, 0x80, 0x80, 0x80, 0x80, 0x80, 0x80, 0x80, 0x04] by simp [uint],
    show MultiByte.decodeSigned [0x02, 0x80, 0x80, 0x80, 0x80, 0x80, 0x80, 0x80, 0x80, 0x80, 0x04]
      = .ok [0] by decide +kernel] at he
  cases he

/-- Two numbers announced, one there; and a number of eleven bytes. -/
example : MultiByte.decodeSigned ([0x04] ++ [[0x06]].flatten) = .error .malformedOneNoteFile
    ∧ MultiByte.decodeSigned ([0x04] ++ ([[0x06]].flatten ++ (List.replicate 10 0x80 ++ [0x00])))
      = .error .malformedOneNoteFile :=
  ⟨(C28_missing_numbers_partial [0x04] [[0x06]] (by simp [Complete, more, value])
      (by simp [Complete, more, value]) (by decide)).2,
    (C28_overlong_partial [0x04] [[0x06]] (List.replicate 10 0x80) 0x00 []
      (by simp [Complete, more, value]) (by simp [Complete, more, value]) (by decide)
      (by simp [more])).2⟩

/-- One announced number, cut off after its second byte. -/
example : MultiByte.decodeSigned ([0x02] ++ ([].flatten ++ [0x86, 0x81])) = .ok [67] :=
  C28_truncated_accepted [0x02] [] [0x86, 0x81] (by simp [Complete, more, value]) (by simp)
    (by decide) (by simp [more])

#print axioms C28_missing_numbers_partial
#print axioms C28_overlong_partial
#print axioms C28_truncated_accepted
#print axioms C28_accepted_exactly
#print axioms C28_truncation_refuted
#print axioms C28_overflow_refuted

/-! ### A whole file -/

/-- **Refuted for a file**: a path with the point (3, 200), and the same path with its last byte cut off.
Both files are read without an error; the second shows the point (3, 8). -/
theorem C28_file_refuted : ∃ p q : Bytes, q ≠ [] ∧ numbers [3, 200] = p ++ q ∧
    (parseSectionBuffer 2 Order.id (Spec.drawingFile (p ++ q) []) []).toOption.map
      (fun s => (Spec.drawings s).map Spec.shownPoints) = some [[(0x40400000, 0x43480000)]] ∧
    (parseSectionBuffer 2 Order.id (Spec.drawingFile p []) []).toOption.map
      (fun s => (Spec.drawings s).map Spec.shownPoints) = some [[(0x40400000, 0x41000000)]] := by
  refine ⟨[0x04, 0x06, 0x90], [0x03], by simp, by simp [numbers, zigzag]; simp [uint], ?_, ?_⟩ <;>
    decide +kernel

end OneNote
#print axioms OneNote.C28_file_refuted
