/-
Ink dimensions and the blocks of a stroke's numbers.
-/
import Verif.Lemmas.Node
import Verif.Lemmas.Data
import Verif.Spec.Ink

namespace OneNote

open Spec Spec.Ink

theorem scaleOf_eq (s : Option F32) : scaleOf s = scale s := by cases s <;> rfl

theorem findDimension_first {dims : List InkDimension} {id : Guid} {i : Nat}
    (h : FirstAt dims id i) : findDimension dims id = .ok i := by
  unfold findDimension
  have : (dims.findIdx? fun d => decide (d.id = id)) = some i := by
    obtain ⟨⟨d, hd, he⟩, hj⟩ := h
    have hlt : i < dims.length := by
      rw [List.getElem?_eq_some_iff] at hd
      exact hd.1
    rw [List.findIdx?_eq_some_iff_getElem]
    refine ⟨hlt, ?_, ?_⟩
    · rw [List.getElem?_eq_getElem hlt] at hd
      simp [Option.some.inj hd, he]
    · intro j hji
      have := hj j hji (dims[j]'(by omega)) (List.getElem?_eq_getElem (by omega))
      simpa using this
  rw [this]
  rfl

theorem findDimension_none {dims : List InkDimension} {id : Guid}
    (h : ∀ d ∈ dims, d.id ≠ id) : findDimension dims id = .error .malformedOneNote := by
  unfold findDimension
  have : (dims.findIdx? fun d => decide (d.id = id)) = none := by
    rw [List.findIdx?_eq_none_iff]
    intro d hd
    simpa using h d hd
  rw [this]
  rfl

/-- The blocks of all dimensions lie inside the data. -/
theorem block_fits {n d i : Nat} (h : i < d) : n / d * i + n / d ≤ n := by
  have h1 : n / d * i + n / d = n / d * (i + 1) := by rw [Nat.mul_add, Nat.mul_one]
  rw [h1]
  exact Nat.le_trans (Nat.mul_le_mul_left _ h) (Nat.div_mul_le_self n d)

theorem toI32_i32 {v : Int} (h : -2 ^ 31 ≤ v ∧ v < 2 ^ 31) : toI32 (i32 v) = v ∧ i32 v < 2 ^ 32 := by
  unfold toI32 i32
  split <;> split <;> omega

theorem entry_dimension {d : InkDimension} {rest : Bytes}
    (hl : -2 ^ 31 ≤ d.limitLower ∧ d.limitLower < 2 ^ 31)
    (hu : -2 ^ 31 ≤ d.limitUpper ∧ d.limitUpper < 2 ^ 31) :
    P.run InkDimension.entry (dimension d rest) = .ok d := by
  unfold P.run InkDimension.entry dimension
  rw [P.bind_ok (Guid.parse_guid _ _),
    P.bind_ok (show getU32 _ = _ from getLE_leBytes_lt (n := 4) (toI32_i32 hl).2 _),
    P.bind_ok (show getU32 _ = _ from getLE_leBytes_lt (n := 4) (toI32_i32 hu).2 _), (toI32_i32 hl).1, (toI32_i32 hu).1]
  rfl

end OneNote
