/-
C27: Ink path numbers decode to the encoded numbers.
-/
import Verif.Lemmas.MultiByte

namespace OneNote

open Spec.Ink

/-- A list of signed integers in the multi-byte encoding decodes to exactly that list, whatever
bytes follow it. -/
theorem C27_roundtrip (vs : List Int) (h : ∀ v ∈ vs, v.natAbs < 2 ^ 63) (hl : vs.length < 2 ^ 63)
    (rest : Bytes) : MultiByte.decodeSigned (numbers vs ++ rest) = .ok vs := by
  have hlen : zigzag vs.length < 2 ^ 64 := zigzag_lt (by omega)
  have hz : zigzag (vs.length : Int) = 2 * vs.length := by unfold zigzag; split <;> omega
  have h0 := uint_fine hlen
  unfold MultiByte.decodeSigned MultiByte.decode numbers
  rw [List.append_assoc, decodeUint_complete _ h0.1 h0.2.1 h0.2.2]
  simp only
  have := decodeLoop_complete
    (uint (zigzag vs.length) ++ ((vs.map fun v => uint (zigzag v)).flatten ++ rest)) rest
    (vs.map fun v => uint (zigzag v)) (uint (zigzag vs.length)).length (by
      intro bs hbs
      obtain ⟨v, hv, rfl⟩ := List.mem_map.mp hbs
      exact uint_fine (zigzag_lt (h v hv))) (by rw [List.drop_left]) (by simp)
  rw [List.length_map] at this
  rw [value_uint, show zigzag (vs.length : Int) >>> 1 = vs.length by
    rw [hz, Nat.shiftRight_eq_div_pow]; omega, this]
  simp only [List.map_map]
  congr 1
  calc List.map _ vs = List.map id vs := by
        apply List.map_congr_left
        intro v _
        simp only [Function.comp_apply, value_uint, signed_eq, unzigzag_zigzag, id]
    _ = vs := List.map_id vs

/-- Encodings that are not the shortest are understood too: every way to write the length and the
numbers in complete groups of at most ten bytes decodes to the numbers written. -/
theorem C27_any_encoding (len : Bytes) (ns : List Bytes) (rest : Bytes)
    (hl : Complete len ∧ len.length ≤ 10 ∧ value len < 2 ^ 64)
    (hn : ∀ bs ∈ ns, Complete bs ∧ bs.length ≤ 10 ∧ value bs < 2 ^ 64)
    (hc : value len / 2 = ns.length) :
    MultiByte.decodeSigned (len ++ (ns.flatten ++ rest))
      = .ok (ns.map fun bs => unzigzag (value bs)) := by
  unfold MultiByte.decodeSigned MultiByte.decode
  rw [decodeUint_complete _ hl.1 hl.2.1 hl.2.2]
  simp only
  rw [show value len >>> 1 = ns.length by rw [Nat.shiftRight_eq_div_pow]; simpa using hc,
    decodeLoop_complete _ rest ns len.length hn (by rw [List.drop_left]) (by simp)]
  simp only [List.map_map]
  congr 1
  apply List.map_congr_left
  intro bs _
  exact signed_eq _

/-- The two numbers 3 and -200, followed by two bytes that are ignored. -/
example : numbers [3, -200] ++ [7, 9] = [0x04, 0x06, 0x91, 0x03, 7, 9]
    ∧ MultiByte.decodeSigned [0x04, 0x06, 0x91, 0x03, 7, 9] = .ok [3, -200] := by
  have e : numbers [3, -200] = [0x04, 0x06, 0x91, 0x03] := by
    simp [numbers, zigzag]
    simp [uint]
  refine ⟨by rw [e]; rfl, ?_⟩
  have := C27_roundtrip [3, -200] (by decide) (by decide) [7, 9]
  rwa [e] at this

/-- A length of 1 written in two bytes and the number 0 in three. -/
example : MultiByte.decodeSigned [0x82, 0x00, 0x80, 0x80, 0x00] = .ok [0] :=
  C27_any_encoding [0x82, 0x00] [[0x80, 0x80, 0x00]] [] (by simp [Complete, more, value])
    (by simp [Complete, more, value]) rfl

#print axioms C27_roundtrip
#print axioms C27_any_encoding

end OneNote
