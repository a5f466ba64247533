/-
C68: Scaling the box of a drawing.
-/
import Verif.Lemmas.InkFloat

namespace OneNote

open Spec Spec.Float F32

/-- Each of the four numbers of the box is multiplied by the factor and rounded once. -/
theorem C68_scale (b : InkBoundingBox) (f : F32) :
    Product b.x.eval f (b.scale (.bits f)).x.eval ∧ Product b.y.eval f (b.scale (.bits f)).y.eval ∧
    Product b.width.eval f (b.scale (.bits f)).width.eval ∧
    Product b.height.eval f (b.scale (.bits f)).height.eval :=
  ⟨product .., product .., product .., product ..⟩

/-- Scaling by 1 changes nothing. -/
theorem C68_one (b : InkBoundingBox)
    (h : ∀ n ∈ [b.x.eval, b.y.eval, b.width.eval, b.height.eval], n < 2 ^ 32 ∧ ¬ NaN n) :
    (b.scale (.bits 0x3F800000)).x.eval = b.x.eval ∧ (b.scale (.bits 0x3F800000)).y.eval = b.y.eval ∧
    (b.scale (.bits 0x3F800000)).width.eval = b.width.eval ∧
    (b.scale (.bits 0x3F800000)).height.eval = b.height.eval := by
  have key : ∀ n : F32, n < 2 ^ 32 ∧ ¬ NaN n → mul n 0x3F800000 = n := by
    intro n hn
    rw [mul_comm]
    exact one_mul hn.1 hn.2
  exact ⟨key _ (h _ (by simp)), key _ (h _ (by simp)), key _ (h _ (by simp)), key _ (h _ (by simp))⟩

/-- Points that are not left of the box are not left of the scaled box when they are scaled by the same
positive factor, and in the same way for its top; a box that is wider or higher than another
is not narrower or lower when both are scaled. -/
theorem C68_inside (b : InkBoundingBox) (f p : F32) (hf : Finite f) (hn : ¬ Negative f) (hp : Finite p) :
    (Finite b.x.eval → value b.x.eval ≤ value p → value (b.scale (.bits f)).x.eval ≤ value (mul p f)) ∧
    (Finite b.y.eval → value b.y.eval ≤ value p → value (b.scale (.bits f)).y.eval ≤ value (mul p f)) ∧
    (Finite b.width.eval → value p ≤ value b.width.eval →
      value (mul p f) ≤ value (b.scale (.bits f)).width.eval) ∧
    (Finite b.height.eval → value p ≤ value b.height.eval →
      value (mul p f) ≤ value (b.scale (.bits f)).height.eval) := by
  have key : ∀ {a c : F32}, Finite a → Finite c → value a ≤ value c → value (mul a f) ≤ value (mul c f) := by
    intro a c ha hc h
    rw [mul_comm a, mul_comm c]
    exact mul_mono hf hn ha hc h
  exact ⟨fun h => key h hp, fun h => key h hp, fun h => key hp h, fun h => key hp h⟩

/-- The right edge of a scaled box can be left of the scaled right edge: the position and the width are
rounded one by one. Here the box has the position 16777214 and the width 1, the factor is 1.5. -/
theorem C68_edges_are_rounded :
    ∃ (b : InkBoundingBox) (f : F32), Finite f ∧ ¬ Negative f ∧
      value b.x.eval = whole 16777214 ∧ value b.width.eval = whole 1 ∧
      2 * (value (b.scale (.bits f)).x.eval + value (b.scale (.bits f)).width.eval) ≠ 3 * whole 16777215 ∧
      2 * value (mul (ofInt 16777215) f) ≠ 2 * (value (b.scale (.bits f)).x.eval + value (b.scale (.bits f)).width.eval) :=
  ⟨⟨.ofInt 16777214, .ofInt 0, .ofInt 1, .ofInt 1⟩, 0x3FC00000, by decide, by decide, by decide +kernel,
    by decide +kernel, by decide +kernel, by decide +kernel⟩

/-- A box at (3, -5) of size 100 × 7, scaled by 0.5. -/
example : let b : InkBoundingBox := ⟨.ofInt 3, .ofInt (-5), .ofInt 7, .ofInt 100⟩
    (b.scale (.bits 0x3F000000)).x.eval = 0x3FC00000 ∧ (b.scale (.bits 0x3F000000)).y.eval = 0xC0200000 ∧
    (b.scale (.bits 0x3F000000)).width.eval = 0x42480000 ∧ (b.scale (.bits 0x3F000000)).height.eval = 0x40600000 := by
  decide +kernel

#print axioms C68_scale
#print axioms C68_one
#print axioms C68_inside
#print axioms C68_edges_are_rounded

end OneNote
