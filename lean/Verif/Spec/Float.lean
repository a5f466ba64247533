/-
IEEE 754 binary32: the value of a bit pattern, and what correct rounding is.
-/
import Verif.Model.Property

namespace OneNote.Spec.Float

/-- Bits 23 to 30. -/
def exponent (b : F32) : Nat := b / 2 ^ 23 % 2 ^ 8

/-- Bits 0 to 22. -/
def fraction (b : F32) : Nat := b % 2 ^ 23

/-- Bit 31. -/
def Negative (b : F32) : Prop := b / 2 ^ 31 % 2 = 1

instance (b : F32) : Decidable (Negative b) := inferInstanceAs (Decidable (_ = _))

def Finite (b : F32) : Prop := exponent b < 255

instance (b : F32) : Decidable (Finite b) := inferInstanceAs (Decidable (_ < _))

def Infinite (b : F32) : Prop := exponent b = 255 ∧ fraction b = 0

instance (b : F32) : Decidable (Infinite b) := inferInstanceAs (Decidable (_ ∧ _))

def NaN (b : F32) : Prop := exponent b = 255 ∧ fraction b ≠ 0

instance (b : F32) : Decidable (NaN b) := inferInstanceAs (Decidable (_ ∧ _))

/-- The value of a finite number, as a multiple of the smallest positive number 2^-149. For
the infinities this is ± 2^128. -/
def value (b : F32) : Int :=
  (if Negative b then -1 else 1)
    * (if exponent b = 0 then fraction b else (2 ^ 23 + fraction b) * 2 ^ (exponent b - 1) : Nat)

/-- The distance of a number from `n · 2^-(149 + k)`, in units of `2^-(149 + k)`. -/
def distance (n : Int) (k : Nat) (b : F32) : Nat := (n - value b * 2 ^ k).natAbs

/-- `r` is the exact number `n · 2^-(149 + k)`, correctly rounded: no other finite number is nearer,
and if another one is as near, then `r` is the even one. From the number half-way between the
largest finite number and 2^128 on, `r` is infinite. -/
def Rounded (n : Int) (k : Nat) (r : F32) : Prop :=
  (n.natAbs < (2 ^ 25 - 1) * 2 ^ (252 + k) ∧ Finite r ∧
    ∀ b, Finite b → distance n k r ≤ distance n k b ∧
      (distance n k r = distance n k b → value b = value r ∨ fraction r % 2 = 0)) ∨
  ((2 ^ 25 - 1) * 2 ^ (252 + k) ≤ n.natAbs ∧ Infinite r ∧ (Negative r ↔ n < 0))

/-- The exact value of an integer. -/
def whole (i : Int) : Int := i * 2 ^ 149

/-- How a stored number is shown: as the nearest number if there is no scale. With a scale, the
nearest number is multiplied with the scale, and the product is rounded. -/
def Shown (scale : Option F32) (x : Int) (r : F32) : Prop :=
  match scale with
  | none => Rounded (whole x) 0 r
  | some s => ∃ f, Rounded (whole x) 0 f ∧
      (Finite s → Finite f → Rounded (value s * value f) 149 r) ∧ (¬ Finite s → ¬ Finite r)

/-- `r` is the product of `a` and `f`, correctly rounded; it is not finite if one of them is not. -/
def Product (a f r : F32) : Prop :=
  (Finite a → Finite f → Rounded (value a * value f) 149 r) ∧ (¬ (Finite a ∧ Finite f) → ¬ Finite r)

/-- There is no scale, or it is a positive number. -/
def Positive : Option F32 → Prop
  | none => True
  | some s => Finite s ∧ ¬ Negative s

/-- There is no scale, or it is a number of at most 2^64. -/
def Moderate : Option F32 → Prop
  | none => True
  | some s => Finite s ∧ (value s).natAbs ≤ 2 ^ (64 + 149)

end OneNote.Spec.Float
