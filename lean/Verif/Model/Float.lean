/-
The 32-bit floating point arithmetic that /repo/src/onenote/ink.rs uses: `as f32`, `*` and `-`
(IEEE 754 binary32, round to nearest, ties to even: the behaviour of Rust's `f32`).
-/
import Verif.Model.Document

namespace OneNote.F32

/-- The sign bit. -/
def sign (b : F32) : Bool := decide (b / 2 ^ 31 % 2 = 1)

/-- All bits but the sign. -/
def rest (b : F32) : Nat := b % 2 ^ 31

/-- The bits of infinity. Above are the NaNs, below the finite numbers. -/
def infinity : Nat := 0xFF * 2 ^ 23

/-- A quiet NaN. Simplification: Rust does not say which NaN an operation returns. -/
def nan : F32 := infinity + 2 ^ 22

/-- The size of a finite number, in units of 2^-149, from all its bits but the sign: 8 bits of
exponent and 23 bits of fraction. -/
def size (m : Nat) : Nat :=
  if m / 2 ^ 23 = 0 then m else (2 ^ 23 + m % 2 ^ 23) * 2 ^ (m / 2 ^ 23 - 1)

/-- A number with a sign. -/
def withSign (s : Bool) (m : Nat) : F32 := if s then m + 2 ^ 31 else m

/-- `n / 2^d`, rounded to the nearest integer, ties to the even one. -/
def halfEven (n d : Nat) : Nat :=
  if 2 * (n % 2 ^ d) < 2 ^ d ∨ 2 * (n % 2 ^ d) = 2 ^ d ∧ n / 2 ^ d % 2 = 0 then n / 2 ^ d
  else n / 2 ^ d + 1

/-- The number of low bits of `n` that are rounded away when `n` is in units of `2^-(149 + s)`: all
but 24 bits remain, and no bits below 2^-149. -/
def dropped (n s : Nat) : Nat := max (n.log2 + 1 - 24) s

/-- The bits, but the sign, of the number nearest to `n`, which is in units of `2^-(149 + s)`. -/
def round (n s : Nat) : Nat :=
  min ((dropped n s - s) * 2 ^ 23 + halfEven n (dropped n s)) infinity

/-- `i as f32`, as in ink.rs L224-227 and L300-301. -/
def ofInt (i : Int) : F32 := withSign (decide (i < 0)) (round (i.natAbs * 2 ^ 149) 0)

/-- `a * b`, as in ink.rs L159-162, L224-227 and L300-301. -/
def mul (a b : F32) : F32 :=
  let s := sign a != sign b
  if rest a > infinity ∨ rest b > infinity then nan
  else if rest a = infinity ∨ rest b = infinity then
    if rest a = 0 ∨ rest b = 0 then nan else withSign s infinity
  else withSign s (round (size (rest a) * size (rest b)) 149)

/-- The value of a finite number in units of 2^-149. -/
def units (b : F32) : Int := if sign b then -(size (rest b) : Int) else size (rest b)

/-- `a - b`, as in ink.rs L226-227. -/
def sub (a b : F32) : F32 :=
  if rest a > infinity ∨ rest b > infinity then nan
  else if rest a = infinity then
    if rest b = infinity ∧ sign a = sign b then nan else a
  else if rest b = infinity then withSign (!sign b) infinity
  else
    let d := units a - units b
    if d = 0 then withSign (sign a && !sign b && decide (rest a = 0)) 0
    else withSign (decide (d < 0)) (round d.natAbs 0)

end OneNote.F32

namespace OneNote

/-- The number a computation of ink.rs returns. -/
def F32e.eval : F32e → F32
  | .bits v => v
  | .ofInt i => F32.ofInt i
  | .mul a b => F32.mul a.eval b.eval
  | .sub a b => F32.sub a.eval b.eval

end OneNote
