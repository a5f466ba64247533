/-
The multi-byte number encoding of ink data ([MS-ISF], "Multi-byte Encoding of Signed Numbers").

A number is written in groups of seven bits, least significant first. Every byte but the last has its
top bit set. Independent of the model's decoder.
-/
import Verif.Model.Basic

namespace OneNote.Spec.Ink

/-- The top bit: another byte of the number follows. -/
def more (b : UInt8) : Prop := 128 ≤ b.toNat

/-- The number that seven-bit groups stand for, least significant group first. -/
def value : Bytes → Nat
  | [] => 0
  | b :: bs => b.toNat % 128 + 128 * value bs

/-- The bytes of one number: the top bit is set on all of them but the last. -/
def Complete : Bytes → Prop
  | [] => False
  | [b] => ¬ more b
  | b :: bs => more b ∧ Complete bs

/-- The shortest encoding of a number. -/
def uint (n : Nat) : Bytes :=
  if n < 128 then [UInt8.ofNat n] else UInt8.ofNat (128 + n % 128) :: uint (n / 128)
  termination_by n
  decreasing_by omega

/-- A signed number as an unsigned one: the lowest bit is the sign. -/
def zigzag (v : Int) : Nat := if v < 0 then 2 * v.natAbs + 1 else 2 * v.natAbs

/-- A list of signed numbers: how many there are, then the numbers. -/
def numbers (vs : List Int) : Bytes :=
  uint (zigzag vs.length) ++ (vs.map fun v => uint (zigzag v)).flatten

/-- The signed number an unsigned one stands for. -/
def unzigzag (n : Nat) : Int := if n % 2 = 1 then -((n / 2 : Nat) : Int) else ((n / 2 : Nat) : Int)

end OneNote.Spec.Ink
