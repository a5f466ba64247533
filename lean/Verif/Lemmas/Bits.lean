/-
Bit fields of a word as digits.
-/
import Verif.Model.Property
import Verif.Lemmas.Data

namespace OneNote

theorem leByte_eq (v i : Nat) : leByte v i = v / 2 ^ (8 * i) % 256 := by
  unfold leByte
  rw [Nat.shiftRight_eq_div_pow, show 0xFF = 2 ^ 8 - 1 from rfl, Nat.and_two_pow_sub_one_eq_mod]

theorem leByte_leNat (a b c d : UInt8) :
    leByte (leNat [a, b, c, d]) 0 = a.toNat ∧ leByte (leNat [a, b, c, d]) 1 = b.toNat ∧
      leByte (leNat [a, b, c, d]) 2 = c.toNat ∧ leByte (leNat [a, b, c, d]) 3 = d.toNat := by
  simp only [leByte_eq, leNat]
  have := a.toNat_lt
  have := b.toNat_lt
  have := c.toNat_lt
  have := d.toNat_lt
  omega

theorem bit_eq (v i : Nat) : v >>> i &&& 0x1 = v / 2 ^ i % 2 := by
  rw [Nat.shiftRight_eq_div_pow, show 0x1 = 2 ^ 1 - 1 from rfl, Nat.and_two_pow_sub_one_eq_mod]

theorem bitSet_eq (v i : Nat) : bitSet v i = v.testBit i := by
  unfold bitSet
  rw [bit_eq, Nat.testBit_eq_decide_div_mod_eq]
  rcases Nat.mod_two_eq_zero_or_one (v / 2 ^ i) with h | h <;> simp [h]

theorem bitSet_zero (b : Bool) (w : Nat) : bitSet (b.toNat + 2 * w) 0 = b := by
  unfold bitSet
  rw [bit_eq]
  cases b
  · rw [show ((false.toNat + 2 * w) / 2 ^ 0 % 2) = 0 by simp]; rfl
  · rw [show ((true.toNat + 2 * w) / 2 ^ 0 % 2) = 1 by simp [Nat.add_mod]]; rfl

theorem bitSet_succ (b : Bool) (w k : Nat) : bitSet (b.toNat + 2 * w) (k + 1) = bitSet w k := by
  have h : (b.toNat + 2 * w) / 2 = w := by
    have : b.toNat < 2 := by cases b <;> decide
    omega
  unfold bitSet
  rw [bit_eq, bit_eq, Nat.pow_succ', ← Nat.div_div_eq_div_mul, h]

theorem ColorRef.ofValue_eq (v : Nat) : ColorRef.ofValue v =
    if leByte v 3 = 0xFF then .ok .auto
    else if leByte v 3 = 0 then .ok (.manual (leByte v 0) (leByte v 1) (leByte v 2))
    else .error .malformedOneNoteFile := by
  unfold ColorRef.ofValue
  split
  · rename_i h; rw [if_pos h]
  · rename_i h; rw [if_neg (by omega), if_pos h]
  · rename_i h1 h0; rw [if_neg h1, if_neg h0]

theorem propAs_some {to : PropertyValue → Option α} {t : PropertyType} {o : Object}
    {v : PropertyValue} {a : α} (h : o.props.get t = some v) (ha : to v = some a) :
    propAs to t o = .ok (some a) := by
  simp [propAs, h, ha]

theorem propAs_missing {to : PropertyValue → Option α} {t : PropertyType} {o : Object}
    (h : o.props.get t = none) : propAs to t o = .ok none := by
  simp [propAs, h]

theorem propAs_wrong {to : PropertyValue → Option α} {t : PropertyType} {o : Object}
    {v : PropertyValue} (h : o.props.get t = some v) (ha : to v = none) :
    propAs to t o = .error .malformedOneNoteFile := by
  simp [propAs, h, ha]

end OneNote
