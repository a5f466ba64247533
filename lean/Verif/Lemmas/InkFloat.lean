/-
Ink coordinates as floating point numbers.
-/
import Verif.Lemmas.Float
import Verif.Lemmas.Ink
import Verif.Model.MultiByte

namespace OneNote.F32

open Spec Spec.Float

theorem rest_lt (b : F32) : rest b < 2 ^ 31 := Nat.mod_lt _ (by decide)

theorem withSign_lt {s : Bool} {m : Nat} (h : m ≤ infinity) : withSign s m < 2 ^ 32 := by
  unfold infinity at h
  cases s
  · have : m < 2 ^ 32 := by omega
    exact this
  · have : m + 2 ^ 31 < 2 ^ 32 := by omega
    exact this

private theorem split_sign (b : Nat) (h : b < 2 ^ 32) :
    (if decide (b / 2 ^ 31 % 2 = 1) = true then b % 2 ^ 31 + 2 ^ 31 else b % 2 ^ 31) = b := by
  by_cases hb : b / 2 ^ 31 % 2 = 1
  · rw [if_pos (by simpa using hb)]
    omega
  · rw [if_neg (by simpa using hb)]
    omega

theorem withSign_self {b : F32} (h : b < 2 ^ 32) : withSign (sign b) (rest b) = b := split_sign b h

/-- Multiplication with 1.0. -/
theorem one_mul {b : F32} (h : b < 2 ^ 32) (hn : ¬ NaN b) : mul 0x3F800000 b = b := by
  rw [nan_iff] at hn
  have s1 : sign 0x3F800000 = false := by decide
  have r1 : rest 0x3F800000 = 0x3F800000 := by decide
  have z1 : size 0x3F800000 = 2 ^ 149 := by decide +kernel
  have i1 : infinity = 0x7F800000 := by decide
  unfold mul
  have hs : (false != sign b) = sign b := by cases sign b <;> rfl
  rw [s1, r1, hs, if_neg (by omega)]
  by_cases hi : rest b = infinity
  · rw [if_pos (.inr hi), if_neg (by omega), ← hi, withSign_self h]
  · rw [if_neg (by omega), z1]
    have : round (2 ^ 149 * size (rest b)) 149 = rest b := by
      apply size_inj
      obtain ⟨c, hc, e⟩ := size_form (rest b)
      have hlt : size (rest b) ≤ size (infinity - 1) := size_le (by omega)
      have hs : size (infinity - 1) = (2 ^ 24 - 1) * 2 ^ 253 := by decide +kernel
      have := round_exact (n := 2 ^ 149 * size (rest b)) (s := 149) (c := c)
        (e := rest b / 2 ^ 23 - 1 + 149)
        (by rw [e, Nat.pow_add, Nat.mul_comm (2 ^ 149), Nat.mul_assoc]) hc (by omega) (by
          rw [show 252 + 149 = 401 from rfl]
          omega)
      rw [Nat.mul_comm (2 ^ 149) (size (rest b))] at this ⊢
      exact Nat.eq_of_mul_eq_mul_right (Nat.two_pow_pos 149) this
    rw [this, withSign_self h]

theorem ofInt_lt (i : Int) : ofInt i < 2 ^ 32 := withSign_lt (round_le ..)

theorem ofInt_not_nan (i : Int) : ¬ NaN (ofInt i) := by
  rw [nan_iff]
  unfold ofInt
  rw [rest_withSign (round_le ..)]
  have := round_le (i.natAbs * 2 ^ 149) 0
  omega

theorem ofInt_finite {i : Int} (h : i.natAbs ≤ 2 ^ 64) : Finite (ofInt i) := by
  rcases ofInt_rounded i with ⟨_, h, _⟩ | ⟨hl, _, _⟩
  · exact h
  · exfalso
    unfold whole at hl
    rw [Int.natAbs_mul] at hl
    have : (2 ^ 149 : Int).natAbs = 2 ^ 149 := by decide +kernel
    rw [this] at hl
    omega

theorem ofInt_exact {i : Int} (h : i.natAbs ≤ 2 ^ 24) : value (ofInt i) = whole i := by
  have hsize : size (round (i.natAbs * 2 ^ 149) 0) = i.natAbs * 2 ^ 149 := by
    by_cases he : i.natAbs = 2 ^ 24
    · rw [he]
      decide +kernel
    · have := round_exact (n := i.natAbs * 2 ^ 149) (s := 0) (c := i.natAbs) (e := 149) rfl (by omega)
        (by omega) (by omega)
      simpa using this
  rw [value_eq, ofInt, units_withSign (round_le ..), hsize]
  unfold whole
  by_cases hn : i < 0
  · rw [if_pos (by simpa using hn)]
    omega
  · rw [if_neg (by simpa using hn)]
    omega

/-- Common factors do not matter. -/
theorem rounded_unscale {n : Int} {k : Nat} {r : F32} (h : Rounded (n * 2 ^ k) k r) :
    Rounded n 0 r := by
  have hk := Nat.two_pow_pos k
  have abs : ∀ m : Int, (m * 2 ^ k).natAbs = m.natAbs * 2 ^ k := by
    intro m
    rw [Int.natAbs_mul, Int.natAbs_pow]
    rfl
  have dist : ∀ b, distance (n * 2 ^ k) k b = distance n 0 b * 2 ^ k := by
    intro b
    unfold distance
    rw [← Int.sub_mul, abs, Int.pow_zero, Int.mul_one]
  have lim : (2 ^ 25 - 1) * 2 ^ (252 + k) = (2 ^ 25 - 1) * 2 ^ 252 * 2 ^ k := by
    rw [Nat.pow_add 2 252 k, ← Nat.mul_assoc]
  rcases h with ⟨hl, hf, h⟩ | ⟨hl, hi, hs⟩
  · left
    rw [abs, lim] at hl
    refine ⟨Nat.lt_of_mul_lt_mul_right hl, hf, fun b hb => ?_⟩
    obtain ⟨h1, h2⟩ := h b hb
    rw [dist, dist] at h1 h2
    exact ⟨Nat.le_of_mul_le_mul_right h1 hk, fun e => h2 (by rw [e])⟩
  · right
    rw [abs, lim] at hl
    refine ⟨Nat.le_of_mul_le_mul_right hl hk, hi, hs.trans ?_⟩
    have hp : (0 : Int) < 2 ^ k := by
      have h := Int.ofNat_lt.2 hk
      rw [Int.natCast_pow] at h
      exact h
    constructor
    · intro h
      apply Int.not_le.1
      intro hn
      have := Int.mul_nonneg hn (Int.le_of_lt hp)
      omega
    · intro h
      exact Int.mul_neg_of_neg_of_pos h hp

/-- A product with a number that is not finite is not finite. -/
theorem mul_not_finite {a b : F32} (h : ¬ Finite a) : ¬ Finite (mul a b) := by
  rw [finite_iff] at *
  have hn : rest nan = nan := by decide
  have hi : infinity < nan := by decide
  unfold mul
  split
  · rw [hn]; omega
  · rw [if_pos (.inl (by omega))]
    split
    · rw [hn]; omega
    · rw [rest_withSign (Nat.le_refl _)]
      omega

/-- The coordinate that is computed from a stored number. -/
theorem shown (s : Option F32) (x : Int) : Shown s x (mul (s.getD 0x3F800000) (ofInt x)) := by
  cases s with
  | none =>
    rw [Option.getD_none, one_mul (ofInt_lt x) (ofInt_not_nan x)]
    exact ofInt_rounded x
  | some s => exact ⟨ofInt x, ofInt_rounded x, fun hs hf => mul_rounded hs hf, fun hs => mul_not_finite hs⟩

theorem eval_point (s : Option F32) (x : Int) :
    (F32e.mul (Ink.scale s) (.ofInt x)).eval = mul (s.getD 0x3F800000) (ofInt x) := rfl

/-- Multiplication rounds the exact product. -/
theorem product (a f : F32) : Product a f (mul a f) := by
  refine ⟨mul_rounded, fun h => ?_⟩
  by_cases ha : Finite a
  · rw [mul_comm]
    exact mul_not_finite fun hf => h ⟨ha, hf⟩
  · exact mul_not_finite ha

theorem eval_box (s : Option F32) (x : Int) :
    (F32e.mul (.ofInt x) (Ink.scale s)).eval = mul (s.getD 0x3F800000) (ofInt x) :=
  mul_comm _ _

theorem one_finite : Finite 0x3F800000 := by decide

theorem one_positive : ¬ Negative 0x3F800000 := by decide

theorem shown_mono {s : Option F32} (hs : Positive s) {x x' : Int} (hx : x.natAbs ≤ 2 ^ 64)
    (hx' : x'.natAbs ≤ 2 ^ 64) (h : x ≤ x') :
    value (mul (s.getD 0x3F800000) (ofInt x)) ≤ value (mul (s.getD 0x3F800000) (ofInt x')) := by
  have ⟨hf, hp⟩ : Finite (s.getD 0x3F800000) ∧ ¬ Negative (s.getD 0x3F800000) := by
    cases s with
    | none => exact ⟨one_finite, one_positive⟩
    | some s => exact hs
  exact mul_mono hf hp (ofInt_finite hx) (ofInt_finite hx') (ofInt_mono h)

/-- The size of a number that is read from an integer of at most 64 bits. -/
theorem ofInt_size {x : Int} (hx : x.natAbs ≤ 2 ^ 63) : (value (ofInt x)).natAbs ≤ 2 ^ (63 + 149) := by
  rw [value_eq, units_natAbs, ofInt, rest_withSign (round_le ..)]
  have h : x.natAbs * 2 ^ 149 ≤ 2 ^ 63 * 2 ^ 149 := Nat.mul_le_mul_right _ hx
  have := size_le (round_mono (s := 0) h)
  have e : size (round (2 ^ 63 * 2 ^ 149) 0) = 2 ^ (63 + 149) := by decide +kernel
  omega

/-- Moderate scales give finite products. -/
theorem mul_finite {s : Option F32} (hs : Moderate s) {b : F32} (hb : Finite b)
    (h : (value b).natAbs ≤ 2 ^ (63 + 149)) : Finite (mul (s.getD 0x3F800000) b) := by
  have ⟨hf, hp⟩ : Finite (s.getD 0x3F800000) ∧ (value (s.getD 0x3F800000)).natAbs ≤ 2 ^ (64 + 149) := by
    cases s with
    | none => exact ⟨one_finite, by decide +kernel⟩
    | some s => exact hs
  rcases mul_rounded hf hb with ⟨_, h, _⟩ | ⟨hl, _, _⟩
  · exact h
  · exfalso
    rw [Int.natAbs_mul] at hl
    have := Nat.mul_le_mul hp h
    rw [show 252 + 149 = 401 from rfl] at hl
    have e : 2 ^ (64 + 149) * 2 ^ (63 + 149) < (2 ^ 25 - 1) * 2 ^ 401 := by decide +kernel
    omega

end OneNote.F32

namespace OneNote.MultiByte

theorem decodeUintLoop_lt (bs : Bytes) :
    ∀ {v c r n : Nat}, v < 2 ^ 64 → decodeUintLoop bs v c = .ok (r, n) → r < 2 ^ 64 := by
  induction bs with
  | nil =>
    intro v c r n hv h
    rw [decodeUintLoop] at h
    split at h
    · cases h
    · cases h; exact hv
  | cons b bs ih =>
    intro v c r n hv h
    rw [decodeUintLoop] at h
    split at h
    · cases h
    · split at h
      · cases h
      · have hv' : v ||| ((b.toNat &&& 0x7F) <<< (c * 7)) % 2 ^ 64 < 2 ^ 64 :=
          Nat.or_lt_two_pow hv (Nat.mod_lt _ (by decide))
        split at h
        · exact ih hv' h
        · cases h; exact hv'

theorem decodeLoop_lt (input : Bytes) :
    ∀ (n : Nat) {i : Nat} {vs : List Nat}, decodeLoop input n i = .ok vs → ∀ v ∈ vs, v < 2 ^ 64 := by
  intro n
  induction n with
  | zero =>
    intro i vs h v hv
    cases h
    cases hv
  | succ n ih =>
    intro i vs h v hv
    rw [decodeLoop] at h
    split at h
    · cases h
    · split at h
      · cases h
      · rename_i hu
        split at h
        · cases h
        · rename_i hl
          cases h
          cases hv with
          | head => exact decodeUintLoop_lt _ (by decide) hu
          | tail _ hv => exact ih hl v hv

/-- The numbers of a path have at most 64 bits. -/
theorem decodeSigned_le {input : Bytes} {xs : List Int} (h : decodeSigned input = .ok xs) :
    ∀ x ∈ xs, x.natAbs ≤ 2 ^ 63 := by
  unfold decodeSigned at h
  split at h
  · cases h
  · rename_i vs hd
    cases h
    unfold decode at hd
    split at hd
    · cases hd
    · intro x hx
      obtain ⟨v, hv, rfl⟩ := List.mem_map.1 hx
      have := decodeLoop_lt _ _ hd v hv
      unfold signed
      rw [Nat.shiftRight_eq_div_pow]
      split <;> omega

end OneNote.MultiByte
