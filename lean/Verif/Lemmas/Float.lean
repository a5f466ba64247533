/-
Rounding to 32-bit floating point numbers.
-/
import Verif.Model.Float
import Verif.Spec.Float

namespace OneNote.F32

open Spec.Float

/-! ### Rounding to integers -/

theorem halfEven_cases (n d : Nat) :
    (halfEven n d = n / 2 ^ d ∧ 2 * (n % 2 ^ d) ≤ 2 ^ d ∧
      (2 * (n % 2 ^ d) = 2 ^ d → halfEven n d % 2 = 0)) ∨
    (halfEven n d = n / 2 ^ d + 1 ∧ 2 ^ d ≤ 2 * (n % 2 ^ d) ∧
      (2 * (n % 2 ^ d) = 2 ^ d → halfEven n d % 2 = 0)) := by
  unfold halfEven
  split
  · left; refine ⟨rfl, by omega, by omega⟩
  · right; refine ⟨rfl, by omega, by omega⟩

/-- Twice the error is at most one step, and ties are even. -/
theorem halfEven_near (n d : Nat) :
    2 * n ≤ 2 * (halfEven n d * 2 ^ d) + 2 ^ d ∧ 2 * (halfEven n d * 2 ^ d) ≤ 2 * n + 2 ^ d ∧
    (2 * n = 2 * (halfEven n d * 2 ^ d) + 2 ^ d ∨ 2 * (halfEven n d * 2 ^ d) = 2 * n + 2 ^ d →
      halfEven n d % 2 = 0) := by
  have hm := Nat.div_add_mod n (2 ^ d)
  have hp : 0 < 2 ^ d := Nat.two_pow_pos d
  have hl := Nat.mod_lt n hp
  rcases halfEven_cases n d with ⟨e, a, b⟩ | ⟨e, a, b⟩
  · rw [e, Nat.mul_comm (n / 2 ^ d)]
    rw [e] at b
    refine ⟨by omega, by omega, fun h => b (by omega)⟩
  · have : (n / 2 ^ d + 1) * 2 ^ d = 2 ^ d * (n / 2 ^ d) + 2 ^ d := by
      rw [Nat.add_mul, Nat.one_mul, Nat.mul_comm]
    rw [e, this]
    rw [e] at b
    refine ⟨by omega, by omega, fun h => b (by omega)⟩

/-- No multiple of `2^d` is nearer. -/
theorem halfEven_best (n d j : Nat) :
    ((n : Int) - (halfEven n d * 2 ^ d : Nat)).natAbs ≤ ((n : Int) - (j * 2 ^ d : Nat)).natAbs ∧
    (((n : Int) - (halfEven n d * 2 ^ d : Nat)).natAbs = ((n : Int) - (j * 2 ^ d : Nat)).natAbs →
      j = halfEven n d ∨ halfEven n d % 2 = 0) := by
  obtain ⟨h1, h2, h3⟩ := halfEven_near n d
  generalize halfEven n d = q at h1 h2 h3 ⊢
  rcases Nat.lt_trichotomy j q with h | h | h
  · have : (j + 1) * 2 ^ d ≤ q * 2 ^ d := Nat.mul_le_mul_right _ h
    rw [Nat.add_mul, Nat.one_mul] at this
    generalize 2 ^ d = p at *
    refine ⟨by omega, fun h => .inr (h3 (by omega))⟩
  · subst h
    exact ⟨Nat.le_refl _, fun _ => .inl rfl⟩
  · have : (q + 1) * 2 ^ d ≤ j * 2 ^ d := Nat.mul_le_mul_right _ h
    rw [Nat.add_mul, Nat.one_mul] at this
    generalize 2 ^ d = p at *
    refine ⟨by omega, fun h => .inr (h3 (by omega))⟩

theorem halfEven_mono {n n' d : Nat} (h : n ≤ n') : halfEven n d ≤ halfEven n' d := by
  have hp : 0 < 2 ^ d := Nat.two_pow_pos d
  have hd : n / 2 ^ d ≤ n' / 2 ^ d := Nat.div_le_div_right h
  have hm := Nat.div_add_mod n (2 ^ d)
  have hm' := Nat.div_add_mod n' (2 ^ d)
  by_cases he : n / 2 ^ d = n' / 2 ^ d
  · unfold halfEven
    rw [he] at hm ⊢
    split <;> split <;> omega
  · rcases halfEven_cases n d with ⟨e, _, _⟩ | ⟨e, _, _⟩ <;>
      rcases halfEven_cases n' d with ⟨e', _, _⟩ | ⟨e', _, _⟩ <;> omega

/-! ### The bits that are dropped -/

theorem dropped_ge (n s : Nat) : s ≤ dropped n s := Nat.le_max_right ..

/-- What remains has at most 24 bits. -/
theorem lt_dropped (n s : Nat) : n < 2 ^ 24 * 2 ^ dropped n s := by
  by_cases h0 : n = 0
  · subst h0
    exact Nat.mul_pos (by decide) (Nat.two_pow_pos _)
  · have h := Nat.lt_log2_self (n := n)
    rw [← Nat.pow_add]
    refine Nat.lt_of_lt_of_le h (Nat.pow_le_pow_right (by decide) ?_)
    unfold dropped
    omega

/-- If more is dropped than must be, then 24 bits remain. -/
theorem dropped_le {n s : Nat} (h : s < dropped n s) : 2 ^ 23 * 2 ^ dropped n s ≤ n := by
  have h0 : n ≠ 0 := by
    rintro rfl
    simp [dropped] at h
  have e : dropped n s = n.log2 - 23 := by unfold dropped at h ⊢; omega
  have h24 : 23 ≤ n.log2 := by unfold dropped at h; omega
  rw [← Nat.pow_add, e, show 23 + (n.log2 - 23) = n.log2 by omega]
  exact Nat.log2_self_le h0

theorem dropped_mono {n n' s : Nat} (h : n ≤ n') : dropped n s ≤ dropped n' s := by
  by_cases h0 : n = 0
  · subst h0
    unfold dropped
    rw [Nat.log2_zero]
    omega
  · have : n.log2 ≤ n'.log2 := by
      rw [Nat.le_log2 (by omega)]
      exact Nat.le_trans (Nat.log2_self_le h0) h
    unfold dropped
    omega

theorem kept_le (n s : Nat) : halfEven n (dropped n s) ≤ 2 ^ 24 := by
  obtain ⟨-, h, -⟩ := halfEven_near n (dropped n s)
  have hl := lt_dropped n s
  generalize halfEven n (dropped n s) = q at *
  have hp : 0 < 2 ^ dropped n s := Nat.two_pow_pos _
  generalize 2 ^ dropped n s = p at *
  apply Nat.le_of_not_lt
  intro hq
  have : (2 ^ 24 + 1) * p ≤ q * p := Nat.mul_le_mul_right _ hq
  rw [Nat.add_mul] at this
  omega

theorem le_kept {n s : Nat} (h : s < dropped n s) : 2 ^ 23 ≤ halfEven n (dropped n s) := by
  have hl := dropped_le h
  rcases halfEven_cases n (dropped n s) with ⟨e, _, _⟩ | ⟨e, _, _⟩
  · rw [e]
    exact (Nat.le_div_iff_mul_le (Nat.two_pow_pos _)).2 hl
  · rw [e]
    exact Nat.le_succ_of_le ((Nat.le_div_iff_mul_le (Nat.two_pow_pos _)).2 hl)

/-! ### Sizes -/

/-- Every number is at most 24 bits times a power of two. -/
theorem size_form (m : Nat) : ∃ c, c < 2 ^ 24 ∧ size m = c * 2 ^ (m / 2 ^ 23 - 1) := by
  unfold size
  split
  · rename_i h
    refine ⟨m, by omega, ?_⟩
    rw [h]
    simp
  · exact ⟨2 ^ 23 + m % 2 ^ 23, by omega, rfl⟩

/-- The number with a step of `2^e` and at most 24 bits. -/
theorem size_step {e q : Nat} (h : q ≤ 2 ^ 24) (h' : e = 0 ∨ 2 ^ 23 ≤ q) :
    size (e * 2 ^ 23 + q) = q * 2 ^ e := by
  unfold size
  by_cases hq : q = 2 ^ 24
  · subst hq
    have h1 : (e * 2 ^ 23 + 2 ^ 24) / 2 ^ 23 = e + 2 := by omega
    have h2 : (e * 2 ^ 23 + 2 ^ 24) % 2 ^ 23 = 0 := by omega
    rw [h1, h2, if_neg (by omega), show e + 2 - 1 = e + 1 by omega, Nat.add_zero,
      show 2 ^ (e + 1) = 2 ^ e * 2 from Nat.pow_succ 2 e]
    omega
  · by_cases hs : q < 2 ^ 23
    · have : e = 0 := by omega
      subst this
      rw [if_pos (by omega)]
      simp
    · have h1 : (e * 2 ^ 23 + q) / 2 ^ 23 = e + 1 := by omega
      have h2 : (e * 2 ^ 23 + q) % 2 ^ 23 = q - 2 ^ 23 := by omega
      rw [h1, h2, if_neg (by omega), show 2 ^ 23 + (q - 2 ^ 23) = q by omega, Nat.add_sub_cancel]

theorem size_lt {m m' : Nat} (h : m < m') : size m < size m' := by
  -- next number
  have next : ∀ m, size m < size (m + 1) := by
    intro m
    by_cases h0 : m < 2 ^ 23
    · have a := size_step (e := 0) (q := m) (by omega) (.inl rfl)
      have b := size_step (e := 0) (q := m + 1) (by omega) (.inl rfl)
      simp only [Nat.zero_mul, Nat.zero_add, Nat.pow_zero, Nat.mul_one] at a b
      rw [a, b]
      omega
    · have a := size_step (e := m / 2 ^ 23 - 1) (q := 2 ^ 23 + m % 2 ^ 23) (by omega) (.inr (by omega))
      have b := size_step (e := m / 2 ^ 23 - 1) (q := 2 ^ 23 + m % 2 ^ 23 + 1) (by omega)
        (.inr (by omega))
      rw [show (m / 2 ^ 23 - 1) * 2 ^ 23 + (2 ^ 23 + m % 2 ^ 23) = m by omega] at a
      rw [show (m / 2 ^ 23 - 1) * 2 ^ 23 + (2 ^ 23 + m % 2 ^ 23 + 1) = m + 1 by omega] at b
      rw [a, b]
      exact Nat.mul_lt_mul_of_pos_right (by omega) (Nat.two_pow_pos _)
  induction m' with
  | zero => omega
  | succ k ih =>
    by_cases hk : m = k
    · subst hk; exact next m
    · exact Nat.lt_trans (ih (by omega)) (next k)

theorem size_le {m m' : Nat} (h : m ≤ m') : size m ≤ size m' := by
  rcases Nat.lt_or_eq_of_le h with h | h
  · exact Nat.le_of_lt (size_lt h)
  · rw [h]; exact Nat.le_refl _

theorem size_inj {m m' : Nat} (h : size m = size m') : m = m' := by
  rcases Nat.lt_trichotomy m m' with h' | h' | h'
  · have := size_lt h'; omega
  · exact h'
  · have := size_lt h'; omega

/-! ### Rounding -/

/-- Before the check for infinity. -/
def unbounded (n s : Nat) : Nat := (dropped n s - s) * 2 ^ 23 + halfEven n (dropped n s)

theorem round_eq (n s : Nat) : round n s = min (unbounded n s) infinity := rfl

theorem unbounded_size (n s : Nat) :
    size (unbounded n s) * 2 ^ s = halfEven n (dropped n s) * 2 ^ dropped n s := by
  have hs := dropped_ge n s
  rw [unbounded, size_step (kept_le n s), Nat.mul_assoc, ← Nat.pow_add,
    show dropped n s - s + s = dropped n s by omega]
  by_cases h : dropped n s = s
  · left; omega
  · right; exact le_kept (by omega)

theorem unbounded_parity (n s : Nat) : unbounded n s % 2 = halfEven n (dropped n s) % 2 := by
  unfold unbounded
  omega

/-- No number is nearer. -/
theorem unbounded_best (n s m : Nat) :
    ((n : Int) - (size (unbounded n s) * 2 ^ s : Nat)).natAbs
      ≤ ((n : Int) - (size m * 2 ^ s : Nat)).natAbs ∧
    (((n : Int) - (size (unbounded n s) * 2 ^ s : Nat)).natAbs
        = ((n : Int) - (size m * 2 ^ s : Nat)).natAbs →
      size m = size (unbounded n s) ∨ unbounded n s % 2 = 0) := by
  have hps : 0 < 2 ^ s := Nat.two_pow_pos s
  have cancel : ∀ m, size m * 2 ^ s = size (unbounded n s) * 2 ^ s → size m = size (unbounded n s) :=
    fun m h => Nat.eq_of_mul_eq_mul_right hps h
  rw [unbounded_size, unbounded_parity] at *
  have hs := dropped_ge n s
  obtain ⟨c, hc, e⟩ := size_form m
  by_cases hd : dropped n s - s ≤ m / 2 ^ 23 - 1
  · -- a multiple of the step
    have : size m * 2 ^ s = c * 2 ^ (m / 2 ^ 23 - 1 - (dropped n s - s)) * 2 ^ dropped n s := by
      rw [e, Nat.mul_assoc, Nat.mul_assoc, ← Nat.pow_add, ← Nat.pow_add]
      congr 2
      omega
    have hb := halfEven_best n (dropped n s) (c * 2 ^ (m / 2 ^ 23 - 1 - (dropped n s - s)))
    rw [← this] at hb
    refine ⟨hb.1, fun h => (hb.2 h).imp_left fun hj => cancel m ?_⟩
    rw [this, hj]
  · -- below all numbers with this step
    have hlt : s < dropped n s := by omega
    have hn := dropped_le hlt
    have hb := halfEven_best n (dropped n s) (2 ^ 23)
    have : size m * 2 ^ s < 2 ^ 23 * 2 ^ dropped n s := by
      rw [e, Nat.mul_assoc, ← Nat.pow_add]
      have h1 : c * 2 ^ (m / 2 ^ 23 - 1 + s) < 2 ^ 24 * 2 ^ (m / 2 ^ 23 - 1 + s) :=
        Nat.mul_lt_mul_of_pos_right hc (Nat.two_pow_pos _)
      refine Nat.lt_of_lt_of_le h1 ?_
      rw [← Nat.pow_add, ← Nat.pow_add]
      exact Nat.pow_le_pow_right (by decide) (by omega)
    have hb1 := hb.1
    refine ⟨by omega, fun h => ?_⟩
    exfalso
    omega

/-- When the result is infinite. -/
theorem unbounded_infinite (n s : Nat) :
    unbounded n s < infinity ↔ n < (2 ^ 25 - 1) * 2 ^ (252 + s) := by
  have hk := kept_le n s
  have hl := lt_dropped n s
  have hs := dropped_ge n s
  have he : unbounded n s = (dropped n s - s) * 2 ^ 23 + halfEven n (dropped n s) := rfl
  have hc := halfEven_cases n (dropped n s)
  rw [he]
  unfold infinity
  rcases Nat.lt_trichotomy (dropped n s) (253 + s) with h | h | h
  · -- smaller steps
    have : 2 ^ 24 * 2 ^ dropped n s ≤ 2 ^ 24 * 2 ^ (252 + s) :=
      Nat.mul_le_mul_left _ (Nat.pow_le_pow_right (by decide) (by omega))
    generalize 2 ^ (252 + s) = p at *
    constructor
    · intro _
      omega
    · intro _
      have : dropped n s - s ≤ 252 := by omega
      have := Nat.mul_le_mul_right (2 ^ 23) this
      omega
  · have hp : 2 ^ dropped n s = 2 * 2 ^ (252 + s) := by
      rw [h, show 253 + s = (252 + s) + 1 by omega, Nat.pow_succ, Nat.mul_comm]
    have hm := Nat.div_add_mod n (2 ^ dropped n s)
    have hlt := le_kept (n := n) (s := s) (by omega)
    rw [show dropped n s - s = 253 by omega]
    generalize halfEven n (dropped n s) = q at *
    generalize hpp : 2 ^ (252 + s) = p at *
    have hpos : 0 < p := by rw [← hpp]; exact Nat.two_pow_pos _
    rw [hp] at hm hc hl
    have h3 := Nat.mod_lt n (show 0 < 2 * p by omega)
    generalize hqq : n / (2 * p) = q' at *
    generalize n % (2 * p) = r at *
    have key : 2 * p * q' = 2 * (p * q') := by rw [Nat.mul_assoc]
    rw [key] at hm
    constructor
    · intro hq
      have hq : q < 2 ^ 24 := by omega
      rcases hc with ⟨e, a, b⟩ | ⟨e, a, b⟩
      · have h1 : p * q' ≤ p * (2 ^ 24 - 1) := Nat.mul_le_mul_left _ (by omega)
        by_cases ht : 2 * r = 2 * p
        · have := b ht
          have h2 : p * q' ≤ p * (2 ^ 24 - 2) := Nat.mul_le_mul_left _ (by omega)
          omega
        · omega
      · have h1 : p * q' ≤ p * (2 ^ 24 - 2) := Nat.mul_le_mul_left _ (by omega)
        omega
    · intro hn
      have : q < 2 ^ 24 := by
        apply Nat.lt_of_not_le
        intro hq
        have hq : q = 2 ^ 24 := by omega
        rcases hc with ⟨e, a, b⟩ | ⟨e, a, b⟩
        · have h1 : q' = 2 ^ 24 := by omega
          rw [h1] at hm
          omega
        · have h1 : q' = 2 ^ 24 - 1 := by omega
          rw [h1] at hm
          omega
      omega
  · have hlt : s < dropped n s := by omega
    have h1 := dropped_le hlt
    have h2 := le_kept hlt
    have : 2 ^ 23 * 2 ^ (254 + s) ≤ 2 ^ 23 * 2 ^ dropped n s :=
      Nat.mul_le_mul_left _ (Nat.pow_le_pow_right (by decide) (by omega))
    have h3 : 2 ^ (254 + s) = 4 * 2 ^ (252 + s) := by
      rw [show 254 + s = (252 + s) + 2 by omega, Nat.pow_add, Nat.mul_comm]
    rw [h3] at this
    generalize 2 ^ (252 + s) = p at *
    constructor
    · intro h4
      exfalso
      have : 254 ≤ dropped n s - s := by omega
      have := Nat.mul_le_mul_right (2 ^ 23) this
      omega
    · intro h4
      exfalso
      omega

theorem unbounded_mono {n n' s : Nat} (h : n ≤ n') : unbounded n s ≤ unbounded n' s := by
  have hd := dropped_mono (s := s) h
  unfold unbounded
  by_cases he : dropped n s = dropped n' s
  · rw [he]
    have := halfEven_mono (d := dropped n' s) h
    omega
  · have hs := dropped_ge n s
    have h1 := kept_le n s
    have h2 := le_kept (n := n') (s := s) (by omega)
    have : dropped n s - s + 1 ≤ dropped n' s - s := by omega
    have := Nat.mul_le_mul_right (2 ^ 23) this
    omega

theorem round_mono {n n' s : Nat} (h : n ≤ n') : round n s ≤ round n' s := by
  have := unbounded_mono (s := s) h
  rw [round_eq, round_eq]
  omega

theorem round_le (n s : Nat) : round n s ≤ infinity := by
  rw [round_eq]
  omega

/-- Numbers with at most 24 bits are not changed. -/
theorem round_exact {n s c e : Nat} (h : n = c * 2 ^ e) (hc : c < 2 ^ 24) (he : s ≤ e)
    (hn : n < (2 ^ 25 - 1) * 2 ^ (252 + s)) : size (round n s) * 2 ^ s = n := by
  have hu := (unbounded_infinite n s).2 hn
  rw [round_eq, Nat.min_eq_left (by omega), unbounded_size]
  have hd : dropped n s ≤ e := by
    by_cases h0 : n = 0
    · rw [h0]
      unfold dropped
      rw [Nat.log2_zero]
      omega
    · have : n < 2 ^ (24 + e) := by
        rw [h, Nat.pow_add]
        exact Nat.mul_lt_mul_of_pos_right hc (Nat.two_pow_pos _)
      have := (Nat.log2_lt h0).2 this
      unfold dropped
      omega
  have hmul : n = c * 2 ^ (e - dropped n s) * 2 ^ dropped n s := by
    rw [Nat.mul_assoc, ← Nat.pow_add, show e - dropped n s + dropped n s = e by omega]
    exact h
  have hz : n % 2 ^ dropped n s = 0 := by
    have := Nat.mul_mod_left (c * 2 ^ (e - dropped n s)) (2 ^ dropped n s)
    rw [← hmul] at this
    exact this
  have hp := Nat.two_pow_pos (dropped n s)
  have hm := Nat.div_add_mod n (2 ^ dropped n s)
  rcases halfEven_cases n (dropped n s) with ⟨e', a, b⟩ | ⟨e', a, b⟩
  · rw [e', Nat.mul_comm]
    omega
  · omega

/-! ### Bit patterns -/

theorem exponent_eq (b : F32) : exponent b = rest b / 2 ^ 23 := by
  unfold exponent rest
  omega

theorem fraction_eq (b : F32) : fraction b = rest b % 2 ^ 23 := by
  unfold fraction rest
  omega

theorem negative_iff (b : F32) : Negative b ↔ sign b = true := by
  unfold Negative sign
  exact decide_eq_true_iff.symm

theorem finite_iff (b : F32) : Finite b ↔ rest b < infinity := by
  unfold Finite infinity
  rw [exponent_eq]
  omega

theorem infinite_iff (b : F32) : Infinite b ↔ rest b = infinity := by
  unfold Infinite infinity
  rw [exponent_eq, fraction_eq]
  omega

theorem nan_iff (b : F32) : NaN b ↔ infinity < rest b := by
  unfold NaN infinity
  rw [exponent_eq, fraction_eq]
  have : rest b < 2 ^ 31 := Nat.mod_lt _ (by decide)
  omega

theorem value_eq (b : F32) : value b = units b := by
  have hs : (if exponent b = 0 then fraction b else (2 ^ 23 + fraction b) * 2 ^ (exponent b - 1) : Nat)
      = size (rest b) := by
    unfold size
    rw [exponent_eq, fraction_eq]
    split
    · rw [Nat.mod_eq_of_lt (by omega)]
    · rfl
  unfold value units
  rw [hs]
  by_cases h : sign b = true
  · rw [if_pos ((negative_iff b).2 h), if_pos h, Int.neg_one_mul]
  · rw [if_neg (fun hn => h ((negative_iff b).1 hn)), if_neg h, Int.one_mul]

theorem sign_withSign {s : Bool} {m : Nat} (h : m ≤ infinity) : sign (withSign s m) = s := by
  unfold infinity at h
  cases s
  · exact decide_eq_false (show ¬ m / 2 ^ 31 % 2 = 1 by omega)
  · exact decide_eq_true (show (m + 2 ^ 31) / 2 ^ 31 % 2 = 1 by omega)

theorem rest_withSign {s : Bool} {m : Nat} (h : m ≤ infinity) : rest (withSign s m) = m := by
  unfold infinity at h
  unfold withSign rest
  cases s
  · simp only [Bool.false_eq_true, if_false]
    omega
  · simp only [if_true]
    omega

theorem units_withSign {s : Bool} {m : Nat} (h : m ≤ infinity) :
    units (withSign s m) = if s then -(size m : Int) else size m := by
  unfold units
  rw [sign_withSign h, rest_withSign h]

theorem size_zero : size 0 = 0 := by decide

theorem round_zero (s : Nat) : round 0 s = 0 := by
  have h : dropped 0 s = s := by
    unfold dropped
    rw [Nat.log2_zero]
    omega
  have h2 : halfEven 0 s = 0 := by
    unfold halfEven
    have := Nat.two_pow_pos s
    simp [this]
  rw [round_eq, unbounded, h, h2]
  simp

/-! ### Correct rounding -/

/-- The nearest number with the sign of `n` is `n` correctly rounded. -/
theorem rounded (n : Int) (k : Nat) (s : Bool) (hs : n ≠ 0 → s = decide (n < 0)) :
    Rounded n k (withSign s (round n.natAbs k)) := by
  have hle := round_le n.natAbs k
  by_cases hlim : n.natAbs < (2 ^ 25 - 1) * 2 ^ (252 + k)
  · left
    have hu := (unbounded_infinite _ _).2 hlim
    have hr : round n.natAbs k = unbounded n.natAbs k := by rw [round_eq]; omega
    refine ⟨hlim, (finite_iff _).2 (by rw [rest_withSign hle]; omega), ?_⟩
    intro b hb
    obtain ⟨h1, h2⟩ := unbounded_best n.natAbs k (rest b)
    rw [← hr] at h1 h2
    have hpar : fraction (withSign s (round n.natAbs k)) % 2 = round n.natAbs k % 2 := by
      rw [fraction_eq, rest_withSign hle]
      omega
    unfold distance
    rw [hpar, value_eq, value_eq, units_withSign hle]
    unfold units
    have cast : ∀ m, ((size m * 2 ^ k : Nat) : Int) = (size m : Int) * 2 ^ k := by
      intro m
      rw [Int.natCast_mul, Int.natCast_pow]
      rfl
    rw [cast, cast] at h1 h2
    have hpos : (0 : Int) < 2 ^ k := by
      have := Nat.two_pow_pos k
      have h := Int.ofNat_lt.2 this
      rw [Int.natCast_pow] at h
      exact h
    have hrn : (0 : Int) ≤ (size (round n.natAbs k) : Int) * 2 ^ k :=
      Int.mul_nonneg (Int.natCast_nonneg _) (Int.le_of_lt hpos)
    have hbn : (0 : Int) ≤ (size (rest b) : Int) * 2 ^ k :=
      Int.mul_nonneg (Int.natCast_nonneg _) (Int.le_of_lt hpos)
    have hb0 : (size (rest b) : Int) * 2 ^ k = 0 → (size (rest b) : Int) = 0 := by
      intro h
      rcases Int.mul_eq_zero.1 h with h | h
      · exact h
      · omega
    by_cases hn0 : n = 0
    · subst hn0
      simp only [Int.natAbs_zero, round_zero, size_zero] at *
      have : (if s = true then -((0 : Nat) : Int) else ((0 : Nat) : Int)) = 0 := by cases s <;> rfl
      rw [this]
      refine ⟨by omega, fun h => .inl ?_⟩
      have : (size (rest b) : Int) * 2 ^ k = 0 := by
        cases hsb : sign b <;> rw [hsb] at h <;>
          simp only [Bool.false_eq_true, if_false, if_true, Int.neg_mul, Int.zero_mul] at h <;> omega
      rw [hb0 this]
      cases sign b <;> rfl
    · have hs := hs hn0
      cases hsb : sign b <;> by_cases hneg : n < 0 <;>
        simp only [hneg, decide_true, decide_false] at hs <;> subst hs <;>
        simp only [Bool.false_eq_true, if_false, if_true, Int.neg_mul]
      · -- negative, compared with a positive number
        refine ⟨by omega, fun h => ?_⟩
        have : (size (rest b) : Int) * 2 ^ k = 0 := by omega
        rcases h2 (by omega) with h | h
        · left
          have := hb0 this
          omega
        · exact .inr h
      · refine ⟨by omega, fun h => (h2 (by omega)).imp_left fun h => by rw [h]⟩
      · refine ⟨by omega, fun h => (h2 (by omega)).imp_left fun h => by rw [h]⟩
      · refine ⟨by omega, fun h => ?_⟩
        have : (size (rest b) : Int) * 2 ^ k = 0 := by omega
        rcases h2 (by omega) with h | h
        · left
          have := hb0 this
          omega
        · exact .inr h
  · right
    have hr : round n.natAbs k = infinity := by
      have := mt (unbounded_infinite n.natAbs k).1 hlim
      rw [round_eq]
      omega
    have hn0 : n ≠ 0 := by
      rintro rfl
      exact hlim (Nat.mul_pos (by decide) (Nat.two_pow_pos _))
    refine ⟨by omega, (infinite_iff _).2 (by rw [rest_withSign hle, hr]), ?_⟩
    rw [negative_iff, sign_withSign hle, hs hn0, decide_eq_true_iff]

theorem ofInt_rounded (i : Int) : Rounded (whole i) 0 (ofInt i) := by
  have h : (whole i).natAbs = i.natAbs * 2 ^ 149 := by
    unfold whole
    rw [Int.natAbs_mul]
    rfl
  unfold ofInt
  rw [← h]
  refine rounded _ _ _ fun _ => ?_
  unfold whole
  congr 1
  apply propext
  omega

theorem units_natAbs (b : F32) : (units b).natAbs = size (rest b) := by
  unfold units
  split <;> omega

theorem mul_rounded {a b : F32} (ha : Finite a) (hb : Finite b) :
    Rounded (value a * value b) 149 (mul a b) := by
  rw [finite_iff] at ha hb
  unfold mul
  rw [if_neg (by omega), if_neg (by omega)]
  have h : size (rest a) * size (rest b) = (value a * value b).natAbs := by
    rw [Int.natAbs_mul, value_eq, value_eq, units_natAbs, units_natAbs]
  rw [h]
  refine rounded _ _ _ fun h0 => ?_
  rw [value_eq, value_eq] at *
  unfold units at *
  have pa : 0 < (size (rest a) : Int) := by
    have : size (rest a) ≠ 0 := by
      intro h
      apply h0
      rw [h]
      split <;> simp
    omega
  have pb : 0 < (size (rest b) : Int) := by
    have : size (rest b) ≠ 0 := by
      intro h
      apply h0
      rw [h]
      cases sign b <;> simp
    omega
  have := Int.mul_pos pa pb
  cases sign a <;> cases sign b <;>
    simp only [Bool.false_eq_true, if_false, if_true, Int.neg_mul, Int.mul_neg, Int.neg_neg, bne_self_eq_false]
  · symm; rw [decide_eq_false_iff_not]; omega
  · symm; rw [show (false != true) = true from rfl, decide_eq_true_iff]; omega
  · symm; rw [show (true != false) = true from rfl, decide_eq_true_iff]; omega
  · symm; rw [decide_eq_false_iff_not]; omega

theorem sub_rounded {a b : F32} (ha : Finite a) (hb : Finite b) :
    Rounded (value a - value b) 0 (sub a b) := by
  rw [finite_iff] at ha hb
  unfold sub
  rw [if_neg (by omega), if_neg (by omega), if_neg (by omega), value_eq, value_eq]
  simp only
  split
  · rename_i h
    rw [h]
    have := rounded 0 0 (sign a && !sign b && decide (rest a = 0)) (fun h => absurd rfl h)
    rw [Int.natAbs_zero, round_zero] at this
    exact this
  · exact rounded _ _ _ fun _ => rfl

/-- A correctly rounded number is exact if there is a number with this value. -/
theorem exact_of_rounded {n : Int} {k : Nat} {r b : F32} (h : Rounded n k r) (hb : Finite b)
    (he : value b * 2 ^ k = n) : value r * 2 ^ k = n := by
  rcases h with ⟨_, _, h⟩ | ⟨h, _, _⟩
  · have := (h b hb).1
    unfold distance at this
    omega
  · exfalso
    rw [finite_iff] at hb
    have hlt : size (rest b) ≤ size (infinity - 1) := size_le (by omega)
    have hs : size (infinity - 1) = (2 ^ 24 - 1) * 2 ^ 253 := by decide +kernel
    have hn : n.natAbs = size (rest b) * 2 ^ k := by
      rw [← he, Int.natAbs_mul, value_eq, units_natAbs, Int.natAbs_pow]
      rfl
    have h2 : size (rest b) * 2 ^ k ≤ (2 ^ 24 - 1) * 2 ^ 253 * 2 ^ k :=
      Nat.mul_le_mul_right _ (by omega)
    have h3 : (2 ^ 24 - 1) * 2 ^ 253 * 2 ^ k = (2 ^ 25 - 2) * 2 ^ (252 + k) := by
      rw [Nat.pow_add 2 252 k, ← Nat.mul_assoc]
    have := Nat.two_pow_pos (252 + k)
    rw [hn] at h
    rw [h3] at h2
    generalize 2 ^ (252 + k) = p at *
    omega

/-! ### Only one number is the correctly rounded one -/

/-- All numbers in their order. -/
private def key (b : F32) : Int := if sign b then -(rest b : Int) else rest b

private theorem value_key {b c : F32} (h : key b ≤ key c) : value b ≤ value c := by
  rw [value_eq, value_eq]
  unfold key at h
  unfold units
  have z : ∀ {m : Nat}, m = 0 → size m = 0 := by rintro m rfl; decide
  cases hb : sign b <;> cases hc : sign c <;> rw [hb, hc] at h <;>
    simp only [Bool.false_eq_true, if_false, if_true] at h ⊢
  · have := size_le (show rest b ≤ rest c by omega)
    omega
  · have := z (show rest b = 0 by omega)
    have := z (show rest c = 0 by omega)
    omega
  · omega
  · have := size_le (show rest c ≤ rest b by omega)
    omega

private theorem key_value {b c : F32} (h : value b < value c) : key b < key c := by
  apply Int.not_le.1
  intro hk
  have := value_key hk
  omega

private theorem key_eq {b c : F32} (h : value b = value c) : key b = key c := by
  rw [value_eq, value_eq] at h
  unfold units at h
  unfold key
  have pos : ∀ m : Nat, size m = 0 → m = 0 := fun m h => size_inj (h.trans (by decide))
  cases hb : sign b <;> cases hc : sign c <;> rw [hb, hc] at h <;>
    simp only [Bool.false_eq_true, if_false, if_true] at h ⊢
  · rw [size_inj (show size (rest b) = size (rest c) by omega)]
  · rw [pos _ (show size (rest b) = 0 by omega), pos _ (show size (rest c) = 0 by omega)]
    rfl
  · rw [pos _ (show size (rest b) = 0 by omega), pos _ (show size (rest c) = 0 by omega)]
    rfl
  · rw [size_inj (show size (rest b) = size (rest c) by omega)]

private theorem of_key (z : Int) (h : z.natAbs < infinity) :
    ∃ b, key b = z ∧ Finite b := by
  refine ⟨withSign (decide (z < 0)) z.natAbs, ?_, ?_⟩
  · unfold key
    rw [sign_withSign (by omega), rest_withSign (by omega)]
    by_cases hz : z < 0
    · rw [if_pos (by simpa using hz)]
      omega
    · rw [if_neg (by simpa using hz)]
      omega
  · rw [finite_iff, rest_withSign (by omega)]
    exact h

private theorem not_both {n : Int} {k : Nat} {r r' : F32} (h : Rounded n k r) (h' : Rounded n k r') :
    ¬ value r < value r' := by
  intro hlt
  rcases h with ⟨hl, hf, h⟩ | ⟨hl, hi, hs⟩ <;> rcases h' with ⟨hl', hf', h'⟩ | ⟨hl', hi', hs'⟩
  · have e : distance n k r = distance n k r' := Nat.le_antisymm (h r' hf').1 (h' r hf).1
    have p : fraction r % 2 = 0 := ((h r' hf').2 e).resolve_left (by omega)
    have p' : fraction r' % 2 = 0 := ((h' r hf).2 e.symm).resolve_left (by omega)
    have hk := key_value hlt
    rw [finite_iff] at hf hf'
    have bound : ∀ b, (key b).natAbs = rest b := by
      intro b
      unfold key
      split <;> omega
    have hb1 := bound r
    have hb2 := bound r'
    obtain ⟨b, hb, hbf⟩ := of_key (key r + 1) (by omega)
    have h1 : value r < value b := by
      apply Int.not_le.1
      intro hle
      rcases Int.lt_or_eq_of_le hle with h | h
      · have := key_value h
        omega
      · have := key_eq h
        omega
    have h2 : value b ≤ value r' := value_key (by omega)
    have hpos : (0 : Int) < 2 ^ k := by
      have h := Int.ofNat_lt.2 (Nat.two_pow_pos k)
      rw [Int.natCast_pow] at h
      exact h
    have m1 := Int.mul_lt_mul_of_pos_right h1 hpos
    rcases Int.lt_or_eq_of_le h2 with h3 | h3
    · have m2 := Int.mul_lt_mul_of_pos_right h3 hpos
      have := (h b hbf).1
      unfold distance at e this
      omega
    · have := key_eq h3
      rw [fraction_eq] at p p'
      omega
  · omega
  · omega
  · rw [infinite_iff] at hi hi'
    rw [value_eq, value_eq] at hlt
    unfold units at hlt
    rw [hi, hi'] at hlt
    rw [negative_iff] at hs hs'
    have : sign r = sign r' := by
      rw [Bool.eq_iff_iff]
      exact hs.trans hs'.symm
    rw [this] at hlt
    omega

theorem rounded_unique {n : Int} {k : Nat} {r r' : F32} (h : Rounded n k r) (h' : Rounded n k r') :
    value r = value r' := by
  have h1 := not_both h h'
  have h2 := not_both h' h
  omega

/-! ### Order -/

theorem round_sign_mono {n n' : Int} {k : Nat} {s s' : Bool} (hs : n ≠ 0 → s = decide (n < 0))
    (hs' : n' ≠ 0 → s' = decide (n' < 0)) (h : n ≤ n') :
    value (withSign s (round n.natAbs k)) ≤ value (withSign s' (round n'.natAbs k)) := by
  rw [value_eq, value_eq, units_withSign (round_le ..), units_withSign (round_le ..)]
  by_cases h0 : n = 0
  · subst h0
    rw [Int.natAbs_zero, round_zero, size_zero]
    have : (if s = true then -((0 : Nat) : Int) else ((0 : Nat) : Int)) = 0 := by cases s <;> rfl
    rw [this]
    by_cases h1 : n' = 0
    · subst h1
      rw [Int.natAbs_zero, round_zero, size_zero]
      split <;> omega
    · rw [hs' h1, decide_eq_false (by omega)]
      simp
  · rw [hs h0]
    by_cases hn : n < 0
    · rw [decide_eq_true hn, if_pos rfl]
      by_cases h1 : n' = 0
      · subst h1
        rw [Int.natAbs_zero, round_zero, size_zero]
        split <;> omega
      · rw [hs' h1]
        by_cases hn' : n' < 0
        · rw [decide_eq_true hn', if_pos rfl]
          have := size_le (round_mono (s := k) (show n'.natAbs ≤ n.natAbs by omega))
          omega
        · rw [decide_eq_false hn']
          simp only [Bool.false_eq_true, if_false]
          omega
    · rw [decide_eq_false hn, hs' (by omega), decide_eq_false (by omega)]
      simp only [Bool.false_eq_true, if_false]
      have := size_le (round_mono (s := k) (show n.natAbs ≤ n'.natAbs by omega))
      omega

theorem ofInt_mono {i j : Int} (h : i ≤ j) : value (ofInt i) ≤ value (ofInt j) := by
  have e : ∀ i : Int, ofInt i = withSign (decide (i < 0)) (round (whole i).natAbs 0) := by
    intro i
    unfold ofInt whole
    rw [Int.natAbs_mul]
    rfl
  have sg : ∀ i : Int, decide (i < 0) = decide (whole i < 0) := by
    intro i
    congr 1
    apply propext
    unfold whole
    omega
  rw [e, e]
  refine round_sign_mono (fun _ => sg i) (fun _ => sg j) ?_
  unfold whole
  omega

/-- Products with a positive number keep the order. -/
theorem mul_mono {a b c : F32} (ha : Finite a) (hp : ¬ Negative a) (hb : Finite b) (hc : Finite c)
    (h : value b ≤ value c) : value (mul a b) ≤ value (mul a c) := by
  have form : ∀ b, Finite b → ∃ s, mul a b = withSign s (round (value a * value b).natAbs 149) ∧
      (value a * value b ≠ 0 → s = decide (value a * value b < 0)) := by
    intro b hb
    rw [finite_iff] at ha hb
    refine ⟨sign a != sign b, ?_, ?_⟩
    · unfold mul
      rw [if_neg (by omega), if_neg (by omega), Int.natAbs_mul, value_eq, value_eq, units_natAbs,
        units_natAbs]
    · intro h0
      rw [negative_iff] at hp
      have hp : sign a = false := by simpa using hp
      have pa : 0 < value a := by
        have : 0 ≤ value a := by
          rw [value_eq]
          unfold units
          rw [hp]
          simp
        have : value a ≠ 0 := by
          intro h
          rw [h, Int.zero_mul] at h0
          exact h0 rfl
        omega
      rw [hp]
      have hb0 : value b ≠ 0 := by
        intro h
        rw [h, Int.mul_zero] at h0
        exact h0 rfl
      have hsb : sign b = decide (value b < 0) := by
        rw [value_eq] at *
        unfold units at *
        cases hs : sign b <;> rw [hs] at hb0 <;> simp at * <;> omega
      rw [hsb]
      by_cases hn : value b < 0
      · have := Int.mul_neg_of_pos_of_neg pa hn
        rw [decide_eq_true hn, decide_eq_true this]
        rfl
      · have := Int.mul_pos pa (show 0 < value b by omega)
        rw [decide_eq_false hn, decide_eq_false (by omega)]
        rfl
  obtain ⟨s, e, hs⟩ := form b hb
  obtain ⟨s', e', hs'⟩ := form c hc
  rw [e, e']
  refine round_sign_mono hs hs' ?_
  apply Int.mul_le_mul_of_nonneg_left h
  rw [value_eq]
  unfold units
  rw [negative_iff] at hp
  rw [if_neg hp]
  omega

theorem mul_comm (a b : F32) : mul a b = mul b a := by
  unfold mul
  have h1 : (sign a != sign b) = (sign b != sign a) := by cases sign a <;> cases sign b <;> rfl
  have h2 : (rest a > infinity ∨ rest b > infinity) = (rest b > infinity ∨ rest a > infinity) :=
    propext Or.comm
  have h3 : (rest a = infinity ∨ rest b = infinity) = (rest b = infinity ∨ rest a = infinity) :=
    propext Or.comm
  have h4 : (rest a = 0 ∨ rest b = 0) = (rest b = 0 ∨ rest a = 0) := propext Or.comm
  simp only [h1, h2, h3, h4, Nat.mul_comm (size (rest a))]

end OneNote.F32
