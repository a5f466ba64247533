/-
Helper lemmas: parser monad, little-endian numbers, bit masks.
-/
import Verif.Spec.Encode

namespace OneNote

open Spec

section monad
variable {α β : Type}

@[simp] theorem P.pure_apply (a : α) (s : Bytes) : (pure a : P α) s = .ok (a, s) := rfl

theorem P.bind_apply (p : P α) (f : α → P β) (s : Bytes) :
    (p >>= f) s = match p s with
      | .ok (a, r) => f a r
      | .error e => .error e := rfl

@[simp] theorem P.fail_apply (e : Err) (s : Bytes) : (P.fail e : P α) s = .error e := rfl

@[simp] theorem P.ofOption_some (e : Err) (a : α) : P.ofOption e (some a) = pure a := rfl
@[simp] theorem P.ofOption_none (e : Err) : (P.ofOption e none : P α) = P.fail e := rfl
@[simp] theorem P.ofRes_ok (a : α) : P.ofRes (.ok a) = pure a := rfl
@[simp] theorem P.ofRes_error (e : Err) : (P.ofRes (.error e) : P α) = P.fail e := rfl

theorem P.bind_ok {p : P α} {f : α → P β} {s r : Bytes} {a : α} (h : p s = .ok (a, r)) :
    (p >>= f) s = f a r := by rw [P.bind_apply, h]

theorem P.bind_err {p : P α} {f : α → P β} {s : Bytes} {e : Err} (h : p s = .error e) :
    (p >>= f) s = .error e := by rw [P.bind_apply, h]

theorem P.bind_eq_ok {p : P α} {f : α → P β} {s r : Bytes} {b : β} :
    (p >>= f) s = .ok (b, r) ↔ ∃ a r', p s = .ok (a, r') ∧ f a r' = .ok (b, r) := by
  rw [P.bind_apply]
  cases h : p s with
  | error e => simp
  | ok x =>
    obtain ⟨a, r'⟩ := x
    constructor
    · intro h'; exact ⟨a, r', rfl, h'⟩
    · rintro ⟨a', r'', h1, h2⟩
      cases h1
      exact h2

@[simp] theorem P.map_apply (f : α → β) (p : P α) (s : Bytes) :
    (f <$> p) s = match p s with
      | .ok (a, r) => .ok (f a, r)
      | .error e => .error e := rfl

@[simp] theorem P.pure_bind (a : α) (f : α → P β) : (pure a >>= f) = f a := rfl

@[simp] theorem P.bind_assoc {γ : Type} (p : P α) (f : α → P β) (g : β → P γ) :
    (p >>= f) >>= g = p >>= fun a => f a >>= g := by
  funext s
  simp only [P.bind_apply]
  cases p s with
  | error e => rfl
  | ok x => rfl

end monad

/-! ### Bit masks as arithmetic -/

theorem shr_eq (x k : Nat) : x >>> k = x / 2 ^ k := Nat.shiftRight_eq_div_pow x k

theorem and_pow (x i : Nat) : x &&& 2 ^ i = 2 ^ i * (x / 2 ^ i % 2) := by
  apply Nat.eq_of_testBit_eq
  intro j
  rw [Nat.testBit_and, Nat.testBit_two_pow]
  rcases Nat.mod_two_eq_zero_or_one (x / 2 ^ i) with h | h
  · rw [h]
    by_cases hj : i = j
    · subst hj; simp [Nat.testBit_eq_decide_div_mod_eq, h]
    · simp [hj]
  · rw [h, Nat.mul_one, Nat.testBit_two_pow]
    by_cases hj : i = j
    · subst hj; simp [Nat.testBit_eq_decide_div_mod_eq, h]
    · simp [hj]

theorem and_1 (x : Nat) : x &&& 1 = x % 2 := by simp
theorem and_2 (x : Nat) : x &&& 2 = 2 * (x / 2 % 2) := by simpa using and_pow x 1
theorem and_4 (x : Nat) : x &&& 4 = 4 * (x / 4 % 2) := by simpa using and_pow x 2
theorem and_8 (x : Nat) : x &&& 8 = 8 * (x / 8 % 2) := by simpa using and_pow x 3
theorem and_16 (x : Nat) : x &&& 16 = 16 * (x / 16 % 2) := by simpa using and_pow x 4
theorem and_32 (x : Nat) : x &&& 32 = 32 * (x / 32 % 2) := by simpa using and_pow x 5
theorem and_64 (x : Nat) : x &&& 64 = 64 * (x / 64 % 2) := by simpa using and_pow x 6
theorem and_128 (x : Nat) : x &&& 128 = 128 * (x / 128 % 2) := by simpa using and_pow x 7
theorem and_3 (x : Nat) : x &&& 3 = x % 4 := Nat.and_two_pow_sub_one_eq_mod x 2
theorem and_7 (x : Nat) : x &&& 7 = x % 8 := Nat.and_two_pow_sub_one_eq_mod x 3
theorem and_3f (x : Nat) : x &&& 63 = x % 64 := Nat.and_two_pow_sub_one_eq_mod x 6
theorem and_7f (x : Nat) : x &&& 127 = x % 128 := Nat.and_two_pow_sub_one_eq_mod x 7
theorem and_3fff (x : Nat) : x &&& 16383 = x % 16384 := Nat.and_two_pow_sub_one_eq_mod x 14

/-! ### Little-endian numbers -/

@[simp] theorem leBytes_length (n v : Nat) : (leBytes n v).length = n := by
  induction n generalizing v with
  | zero => rfl
  | succ n ih => simp [leBytes, ih]

theorem ofNat_toNat_mod (v : Nat) : (UInt8.ofNat (v % 256)).toNat = v % 256 := by
  simp

theorem leNat_leBytes (n v : Nat) : leNat (leBytes n v) = v % 256 ^ n := by
  induction n generalizing v with
  | zero => simp [leBytes, leNat, Nat.mod_one]
  | succ n ih =>
    simp only [leBytes, leNat, ih, ofNat_toNat_mod]
    rw [Nat.pow_succ, Nat.mul_comm (256 ^ n) 256, Nat.mod_mul]

theorem leNat_lt (bs : Bytes) : leNat bs < 256 ^ bs.length := by
  induction bs with
  | nil => simp [leNat]
  | cons b bs ih =>
    have := b.toNat_lt
    simp only [leNat, List.length_cons, Nat.pow_succ]
    omega

theorem leBytes_leNat (bs : Bytes) : leBytes bs.length (leNat bs) = bs := by
  induction bs with
  | nil => rfl
  | cons b bs ih =>
    have := b.toNat_lt
    have h1 : (b.toNat + 256 * leNat bs) % 256 = b.toNat := by omega
    have h2 : (b.toNat + 256 * leNat bs) / 256 = leNat bs := by omega
    simp only [leNat, List.length_cons, leBytes, h1, h2, ih]
    simp

theorem getLE_append (n : Nat) (c r : Bytes) (h : c.length = n) :
    getLE n (c ++ r) = .ok (leNat c, r) := by
  subst h
  simp [getLE]

theorem getLE_leBytes (n v : Nat) (r : Bytes) :
    getLE n (leBytes n v ++ r) = .ok (v % 256 ^ n, r) := by
  rw [getLE_append _ _ _ (by simp), leNat_leBytes]

theorem getLE_eq_ok {n : Nat} {s r : Bytes} {v : Nat} :
    getLE n s = .ok (v, r) ↔ v < 256 ^ n ∧ s = leBytes n v ++ r := by
  constructor
  · intro h
    unfold getLE at h
    split at h
    · cases h
    · rename_i hn
      injection h with h
      injection h with h1 h2
      have hl : (s.take n).length = n := by simp; omega
      have h3 := leBytes_leNat (s.take n)
      rw [hl] at h3
      have h4 := leNat_lt (s.take n)
      rw [hl] at h4
      subst h1 h2
      refine ⟨h4, ?_⟩
      rw [h3, List.take_append_drop]
  · rintro ⟨hv, rfl⟩
    rw [getLE_leBytes, Nat.mod_eq_of_lt hv]

theorem getLE_leBytes_lt {n v : Nat} (hv : v < 256 ^ n) (r : Bytes) :
    getLE n (leBytes n v ++ r) = .ok (v, r) := getLE_eq_ok.mpr ⟨hv, rfl⟩

theorem getLE_lt {n : Nat} {s r : Bytes} {v : Nat} (h : getLE n s = .ok (v, r)) : v < 256 ^ n :=
  (getLE_eq_ok.mp h).1

theorem readN_append (c r : Bytes) : readN c.length (c ++ r) = .ok (c, r) := by simp [readN]

theorem readN_append' (n : Nat) (c r : Bytes) (h : c.length = n) :
    readN n (c ++ r) = .ok (c, r) := by subst h; simp [readN]

theorem readN_eq_ok {n : Nat} {s c r : Bytes} :
    readN n s = .ok (c, r) ↔ c.length = n ∧ s = c ++ r := by
  constructor
  · intro h
    unfold readN at h
    split at h
    · cases h
    · injection h with h
      injection h with h1 h2
      subst h1 h2
      simp
      omega
  · rintro ⟨rfl, rfl⟩
    exact readN_append _ _

end OneNote
