/-
Lemmas about the multi-byte number decoder.
-/
import Verif.Model.MultiByte
import Verif.Spec.MultiByte

namespace OneNote
open Spec.Ink

theorem or_shift (a d s : Nat) (ha : a < 2 ^ s) (hd : d * 2 ^ s < 2 ^ 64) :
    a ||| (d <<< s) % 2 ^ 64 = a + d * 2 ^ s := by
  rw [Nat.shiftLeft_eq, Nat.mod_eq_of_lt hd, Nat.or_comm, Nat.mul_comm d,
    ← Nat.two_pow_add_eq_or_of_lt ha, Nat.add_comm]

theorem and_7F (n : Nat) : n &&& 0x7F = n % 128 := Nat.and_two_pow_sub_one_eq_mod n 7

theorem and_80 (b : UInt8) : (b.toNat &&& 0x80 = 0x80) ↔ more b := by
  have key : ∀ n < 256, (n &&& 0x80 = 0x80) ↔ 128 ≤ n := by decide +kernel
  exact key _ b.toNat_lt

theorem pow_split (k : Nat) : 2 ^ ((k + 1) * 7) = 2 ^ (k * 7) * 128 := by
  rw [show (k + 1) * 7 = k * 7 + 7 by omega, Nat.pow_add]

/-- A complete number that fits in 64 bits and in ten bytes is decoded, whatever follows. -/
theorem decodeUintLoop_complete (bs rest : Bytes) :
    ∀ (acc k : Nat), Complete bs → acc < 2 ^ (k * 7) → bs.length + k ≤ 10 →
      acc + value bs * 2 ^ (k * 7) < 2 ^ 64 →
      MultiByte.decodeUintLoop (bs ++ rest) acc k
        = .ok (acc + value bs * 2 ^ (k * 7), k + bs.length) := by
  induction bs with
  | nil => intro acc k h; exact h.elim
  | cons b bs ih =>
    intro acc k hc hacc hlen hfit
    have hlen' : bs.length + 1 + k ≤ 10 := hlen
    have hk : ¬ k = 10 := by omega
    have hk7 : ¬ k * 7 ≥ 64 := by omega
    have hd : (b.toNat % 128) * 2 ^ (k * 7) < 2 ^ 64 := by
      have : (b.toNat % 128) * 2 ^ (k * 7) ≤ value (b :: bs) * 2 ^ (k * 7) :=
        Nat.mul_le_mul_right _ (by simp only [value]; omega)
      omega
    rw [List.cons_append, MultiByte.decodeUintLoop]
    simp only [hk, hk7, if_false, and_7F]
    rw [or_shift _ _ _ hacc hd]
    cases bs with
    | nil =>
      have hm : ¬ (b.toNat &&& 0x80 = 0x80) := by rw [and_80]; exact hc
      simp [hm, value]
    | cons b' bs =>
      have hm : b.toNat &&& 0x80 = 0x80 := by rw [and_80]; exact hc.1
      have hv : value (b :: b' :: bs) = b.toNat % 128 + 128 * value (b' :: bs) := rfl
      simp only [hm, if_true]
      have e : (acc + b.toNat % 128 * 2 ^ (k * 7)) + value (b' :: bs) * 2 ^ ((k + 1) * 7)
          = acc + value (b :: b' :: bs) * 2 ^ (k * 7) := by
        rw [hv, pow_split, Nat.add_mul, Nat.add_assoc, Nat.mul_assoc 128,
          Nat.mul_comm 128, ← Nat.mul_assoc]
      rw [ih _ _ hc.2 _ (by simp at hlen' ⊢; omega) (by rw [e]; exact hfit), e]
      · simp only [List.length_cons]; congr 2; omega
      · rw [pow_split]
        have : b.toNat % 128 * 2 ^ (k * 7) ≤ 127 * 2 ^ (k * 7) := Nat.mul_le_mul_right _ (by omega)
        omega

theorem decodeUint_complete {bs : Bytes} (rest : Bytes) (hc : Complete bs) (hlen : bs.length ≤ 10)
    (hfit : value bs < 2 ^ 64) :
    MultiByte.decodeUint (bs ++ rest) = .ok (value bs, bs.length) := by
  have := decodeUintLoop_complete bs rest 0 0 hc (by simp) (by omega) (by simpa using hfit)
  simpa [MultiByte.decodeUint] using this

theorem complete_pos {bs : Bytes} (h : Complete bs) : 0 < bs.length := by
  cases bs with
  | nil => exact h.elim
  | cons => simp

/-- The decoder reads one complete number after the other. -/
theorem decodeLoop_complete (input rest : Bytes) :
    ∀ (ns : List Bytes) (n : Nat), (∀ bs ∈ ns, Complete bs ∧ bs.length ≤ 10 ∧ value bs < 2 ^ 64) →
      input.drop n = ns.flatten ++ rest → n ≤ input.length →
      MultiByte.decodeLoop input ns.length n = .ok (ns.map value) := by
  intro ns
  induction ns with
  | nil => intros; rfl
  | cons bs ns ih =>
    intro n h hd hn
    have hb := h bs (List.mem_cons_self ..)
    have hpos := complete_pos hb.1
    have hd' : input.drop n = bs ++ (ns.flatten ++ rest) := by rw [hd]; simp
    have hl : bs.length + (ns.flatten ++ rest).length = input.length - n := by
      rw [← List.length_append, ← hd', List.length_drop]
    have hlt : ¬ n ≥ input.length := by omega
    rw [List.length_cons, MultiByte.decodeLoop]
    simp only [hlt, if_false]
    rw [hd', decodeUint_complete _ hb.1 hb.2.1 hb.2.2]
    simp only
    rw [ih (n + bs.length) (fun b hb => h b (List.mem_cons_of_mem _ hb)) _ (by omega)]
    · rfl
    · rw [← List.drop_drop, hd', List.drop_left]

/-- As `decodeLoop_complete`, when more numbers are announced than `ns`. -/
theorem decodeLoop_after (input rest : Bytes) :
    ∀ (ns : List Bytes) (n k : Nat), (∀ bs ∈ ns, Complete bs ∧ bs.length ≤ 10 ∧ value bs < 2 ^ 64) →
      input.drop n = ns.flatten ++ rest → n ≤ input.length →
      MultiByte.decodeLoop input (ns.length + k) n
        = (MultiByte.decodeLoop input k (n + ns.flatten.length)).map (ns.map value ++ ·) := by
  intro ns
  induction ns with
  | nil =>
    intro n k _ _ _
    cases h : MultiByte.decodeLoop input k n <;> simp [h, Except.map]
  | cons bs ns ih =>
    intro n k h hd hn
    have hb := h bs (List.mem_cons_self ..)
    have hpos := complete_pos hb.1
    have hd' : input.drop n = bs ++ (ns.flatten ++ rest) := by rw [hd]; simp
    have hl : bs.length + (ns.flatten ++ rest).length = input.length - n := by
      rw [← List.length_append, ← hd', List.length_drop]
    have hlt : ¬ n ≥ input.length := by omega
    rw [List.length_cons, show ns.length + 1 + k = (ns.length + k) + 1 by omega,
      MultiByte.decodeLoop]
    simp only [hlt, if_false]
    rw [hd', decodeUint_complete _ hb.1 hb.2.1 hb.2.2]
    simp only
    rw [ih (n + bs.length) k (fun b hb => h b (List.mem_cons_of_mem _ hb)) _ (by omega)]
    · rw [show n + bs.length + ns.flatten.length = n + (bs :: ns).flatten.length by
        simp [Nat.add_assoc]]
      cases MultiByte.decodeLoop input k (n + (bs :: ns).flatten.length) <;> rfl
    · rw [← List.drop_drop, hd', List.drop_left]

/-! ### The shortest encoding -/

theorem uint_small {n : Nat} (h : n < 128) : uint n = [UInt8.ofNat n] := by rw [uint]; simp [h]

theorem uint_large {n : Nat} (h : ¬ n < 128) :
    uint n = UInt8.ofNat (128 + n % 128) :: uint (n / 128) := by rw [uint]; simp [h]

theorem value_uint (n : Nat) : value (uint n) = n := by
  induction n using Nat.strongRecOn with
  | _ n ih =>
    by_cases h : n < 128
    · rw [uint_small h]
      simp only [value, UInt8.toNat_ofNat']
      omega
    · rw [uint_large h]
      simp only [value, UInt8.toNat_ofNat', ih (n / 128) (by omega)]
      omega

theorem complete_uint (n : Nat) : Complete (uint n) := by
  induction n using Nat.strongRecOn with
  | _ n ih =>
    by_cases h : n < 128
    · rw [uint_small h]
      simp only [Complete, more, UInt8.toNat_ofNat']
      omega
    · rw [uint_large h]
      have h1 := ih (n / 128) (by omega)
      have hm : more (UInt8.ofNat (128 + n % 128)) := by
        simp only [more, UInt8.toNat_ofNat']; omega
      cases hu : uint (n / 128) with
      | nil => rw [hu] at h1; exact h1.elim
      | cons b bs => rw [hu] at h1; exact ⟨hm, h1⟩

theorem length_uint (k : Nat) : ∀ n, n < 128 ^ (k + 1) → (uint n).length ≤ k + 1 := by
  induction k with
  | zero => intro n h; rw [uint_small (by simpa using h)]; simp
  | succ k ih =>
    intro n h
    by_cases hs : n < 128
    · rw [uint_small hs]; simp
    · rw [uint_large hs, List.length_cons]
      have := ih (n / 128) (by
        rw [Nat.div_lt_iff_lt_mul (by decide)]
        calc n < 128 ^ (k + 1 + 1) := h
          _ = 128 ^ (k + 1) * 128 := Nat.pow_succ ..)
      omega

theorem uint_fine {n : Nat} (h : n < 2 ^ 64) :
    Complete (uint n) ∧ (uint n).length ≤ 10 ∧ value (uint n) < 2 ^ 64 := by
  refine ⟨complete_uint n, length_uint 9 n ?_, by rw [value_uint]; exact h⟩
  have : (2 : Nat) ^ 64 ≤ 128 ^ (9 + 1) := by decide
  omega

theorem signed_eq (n : Nat) : MultiByte.signed n = unzigzag n := by
  unfold MultiByte.signed unzigzag
  rw [show n &&& 0x1 = n % 2 from Nat.and_one_is_mod n, Nat.shiftRight_eq_div_pow]

theorem unzigzag_zigzag (v : Int) : unzigzag (zigzag v) = v := by
  unfold unzigzag zigzag
  split <;> split <;> omega

theorem zigzag_lt {v : Int} (h : v.natAbs < 2 ^ 63) : zigzag v < 2 ^ 64 := by
  unfold zigzag; split <;> omega

end OneNote

namespace OneNote
open Spec.Ink

/-- Ten bytes that all announce another one cannot be followed by anything. -/
theorem decodeUintLoop_overlong (bs : Bytes) (b : UInt8) (rest : Bytes) :
    ∀ (acc k : Nat), (∀ x ∈ bs, more x) → bs.length + k = 10 →
      MultiByte.decodeUintLoop (bs ++ b :: rest) acc k = .error .malformedOneNoteFile := by
  induction bs with
  | nil =>
    intro acc k _ hk
    have : k = 10 := by simpa using hk
    subst this
    rfl
  | cons x bs ih =>
    intro acc k h hk
    have hk' : bs.length + 1 + k = 10 := hk
    have h1 : ¬ k = 10 := by omega
    have h2 : ¬ k * 7 ≥ 64 := by omega
    have hm : x.toNat &&& 0x80 = 0x80 := by rw [and_80]; exact h x (List.mem_cons_self ..)
    rw [List.cons_append, MultiByte.decodeUintLoop]
    simp only [h1, h2, if_false, hm, if_true]
    exact ih _ _ (fun y hy => h y (List.mem_cons_of_mem _ hy)) (by omega)

/-- Data that ends inside a number of up to nine bytes is decoded as if the number were complete. -/
theorem decodeUintLoop_truncated (bs : Bytes) :
    ∀ (acc k : Nat), (∀ x ∈ bs, more x) → acc < 2 ^ (k * 7) → bs.length + k ≤ 9 →
      0 < bs.length + k →
      MultiByte.decodeUintLoop bs acc k
        = .ok (acc + value bs * 2 ^ (k * 7), k + bs.length) := by
  induction bs with
  | nil =>
    intro acc k _ _ _ hpos
    have : ¬ k = 0 := by simpa [Nat.pos_iff_ne_zero] using hpos
    simp [MultiByte.decodeUintLoop, this, value]
  | cons x bs ih =>
    intro acc k h hacc hk _
    have hk' : bs.length + 1 + k ≤ 9 := hk
    have h1 : ¬ k = 10 := by omega
    have h2 : ¬ k * 7 ≥ 64 := by omega
    have hm : x.toNat &&& 0x80 = 0x80 := by rw [and_80]; exact h x (List.mem_cons_self ..)
    have hlt : x.toNat % 128 * 2 ^ (k * 7) ≤ 127 * 2 ^ (k * 7) := Nat.mul_le_mul_right _ (by omega)
    have hp : 2 ^ (k * 7) ≤ 2 ^ (8 * 7) := Nat.pow_le_pow_right (by decide) (by omega)
    have hd : x.toNat % 128 * 2 ^ (k * 7) < 2 ^ 64 := by omega
    rw [MultiByte.decodeUintLoop]
    simp only [h1, h2, if_false, hm, if_true, and_7F]
    rw [or_shift _ _ _ hacc hd, ih _ _ (fun y hy => h y (List.mem_cons_of_mem _ hy)) _
      (by omega) (by omega)]
    · have hv : value (x :: bs) = x.toNat % 128 + 128 * value bs := rfl
      have e : (acc + x.toNat % 128 * 2 ^ (k * 7)) + value bs * 2 ^ ((k + 1) * 7)
          = acc + value (x :: bs) * 2 ^ (k * 7) := by
        rw [hv, pow_split, Nat.add_mul, Nat.add_assoc, Nat.mul_assoc 128, Nat.mul_comm 128,
          ← Nat.mul_assoc]
      rw [e]
      simp only [List.length_cons]
      congr 2
      omega
    · rw [pow_split]; omega

end OneNote
