/-
Structured values: indents, ink and lists.
-/
import Verif.Lemmas.Readings

namespace OneNote

open Spec Spec.Fields

/-! ### Ink paths -/

theorem or_shift_mod (acc d s : Nat) (h : acc < 2 ^ s) (hs : s < 64) :
    acc ||| (d <<< s) % 2 ^ 64 = (acc + d * 2 ^ s) % 2 ^ 64 := by
  obtain ⟨k, hk⟩ : ∃ k, 64 = s + k := ⟨64 - s, by omega⟩
  rw [hk]
  have e : (d <<< s) % 2 ^ (s + k) = (d % 2 ^ k) <<< s := by
    rw [Nat.shiftLeft_eq, Nat.shiftLeft_eq, Nat.pow_add, Nat.mul_comm d, Nat.mul_comm (d % _),
      Nat.mul_mod_mul_left]
  rw [e, Nat.or_comm, Nat.shiftLeft_eq, Nat.mul_comm (d % _), ← Nat.two_pow_add_eq_or_of_lt h]
  have hd : d = d % 2 ^ k + 2 ^ k * (d / 2 ^ k) := (Nat.mod_add_div d (2 ^ k)).symm
  have : acc + d * 2 ^ s = (2 ^ s * (d % 2 ^ k) + acc) + 2 ^ (s + k) * (d / 2 ^ k) := by
    conv => lhs; rw [hd]
    rw [Nat.pow_add, Nat.add_mul, Nat.mul_comm (d % 2 ^ k), Nat.mul_right_comm, Nat.mul_comm (2 ^ k)]
    omega
  rw [this, Nat.add_mul_mod_self_left]
  refine (Nat.mod_eq_of_lt ?_).symm
  rw [Nat.pow_add]
  have h1 : d % 2 ^ k < 2 ^ k := Nat.mod_lt _ (Nat.two_pow_pos k)
  calc 2 ^ s * (d % 2 ^ k) + acc < 2 ^ s * (d % 2 ^ k) + 2 ^ s := by omega
    _ = 2 ^ s * (d % 2 ^ k + 1) := by rw [Nat.mul_add, Nat.mul_one]
    _ ≤ 2 ^ s * 2 ^ k := Nat.mul_le_mul_left _ h1

/-- One number, in the middle of reading it: `acc` is the value so far and `k` bytes were read. -/
def Spec.Value.Rest (data : Bytes) (acc k n m : Nat) : Prop :=
  ∃ bs rest, data = bs ++ rest ∧ bs.length + k ≤ 10 ∧
    n = (acc + Ink.value bs * 2 ^ (k * 7)) % 2 ^ 64 ∧ m = k + bs.length ∧
    (Ink.Complete bs ∨ (0 < bs.length + k ∧ rest = [] ∧ ∀ b ∈ bs, Ink.more b))

theorem complete_cons {b : UInt8} {bs : Bytes} (h : Ink.more b) :
    Ink.Complete (b :: bs) ↔ Ink.Complete bs := by
  cases bs with
  | nil => simp [Ink.Complete, h]
  | cons c bs => simp [Ink.Complete, h]

theorem complete_last {b : UInt8} {bs : Bytes} (h : ¬ Ink.more b) :
    Ink.Complete (b :: bs) ↔ bs = [] := by
  cases bs with
  | nil => simp [Ink.Complete, h]
  | cons c bs => simp [Ink.Complete, h]

theorem decodeUintLoop_iff (data : Bytes) : ∀ (acc k n m : Nat), k ≤ 10 → acc < 2 ^ 64 →
    acc < 2 ^ (k * 7) →
    (MultiByte.decodeUintLoop data acc k = .ok (n, m) ↔ Value.Rest data acc k n m) := by
  induction data with
  | nil =>
    intro acc k n m hk h64 hacc
    unfold MultiByte.decodeUintLoop Value.Rest
    constructor
    · intro h
      split at h
      · cases h
      · cases h
        refine ⟨[], [], rfl, by simpa using hk, ?_, rfl, .inr ⟨by simp; omega, rfl, by simp⟩⟩
        simp only [Ink.value, Nat.zero_mul, Nat.add_zero]
        exact (Nat.mod_eq_of_lt h64).symm
    · rintro ⟨bs, rest, hd, hl, rfl, rfl, hc⟩
      obtain ⟨rfl, rfl⟩ : bs = [] ∧ rest = [] := by simpa using hd.symm
      rcases hc with hc | ⟨hc, _⟩
      · exact hc.elim
      · rw [if_neg (by simp at hc; omega)]
        simp [Ink.value, Nat.mod_eq_of_lt h64]
  | cons b data ih =>
    intro acc k n m hk h64 hacc
    unfold MultiByte.decodeUintLoop
    by_cases h10 : k = 10
    · rw [if_pos h10]
      constructor
      · intro h; cases h
      · rintro ⟨bs, rest, hd, hl, _, _, hc⟩
        have : bs = [] := List.length_eq_zero_iff.1 (by omega)
        subst this
        rcases hc with hc | ⟨_, rfl, _⟩
        · exact hc.elim
        · simp at hd
    · rw [if_neg h10, if_neg (by omega)]
      have hs : k * 7 < 64 := by omega
      simp only [and_7F]
      rw [or_shift_mod acc _ _ hacc hs]
      have hlt : acc + b.toNat % 128 * 2 ^ (k * 7) < 2 ^ ((k + 1) * 7) := by
        rw [pow_split]
        have : b.toNat % 128 + 1 ≤ 128 := Nat.mod_lt _ (by omega)
        calc acc + b.toNat % 128 * 2 ^ (k * 7) < 2 ^ (k * 7) + b.toNat % 128 * 2 ^ (k * 7) := by omega
          _ = 2 ^ (k * 7) * (b.toNat % 128 + 1) := by
            rw [Nat.mul_add, Nat.mul_comm (b.toNat % 128), Nat.mul_one]; omega
          _ ≤ 2 ^ (k * 7) * 128 := Nat.mul_le_mul_left _ this
      have step : ∀ v, ((acc + b.toNat % 128 * 2 ^ (k * 7)) % 2 ^ 64 + v * 2 ^ ((k + 1) * 7)) % 2 ^ 64 =
          (acc + (b.toNat % 128 + 128 * v) * 2 ^ (k * 7)) % 2 ^ 64 := by
        intro v
        rw [Nat.mod_add_mod, pow_split]
        congr 1
        rw [Nat.add_mul, Nat.mul_comm (2 ^ (k * 7)) 128, ← Nat.mul_assoc, Nat.mul_comm v 128]
        omega
      by_cases hm : Ink.more b
      · rw [if_pos ((and_80 b).2 hm), ih _ _ _ _ (by omega) (Nat.mod_lt _ (by decide))
          (Nat.lt_of_le_of_lt (Nat.mod_le _ _) hlt)]
        constructor
        · rintro ⟨bs, rest, rfl, hl, rfl, rfl, hc⟩
          refine ⟨b :: bs, rest, rfl, by simp; omega, step _, by simp; omega, ?_⟩
          rcases hc with hc | ⟨_, rfl, hc⟩
          · exact .inl ((complete_cons hm).2 hc)
          · refine .inr ⟨by simp; omega, rfl, fun c h => ?_⟩
            rcases List.mem_cons.1 h with rfl | h
            · exact hm
            · exact hc c h
        · rintro ⟨bs, rest, hd, hl, rfl, rfl, hc⟩
          cases bs with
          | nil =>
            rcases hc with hc | ⟨_, rfl, _⟩
            · exact hc.elim
            · cases hd
          | cons c bs =>
            cases hd
            refine ⟨bs, rest, rfl, by simp at hl; omega, (step _).symm, by simp; omega, ?_⟩
            rcases hc with hc | ⟨_, rfl, hc⟩
            · exact .inl ((complete_cons hm).1 hc)
            · exact .inr ⟨by omega, rfl, fun c h => hc c (List.mem_cons_of_mem _ h)⟩
      · rw [if_neg fun h => hm ((and_80 b).1 h)]
        constructor
        · intro h
          cases h
          exact ⟨[b], data, rfl, by simp; omega, by simp [Ink.value], rfl,
            .inl ((complete_last hm).2 rfl)⟩
        · rintro ⟨bs, rest, hd, hl, rfl, rfl, hc⟩
          cases bs with
          | nil =>
            rcases hc with hc | ⟨_, rfl, _⟩
            · exact hc.elim
            · cases hd
          | cons c bs =>
            cases hd
            rcases hc with hc | ⟨_, rfl, hc⟩
            · cases (complete_last hm).1 hc
              simp [Ink.value]
            · exact absurd (hc b (by simp)) hm

theorem decodeUint_iff (data : Bytes) (n : Nat) (rest : Bytes) :
    Value.Number data n rest ↔
      ∃ m, MultiByte.decodeUint data = .ok (n, m) ∧ rest = data.drop m ∧ m ≤ data.length := by
  unfold MultiByte.decodeUint
  simp only [decodeUintLoop_iff data 0 0 n _ (by omega) (by decide) (by decide)]
  constructor
  · rintro ⟨bs, rfl, hl, rfl, hc⟩
    refine ⟨bs.length, ⟨bs, rest, rfl, by omega, by simp, by simp, ?_⟩, by simp, by simp⟩
    rcases hc with hc | ⟨h1, h2, h3⟩
    · exact .inl hc
    · exact .inr ⟨by have := List.length_pos_iff.2 h1; omega, h2, h3⟩
  · rintro ⟨m, ⟨bs, rest', rfl, hl, rfl, rfl, hc⟩, rfl, _⟩
    refine ⟨bs, by simp, by omega, by simp, ?_⟩
    rcases hc with hc | ⟨h1, rfl, h3⟩
    · exact .inl hc
    · exact .inr ⟨fun h => by subst h; simp at h1, by simp, h3⟩

theorem decodeLoop_iff (input : Bytes) : ∀ (k i : Nat) (ns : List Nat), i ≤ input.length →
    (MultiByte.decodeLoop input k i = .ok ns ↔ Value.Numbers (input.drop i) ns ∧ ns.length = k) := by
  intro k
  induction k with
  | zero =>
    intro i ns _
    unfold MultiByte.decodeLoop
    constructor
    · intro h; cases h; exact ⟨.nil, rfl⟩
    · rintro ⟨_, h⟩; rw [List.length_eq_zero_iff.1 h]
  | succ k ih =>
    intro i ns hi
    unfold MultiByte.decodeLoop
    constructor
    · intro h
      split at h
      · cases h
      · split at h
        · cases h
        · rename_i v off hd
          split at h
          · cases h
          · rename_i vs hvs
            cases h
            have hle : off ≤ (input.drop i).length := by
              have := (decodeUintLoop_iff (input.drop i) 0 0 v off (by omega) (by decide)
                (by decide)).1 hd
              obtain ⟨bs, rest, hb, _, _, rfl, _⟩ := this
              rw [hb]; simp
            rw [List.length_drop] at hle
            obtain ⟨h1, h2⟩ := (ih (i + off) vs (by omega)).1 hvs
            refine ⟨.cons ((decodeUint_iff _ _ _).2 ⟨off, hd, rfl, by simpa using hle⟩) ?_, by simp [h2]⟩
            rw [List.drop_drop]
            exact h1
    · rintro ⟨h, hl⟩
      cases h with
      | nil => cases hl
      | @cons _ rest v vs h1 h2 =>
        obtain ⟨off, hd, rfl, hle⟩ := (decodeUint_iff _ _ _).1 h1
        have hne : ¬ i ≥ input.length := by
          intro hge
          rw [List.drop_eq_nil_of_le hge] at hd
          cases hd
        rw [if_neg hne, hd]
        rw [List.length_drop] at hle
        rw [List.drop_drop] at h2
        simp only [(ih (i + off) vs (by omega)).2 ⟨h2, by simpa using hl⟩]

theorem decodeSigned_iff (data : Bytes) (is : List Int) :
    MultiByte.decodeSigned data = .ok is ↔ Value.path (.vec data) is := by
  unfold MultiByte.decodeSigned MultiByte.decode Value.path
  have half : ∀ n : Nat, n >>> 1 = n / 2 := fun n => Nat.shiftRight_eq_div_pow n 1
  have hsg : MultiByte.signed = Ink.unzigzag := funext signed_eq
  constructor
  · intro h
    split at h
    · cases h
    · rename_i ns h'
      cases h
      split at h'
      · cases h'
      · rename_i k off hd
        have hle : off ≤ data.length := by
          have := (decodeUintLoop_iff data 0 0 k off (by omega) (by decide) (by decide)).1 hd
          obtain ⟨bs, rest, hb, _, _, rfl, _⟩ := this
          rw [hb]; simp
        obtain ⟨h1, h2⟩ := (decodeLoop_iff data _ off ns hle).1 h'
        exact ⟨data, k, data.drop off, ns, rfl, (decodeUint_iff _ _ _).2 ⟨off, hd, rfl, hle⟩, h1,
          by rw [h2, half], by rw [hsg]⟩
  · rintro ⟨d, k, rest, ns, hv, h1, h2, h3, rfl⟩
    cases hv
    obtain ⟨off, hd, rfl, hle⟩ := (decodeUint_iff _ _ _).1 h1
    rw [hd]
    simp only [(decodeLoop_iff data (k >>> 1) off ns hle).2 ⟨h2, by rw [half, h3]⟩, hsg]

theorem parsePath_iff {t : PropertyType} {o : Object} {r : Option (List Int)} :
    (Simple.parseVec t o >>= optM MultiByte.decodeSigned) = .ok r ↔
      Optional o.props.properties t.code Value.path r := by
  refine optional_conv (R := Value.bytes) (fun v b => ?_) (fun r => parseVec_iff)
  simp only [decodeSigned_iff, Value.bytes]
  constructor
  · intro h; obtain ⟨d, k, rest, ns, rfl, h⟩ := h; exact ⟨d, rfl, d, k, rest, ns, rfl, h⟩
  · rintro ⟨d, rfl, h⟩; exact h

theorem parseBias_iff {t : PropertyType} {o : Object} {r : Option InkBias} :
    (Simple.parseU8 t o >>= optM InkBias.ofValue) = .ok r ↔
      Optional o.props.properties t.code Value.bias r := by
  refine optional_conv (R := Value.u8) (fun v b => ?_) (fun r => parseU8_iff)
  constructor
  · rintro (⟨rfl, rfl⟩ | ⟨rfl, rfl⟩ | ⟨rfl, rfl⟩) <;> exact ⟨_, rfl, rfl⟩
  · rintro ⟨n, rfl, h⟩
    unfold InkBias.ofValue at h
    split at h <;> cases h
    · exact .inl ⟨rfl, rfl⟩
    · exact .inr (.inl ⟨rfl, rfl⟩)
    · exact .inr (.inr ⟨rfl, rfl⟩)

end OneNote
