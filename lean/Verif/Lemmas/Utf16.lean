/-
UTF-16 decoding.
-/
import Verif.Model.Text
import Verif.Spec.Utf16
import Verif.Lemmas.Basic

namespace OneNote
open Spec

theorem toNat_ofNat {n : Nat} (h : n.isValidChar) : (Char.ofNat n).toNat = n := by
  unfold Char.ofNat
  rw [dif_pos h]
  rfl

theorem char_cases (c : Char) : c.toNat < 0xD800 ∨ (0xDFFF < c.toNat ∧ c.toNat < 0x110000) := by
  have := c.valid
  exact this

theorem plain_iff (u : Nat) : isPlainUnit u = true ↔ u < 0xD800 ∨ 0xDFFF < u := by
  simp [isPlainUnit]

theorem high_iff (u : Nat) : isHighSurrogate u = true ↔ Leading u := by
  simp [isHighSurrogate, Leading]

theorem low_iff (u : Nat) : isLowSurrogate u = true ↔ Trailing u := by
  simp [isLowSurrogate, Trailing]

/-- A plain unit in front of anything. -/
theorem decodeUtf16_plain {u : Nat} (h : isPlainUnit u = true) (us : List Nat) :
    decodeUtf16 (u :: us) = (decodeUtf16 us).map (Char.ofNat u :: ·) := by
  cases us with
  | nil => simp [decodeUtf16, h]
  | cons v us => simp [decodeUtf16, h]

theorem decodeUtf16_pair {u v : Nat} (hu : Leading u) (hv : Trailing v) (us : List Nat) :
    decodeUtf16 (u :: v :: us) = (decodeUtf16 us).map (pairChar u v :: ·) := by
  have h0 : isPlainUnit u = false := by
    rw [Bool.eq_false_iff]; intro h; rw [plain_iff] at h; unfold Leading at hu; omega
  rw [decodeUtf16]
  simp [h0, (high_iff u).2 hu, (low_iff v).2 hv]

theorem decodeUtf16_units (c : Char) (us : List Nat) :
    decodeUtf16 (utf16Units c ++ us) = (decodeUtf16 us).map (c :: ·) := by
  unfold utf16Units
  have hc := char_cases c
  split
  · rw [List.singleton_append, decodeUtf16_plain (by rw [plain_iff]; omega), Char.ofNat_toNat]
  · rw [List.cons_append, List.cons_append, List.nil_append, decodeUtf16_pair]
    · unfold pairChar
      rw [show 0x10000 + (0xD800 + (c.toNat - 0x10000) / 0x400 - 0xD800) * 0x400
        + (0xDC00 + (c.toNat - 0x10000) % 0x400 - 0xDC00) = c.toNat by omega, Char.ofNat_toNat]
    · unfold Leading; omega
    · unfold Trailing; omega

theorem decodeUtf16_text (t : List Char) : decodeUtf16 (t.flatMap utf16Units) = some t := by
  induction t with
  | nil => rfl
  | cons c t ih => rw [List.flatMap_cons, decodeUtf16_units, ih]; rfl

/-- Text in front of units that do not decode. -/
theorem decodeUtf16_text_append (t : List Char) (us : List Nat) :
    decodeUtf16 (t.flatMap utf16Units ++ us) = (decodeUtf16 us).map (t ++ ·) := by
  induction t with
  | nil => simp
  | cons c t ih =>
    rw [List.flatMap_cons, List.append_assoc, decodeUtf16_units, ih, Option.map_map]
    rfl

/-- Only the encoding of a text decodes to it. -/
theorem decodeUtf16_inv : ∀ (n : Nat) (us : List Nat) (t : List Char), us.length ≤ n →
    (∀ u ∈ us, u < 0x10000) → decodeUtf16 us = some t → us = t.flatMap utf16Units := by
  intro n
  induction n with
  | zero =>
    intro us t hn _ h
    have : us = [] := List.length_eq_zero_iff.mp (by omega)
    subst this
    simp only [decodeUtf16, Option.some.injEq] at h
    subst h; rfl
  | succ n ih =>
    intro us t hn hlt h
    match us with
    | [] =>
      simp only [decodeUtf16, Option.some.injEq] at h
      subst h; rfl
    | u :: us =>
      by_cases hp : isPlainUnit u = true
      · rw [decodeUtf16_plain hp, Option.map_eq_some_iff] at h
        obtain ⟨t', h', rfl⟩ := h
        have hu := hlt u (List.mem_cons_self ..)
        have hpl := (plain_iff u).1 hp
        have hv : (Char.ofNat u).toNat = u := toNat_ofNat (by unfold Nat.isValidChar; omega)
        rw [List.flatMap_cons, ← ih us t' (by simp only [List.length_cons] at hn; omega)
          (fun x hx => hlt x (List.mem_cons_of_mem _ hx)) h']
        unfold utf16Units
        rw [hv, if_pos hu]; rfl
      · match us with
        | [] => simp [decodeUtf16, hp] at h
        | v :: us =>
          by_cases hs : (isHighSurrogate u && isLowSurrogate v) = true
          · have hs' := hs
            rw [Bool.and_eq_true, high_iff, low_iff] at hs'
            rw [decodeUtf16_pair hs'.1 hs'.2, Option.map_eq_some_iff] at h
            obtain ⟨t', h', rfl⟩ := h
            have h1 := hs'.1
            have h2 := hs'.2
            unfold Leading at h1
            unfold Trailing at h2
            have hv : (pairChar u v).toNat = 0x10000 + (u - 0xD800) * 0x400 + (v - 0xDC00) :=
              toNat_ofNat (by unfold Nat.isValidChar; omega)
            rw [List.flatMap_cons, ← ih us t' (by simp only [List.length_cons] at hn; omega)
              (fun x hx => hlt x (List.mem_cons_of_mem _ (List.mem_cons_of_mem _ hx))) h']
            unfold utf16Units
            rw [hv, if_neg (by omega)]
            rw [List.cons_append, List.cons_append, List.nil_append]
            rw [show 0xD800 + (0x10000 + (u - 0xD800) * 0x400 + (v - 0xDC00) - 0x10000) / 0x400 = u by
                omega,
              show 0xDC00 + (0x10000 + (u - 0xD800) * 0x400 + (v - 0xDC00) - 0x10000) % 0x400 = v by
                omega]
          · rw [decodeUtf16] at h
            simp only [hp, if_false, Bool.false_eq_true] at h
            rw [if_neg hs] at h
            cases h

theorem chunks2_unit {u : Nat} (h : u < 0x10000) (rest : Bytes) :
    chunks2 (leBytes 2 u ++ rest) = u :: chunks2 rest := by
  have := leNat_leBytes 2 u
  rw [Nat.mod_eq_of_lt (by simpa using h)] at this
  show leNat (leBytes 2 u) :: chunks2 rest = _
  rw [this]

theorem chunks2_units (us : List Nat) (h : ∀ u ∈ us, u < 0x10000) (rest : Bytes) :
    chunks2 (unitBytes us ++ rest) = us ++ chunks2 rest := by
  induction us with
  | nil => rfl
  | cons u us ih =>
    have e : unitBytes (u :: us) = leBytes 2 u ++ unitBytes us := rfl
    rw [e, List.append_assoc, chunks2_unit (h u (List.mem_cons_self ..)),
      ih (fun x hx => h x (List.mem_cons_of_mem _ hx))]
    rfl

theorem chunks2_short {tail : Bytes} (h : tail.length ≤ 1) : chunks2 tail = [] := by
  match tail with
  | [] => rfl
  | [_] => rfl
  | _ :: _ :: _ => simp at h

theorem chunks2_lt : ∀ (data : Bytes), ∀ u ∈ chunks2 data, u < 0x10000
  | [] => by simp [chunks2]
  | [_] => by simp [chunks2]
  | a :: b :: rest => by
    intro u hu
    rw [chunks2, List.mem_cons] at hu
    rcases hu with rfl | hu
    · have := leNat_lt [a, b]
      simpa using this
    · exact chunks2_lt rest u hu

/-- The data is its code units and at most one more byte. -/
theorem chunks2_split : ∀ (data : Bytes), ∃ tail, data = unitBytes (chunks2 data) ++ tail ∧ tail.length ≤ 1
  | [] => ⟨[], rfl, by simp⟩
  | [b] => ⟨[b], rfl, by simp⟩
  | a :: b :: rest => by
    obtain ⟨tail, h, hl⟩ := chunks2_split rest
    refine ⟨tail, ?_, hl⟩
    have e : unitBytes (chunks2 (a :: b :: rest)) = leBytes 2 (leNat [a, b]) ++ unitBytes (chunks2 rest) :=
      rfl
    have := leBytes_leNat [a, b]
    rw [e, show leBytes 2 (leNat [a, b]) = [a, b] from this, List.append_assoc, ← h]
    rfl

theorem truncateNul_append {us : List Nat} (h : 0 ∉ us) (vs : List Nat) :
    truncateNul (us ++ vs) = us ++ truncateNul vs := by
  induction us with
  | nil => rfl
  | cons u us ih =>
    simp only [List.mem_cons, not_or] at h
    have hu : ¬ u = 0 := fun e => h.1 e.symm
    rw [List.cons_append, List.cons_append, ← ih h.2]
    simp [truncateNul, hu]

theorem truncateNul_split (us : List Nat) :
    0 ∉ truncateNul us ∧ (us = truncateNul us ∨ ∃ vs, us = truncateNul us ++ 0 :: vs) := by
  induction us with
  | nil => exact ⟨by simp [truncateNul], .inl rfl⟩
  | cons u us ih =>
    by_cases hu : u = 0
    · subst hu
      exact ⟨by simp [truncateNul], .inr ⟨us, by simp [truncateNul]⟩⟩
    · have e : truncateNul (u :: us) = u :: truncateNul us := by simp [truncateNul, hu]
      rw [e]
      refine ⟨by simp only [List.mem_cons, not_or]; exact ⟨fun h => hu h.symm, ih.1⟩, ?_⟩
      rcases ih.2 with h | ⟨vs, h⟩
      · exact .inl (congrArg (u :: ·) h)
      · exact .inr ⟨vs, congrArg (u :: ·) h⟩

theorem units_lt (c : Char) : ∀ u ∈ utf16Units c, u < 0x10000 := by
  have hc := char_cases c
  unfold utf16Units
  split
  · simp; omega
  · intro u hu
    simp only [List.mem_cons, List.not_mem_nil, or_false] at hu
    rcases hu with h | h <;> omega

theorem text_units_lt (t : List Char) : ∀ u ∈ t.flatMap utf16Units, u < 0x10000 := by
  intro u hu
  obtain ⟨c, _, h⟩ := List.mem_flatMap.mp hu
  exact units_lt c u h

theorem units_nul (c : Char) : 0 ∈ utf16Units c ↔ c = nul := by
  unfold utf16Units
  constructor
  · split
    · intro h
      simp only [List.mem_cons, List.not_mem_nil, or_false] at h
      have : Char.ofNat c.toNat = Char.ofNat 0 := by rw [← h]
      rwa [Char.ofNat_toNat] at this
    · intro h
      simp only [List.mem_cons, List.not_mem_nil, or_false] at h
      omega
  · rintro rfl
    simp [nul]

theorem text_units_nul (t : List Char) : 0 ∈ t.flatMap utf16Units ↔ nul ∈ t := by
  rw [List.mem_flatMap]
  constructor
  · rintro ⟨c, hc, h⟩
    rw [units_nul] at h
    subst h; exact hc
  · exact fun h => ⟨nul, h, (units_nul nul).2 rfl⟩

/-- What the code units before the first NUL are, for a text in front of an end. -/
theorem truncate_text {t : List Char} (ht : nul ∉ t) {tail : Bytes} (h : EndsText tail) :
    truncateNul (chunks2 (utf16 t ++ tail)) = t.flatMap utf16Units := by
  unfold utf16
  rw [chunks2_units _ (text_units_lt t), truncateNul_append (fun h => ht ((text_units_nul t).1 h))]
  rcases h with h | ⟨rest, rfl⟩
  · rw [chunks2_short h]; simp [truncateNul]
  · simp [chunks2, truncateNul, leNat]

end OneNote
