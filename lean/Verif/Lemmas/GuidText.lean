/-
Lemmas for the text form of GUIDs.
-/
import Verif.Model.GuidText
import Verif.Spec.GuidText

namespace OneNote

open Spec.GuidText

/-- The digits in either case. -/
private def both : List Char :=
  ['0', '1', '2', '3', '4', '5', '6', '7', '8', '9', 'A', 'B', 'C', 'D', 'E', 'F', 'a', 'b', 'c', 'd',
    'e', 'f']

private theorem char_ofNat (c : Char) (k : Nat) (h : c.toNat = k) : c = Char.ofNat k := by
  rw [← h, Char.ofNat_toNat]

private theorem le_toNat {a b : Char} : a ≤ b ↔ a.toNat ≤ b.toNat := Iff.rfl

private theorem digit_mem {c : Char} {n : Nat} (h : Guid.digitValue c = some n) : c ∈ both := by
  unfold Guid.digitValue at h
  have key : (48 ≤ c.toNat ∧ c.toNat ≤ 57) ∨ (65 ≤ c.toNat ∧ c.toNat ≤ 70) ∨
      (97 ≤ c.toNat ∧ c.toNat ≤ 102) := by
    split at h
    · rename_i k; exact .inl k
    split at h
    · rename_i k; exact .inr (.inl k)
    split at h
    · rename_i k; exact .inr (.inr k)
    · cases h
  have hc : c = Char.ofNat c.toNat := (Char.ofNat_toNat c).symm
  have hs : c.toNat ∈ both.map Char.toNat := by
    show c.toNat ∈ [48, 49, 50, 51, 52, 53, 54, 55, 56, 57, 65, 66, 67, 68, 69, 70, 97, 98, 99, 100,
      101, 102]
    simp only [List.mem_cons, List.not_mem_nil, or_false]
    omega
  obtain ⟨d, hd, he⟩ := List.mem_map.1 hs
  have : d = c := by rw [hc, ← he, Char.ofNat_toNat]
  exact this ▸ hd

theorem digitValue_iff {c : Char} {n : Nat} :
    Guid.digitValue c = some n ↔ n < 16 ∧ upper c = digits.getD n '0' := by
  constructor
  · intro h
    have hm := digit_mem h
    have all : ∀ c ∈ both, ∀ n, Guid.digitValue c = some n → n < 16 ∧ upper c = digits.getD n '0' := by
      have : ∀ c ∈ both, ((Guid.digitValue c).any fun n => decide (n < 16 ∧ upper c = digits.getD n '0')) =
          true := by decide +kernel
      intro c hc n hn
      have := this c hc
      rw [hn] at this
      exact of_decide_eq_true this
    exact all c hm n h
  · rintro ⟨hn, hu⟩
    have hm : c ∈ both := by
      unfold upper at hu
      by_cases h1 : c = 'a'; · subst h1; decide
      by_cases h2 : c = 'b'; · subst h2; decide
      by_cases h3 : c = 'c'; · subst h3; decide
      by_cases h4 : c = 'd'; · subst h4; decide
      by_cases h5 : c = 'e'; · subst h5; decide
      by_cases h6 : c = 'f'; · subst h6; decide
      rw [if_neg h1, if_neg h2, if_neg h3, if_neg h4, if_neg h5, if_neg h6] at hu
      have : ∀ n, n < 16 → digits.getD n '0' ∈ both := by decide +kernel
      rw [hu]
      exact this n hn
    have all : ∀ c ∈ both, ∀ n, n < 16 → upper c = digits.getD n '0' → Guid.digitValue c = some n := by
      decide +kernel
    exact all c hm n hn hu

private theorem hex_two (v : Nat) : hex 2 v = [digits.getD (v / 16 % 16) '0', digits.getD (v % 16) '0'] :=
  rfl

private theorem digits_inj {m n : Nat} (hm : m < 16) (hn : n < 16)
    (h : digits.getD m '0' = digits.getD n '0') : m = n := by
  have : ∀ m, m < 16 → ∀ n, n < 16 → digits.getD m '0' = digits.getD n '0' → m = n := by decide +kernel
  exact this m hm n hn h

theorem hexBytes_iff {t : Text} {bs : Bytes} :
    Guid.hexBytes t = some bs ↔ t.map upper = bs.flatMap fun b => hex 2 b.toNat := by
  induction t using Guid.hexBytes.induct generalizing bs with
  | case1 =>
    cases bs with
    | nil => simp [Guid.hexBytes]
    | cons b bs => simp [Guid.hexBytes, hex_two]
  | case2 c =>
    cases bs with
    | nil => simp [Guid.hexBytes]
    | cons b bs => simp [Guid.hexBytes, hex_two]
  | case3 a b rest x y ds hr hb ha ih =>
    unfold Guid.hexBytes
    rw [ha, hb, hr]
    obtain ⟨x1, x2⟩ := digitValue_iff.1 ha
    obtain ⟨y1, y2⟩ := digitValue_iff.1 hb
    simp only [Option.some.injEq, List.map_cons]
    constructor
    · rintro rfl
      rw [List.flatMap_cons, hex_two, x2, y2, ih.1 hr]
      have hv : (UInt8.ofNat (x * 16 + y)).toNat = x * 16 + y := by
        rw [UInt8.toNat_ofNat']
        omega
      rw [hv, show (x * 16 + y) / 16 % 16 = x by omega, show (x * 16 + y) % 16 = y by omega]
      rfl
    · intro h
      cases bs with
      | nil => cases h
      | cons c bs =>
        rw [List.flatMap_cons, hex_two] at h
        injection h with h1 h
        injection h with h2 h
        have hc := c.toNat_lt
        have e1 := digits_inj x1 (by omega) (x2 ▸ h1)
        have e2 := digits_inj y1 (by omega) (y2 ▸ h2)
        have e3 := ih.2 h
        rw [hr] at e3
        cases e3
        congr 1
        rw [e1, e2]
        apply UInt8.toNat_inj.1
        rw [UInt8.toNat_ofNat']
        omega
  | case4 a b rest hno ih =>
    constructor
    · intro h
      unfold Guid.hexBytes at h
      split at h
      · rename_i h1 h2 h3
        exact absurd h3 (hno _ _ _ h1 h2)
      · cases h
    · intro h
      exfalso
      cases bs with
      | nil => cases h
      | cons c bs =>
        rw [List.flatMap_cons, hex_two] at h
        injection h with h1 h
        injection h with h2 h
        have hc := c.toNat_lt
        exact hno _ _ _ (digitValue_iff.2 ⟨by omega, h1⟩) (digitValue_iff.2 ⟨by omega, h2⟩) (ih.2 h)

theorem parseSimple_iff {t : Text} {g : Guid} : Guid.parseSimple t = some g ↔ t.map upper = plain g := by
  unfold Guid.parseSimple plain
  rw [← hexBytes_iff, Option.bind_eq_some_iff]
  constructor
  · rintro ⟨bs, h, hb⟩
    unfold Guid.ofBytes at hb
    split at hb
    · cases hb
      exact h
    · cases hb
  · intro h
    exact ⟨_, h, rfl⟩

theorem plain_length {t : Text} {g : Guid} (h : t.map upper = plain g) : t.length = 32 := by
  have := congrArg List.length h
  rw [List.length_map] at this
  exact this

theorem hyphenated_grouped {t : Text} (h : t.length = 32) :
    Guid.parseHyphenated (grouped t) = Guid.parseSimple t := by
  match t, h with
  | [a0, a1, a2, a3, a4, a5, a6, a7, a8, a9, b0, b1, b2, b3, b4, b5, b6, b7, b8, b9, c0, c1, c2, c3, c4,
      c5, c6, c7, c8, c9, d0, d1], _ =>
    exact if_pos ⟨rfl, rfl, rfl, rfl, rfl⟩

private theorem split_groups {s : Text}
    (h : s.length = 36 ∧ s[8]? = some '-' ∧ s[13]? = some '-' ∧ s[18]? = some '-' ∧ s[23]? = some '-') :
    s = grouped (s.take 8 ++ (s.drop 9).take 4 ++ (s.drop 14).take 4 ++ (s.drop 19).take 4 ++ s.drop 24) := by
  obtain ⟨hl, h⟩ := h
  revert h
  match s, hl with
  | a0 :: a1 :: a2 :: a3 :: a4 :: a5 :: a6 :: a7 :: a8 :: a9 :: b0 :: b1 :: b2 :: b3 :: b4 ::
      b5 :: b6 :: b7 :: b8 :: b9 :: c0 :: c1 :: c2 :: c3 :: c4 :: c5 :: c6 :: c7 :: c8 :: c9 ::
      d0 :: d1 :: d2 :: d3 :: d4 :: d5 :: [], _ =>
    rintro ⟨h1, h2, h3, h4⟩
    have k1 := Option.some.inj h1
    have k2 := Option.some.inj h2
    have k3 := Option.some.inj h3
    have k4 := Option.some.inj h4
    subst k1 k2 k3 k4
    rfl

theorem grouped_of {s : Text} {g : Guid} (h : Guid.parseHyphenated s = some g) :
    ∃ t, s = grouped t ∧ t.map upper = plain g := by
  unfold Guid.parseHyphenated at h
  split at h
  · rename_i hs
    refine ⟨_, ?_, parseSimple_iff.1 h⟩
    exact split_groups hs
  · cases h

theorem grouped_length {t : Text} (h : t.length = 32) : (grouped t).length = 36 := by
  simp [grouped, h]

private theorem ok_iff {r : Option Guid} {g : Guid} : orErr .invalidUuid r = .ok g ↔ r = some g := by
  cases r <;> simp [orErr]

theorem fromStr_iff {s : Text} {g : Guid} : Guid.fromStr s = .ok g ↔ Denotes g s := by
  unfold Guid.fromStr
  rw [ok_iff]
  unfold Guid.tryParse
  constructor
  · intro h
    split at h
    · exact .simple (parseSimple_iff.1 h)
    split at h
    · obtain ⟨t, rfl, ht⟩ := grouped_of h
      exact .groups ht
    split at h
    · rename_i hs
      obtain ⟨hl, h1, h2⟩ := hs
      obtain ⟨t, hst, ht⟩ := grouped_of h
      have : s = ['{'] ++ grouped t ++ ['}'] := by
        rw [← hst]
        obtain ⟨m, rfl⟩ := List.getLast?_eq_some_iff.1 h2
        cases m with
        | nil => simp at hl
        | cons c m =>
          simp only [List.cons_append, List.head?_cons, Option.some.injEq] at h1
          subst h1
          simp
      rw [this]
      exact .braced ht
    split at h
    · rename_i hs
      obtain ⟨hl, h1⟩ := hs
      obtain ⟨t, hst, ht⟩ := grouped_of h
      have : s = ['u', 'r', 'n', ':', 'u', 'u', 'i', 'd', ':'] ++ grouped t := by
        rw [← hst, ← h1, List.take_append_drop]
      rw [this]
      exact .urn ht
    · cases h
  · intro h
    cases h with
    | simple h => rw [if_pos (plain_length h), parseSimple_iff.2 h]
    | @groups t h =>
      have hl := plain_length h
      have hg := grouped_length hl
      rw [if_neg (by omega), if_pos hg, hyphenated_grouped hl, parseSimple_iff.2 h]
    | @braced t h =>
      have hl := plain_length h
      have hg := grouped_length hl
      have hlen : (['{'] ++ grouped t ++ ['}']).length = 38 := by simp [hg]
      rw [if_neg (by omega), if_neg (by omega), if_pos ⟨hlen, rfl, List.getLast?_concat⟩]
      have : ((['{'] ++ grouped t ++ ['}']).drop 1).dropLast = grouped t := by simp
      rw [this, hyphenated_grouped hl, parseSimple_iff.2 h]
    | @urn t h =>
      have hl := plain_length h
      have hg := grouped_length hl
      have hlen : (['u', 'r', 'n', ':', 'u', 'u', 'i', 'd', ':'] ++ grouped t).length = 45 := by simp [hg]
      rw [if_neg (by omega), if_neg (by omega), if_neg (by omega), if_pos ⟨hlen, by simp⟩]
      rw [show ((['u', 'r', 'n', ':', 'u', 'u', 'i', 'd', ':'] ++ grouped t).drop 9) = grouped t from rfl,
        hyphenated_grouped hl, parseSimple_iff.2 h]

theorem hexByte_eq (b : UInt8) : Guid.hexByte b = hex 2 b.toNat := by
  have : ∀ n, n < 256 → Guid.hexByte (UInt8.ofNat n) = hex 2 n := by decide +kernel
  have := this b.toNat b.toNat_lt
  rwa [UInt8.ofNat_toNat] at this

theorem upper_hex (b : UInt8) : (hex 2 b.toNat).map upper = hex 2 b.toNat := by
  have : ∀ n, n < 256 → (hex 2 n).map upper = hex 2 n := by decide +kernel
  exact this b.toNat b.toNat_lt

theorem plain_upper (g : Guid) : (plain g).map upper = plain g := by
  unfold plain
  rw [List.map_flatMap]
  congr 1
  funext b
  exact upper_hex b

theorem display_eq (g : Guid) : g.display = ['{'] ++ grouped (plain g) ++ ['}'] := by
  unfold Guid.display
  rw [show Guid.hexByte = fun b => hex 2 b.toNat from funext hexByte_eq]
  rfl

end OneNote
