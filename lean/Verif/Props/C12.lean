/-
C12: Only the two known container formats are accepted.
-/
import Verif.Lemmas.Sample
import Verif.Spec.Store
import Verif.Lemmas.Rejected

namespace OneNote

open Spec

/-- Any other format GUID is rejected as malformed store data, whatever follows. -/
theorem C12_unknown_format_rejected (a b c d : Guid) (rest : Bytes)
    (h1 : d ≠ packageStore) (h2 : d ≠ revisionStore) :
    Packaging.parse (guid a ++ (guid b ++ (guid c ++ (guid d ++ rest)))) =
      .error .malformedOneStore := by
  rw [parse_eq_const]
  unfold parseConst
  rw [P.bind_ok (Guid.parse_guid _ _), P.bind_ok (Guid.parse_guid _ _),
    P.bind_ok (Guid.parse_guid _ _), P.bind_ok (Guid.parse_guid _ _),
    if_neg (show ¬ d = Packaging.packageStoreFormat from h1),
    if_pos (show d ≠ Packaging.revisionStoreFormat from h2)]
  rfl

theorem version_inv {s r : Bytes} (h : Packaging.parseVersion s = .ok ((), r)) :
    ∃ v, KnownVersion v ∧ s = leBytes 4 v ++ r := by
  unfold Packaging.parseVersion getU32 at h
  rw [P.bind_eq_ok] at h
  obtain ⟨v, r', h1, h2⟩ := h
  rw [getLE_eq_ok] at h1
  obtain ⟨-, rfl⟩ := h1
  split at h2
  · cases h2
  · cases h2
    refine ⟨v, ?_, rfl⟩
    unfold KnownVersion
    omega

/-- Every accepted file starts with four GUIDs of which the fourth is one of the two formats; if it
is the revision store and the third (legacy version) is nil, the next four 32-bit numbers are known
versions. -/
theorem C12_accepted_formats (s rest : Bytes) (v : Packaging)
    (h : Packaging.parse s = .ok (v, rest)) :
    ∃ a b c d t, s = guid a ++ (guid b ++ (guid c ++ (guid d ++ t))) ∧
      (d = packageStore ∨ d = revisionStore) ∧
      (d = revisionStore → c = Guid.nil → ∃ v1 v2 v3 v4 u,
        KnownVersion v1 ∧ KnownVersion v2 ∧ KnownVersion v3 ∧ KnownVersion v4 ∧
        t = leBytes 4 v1 ++ (leBytes 4 v2 ++ (leBytes 4 v3 ++ (leBytes 4 v4 ++ u)))) := by
  rw [parse_eq_const] at h
  unfold parseConst at h
  rw [P.bind_eq_ok] at h
  obtain ⟨a, s1, h1, h⟩ := h
  rw [P.bind_eq_ok] at h
  obtain ⟨b, s2, h2, h⟩ := h
  rw [P.bind_eq_ok] at h
  obtain ⟨c, s3, h3, h⟩ := h
  rw [P.bind_eq_ok] at h
  obtain ⟨d, s4, h4, h⟩ := h
  replace h1 := Guid.parse_inv h1
  replace h2 := Guid.parse_inv h2
  replace h3 := Guid.parse_inv h3
  replace h4 := Guid.parse_inv h4
  subst h4 h3 h2 h1
  refine ⟨a, b, c, d, s4, rfl, ?_, ?_⟩
  · split at h
    · left; assumption
    · split at h
      · cases h
      · right; rename_i hd; exact Decidable.not_not.mp hd
  · intro hd hc
    subst hd hc
    rw [if_neg (by decide), if_neg (by decide), if_neg (by decide), P.bind_eq_ok] at h
    obtain ⟨log, r, h, -⟩ := h
    unfold Packaging.parseStoreHeader at h
    rw [P.bind_eq_ok] at h
    obtain ⟨_, s1, k1, h⟩ := h
    rw [P.bind_eq_ok] at h
    obtain ⟨_, s2, k2, h⟩ := h
    rw [P.bind_eq_ok] at h
    obtain ⟨_, s3, k3, h⟩ := h
    rw [P.bind_eq_ok] at h
    obtain ⟨_, s4, k4, h⟩ := h
    obtain ⟨v1, j1, rfl⟩ := version_inv k1
    obtain ⟨v2, j2, rfl⟩ := version_inv k2
    obtain ⟨v3, j3, rfl⟩ := version_inv k3
    obtain ⟨v4, j4, rfl⟩ := version_inv k4
    exact ⟨v1, v2, v3, v4, s4, j1, j2, j3, j4, rfl⟩

/-- An accepted package store. -/
example : ∃ v, Packaging.parse (sampleFile ++ []) = .ok (v, []) := ⟨_, sampleFile_parse []⟩

/-- A file with another format GUID. -/
example : Packaging.parse (guid Guid.nil ++ (guid Guid.nil ++ (guid Guid.nil ++
    (guid sampleGuid ++ [1, 2, 3])))) = .error .malformedOneStore :=
  C12_unknown_format_rejected Guid.nil Guid.nil Guid.nil sampleGuid [1, 2, 3] (by decide) (by decide)

/-! ### Sections and notebooks -/

/-- A file with another format GUID is rejected by every function of the parser. -/
theorem C12_rejected (a b c d : Guid) (rest : Bytes) (h1 : d ≠ packageStore) (h2 : d ≠ revisionStore) :
    Rejected (guid a ++ (guid b ++ (guid c ++ (guid d ++ rest)))) .malformedOneStore :=
  rejected_of (C12_unknown_format_rejected a b c d rest h1 h2)

/-- Every file that is shown as a section has one of the two formats. -/
theorem C12_section (fuel : Nat) (ord : Order) (data : Bytes) (name : Text) (s : Section)
    (h : parseSectionBuffer fuel ord data name = .ok s) :
    ∃ a b c d t, data = guid a ++ (guid b ++ (guid c ++ (guid d ++ t))) ∧
      (d = packageStore ∨ d = revisionStore) ∧
      (d = revisionStore → c = Guid.nil → ∃ v1 v2 v3 v4 u,
        KnownVersion v1 ∧ KnownVersion v2 ∧ KnownVersion v3 ∧ KnownVersion v4 ∧
        t = leBytes 4 v1 ++ (leBytes 4 v2 ++ (leBytes 4 v3 ++ (leBytes 4 v4 ++ u)))) := by
  cases hp : Packaging.parse data with
  | error e =>
    rw [(rejected_of hp).asBuffer] at h
    cases h
  | ok v => exact C12_accepted_formats data v.2 v.1 hp

#print axioms C12_rejected
#print axioms C12_section
#print axioms C12_unknown_format_rejected
#print axioms C12_accepted_formats

end OneNote
