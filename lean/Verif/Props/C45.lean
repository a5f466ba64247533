/-
C45: Only well-formed containers are accepted. FALSE of the code in two details; the exact set of
accepted files is proved.
-/
import Verif.Lemmas.Accept
import Verif.Lemmas.Reject
import Verif.Lemmas.Write
import Verif.Props.C13
import Verif.Spec.SampleFile

namespace OneNote

open Spec

theorem seek_past {log : Nat × Nat} {skipped r : Bytes} (h : log.1 + log.2 < 2 ^ 64)
    (hk : 172 + skipped.length = log.1 + log.2) :
    seekFrom 172 log (skipped ++ r) = .ok ((), r) := by
  have he : Packaging.fcrEnd log = .ok (log.1 + log.2) := if_pos h
  have ha : advance (log.1 + log.2 - 172) (skipped ++ r) =
      .ok ((), (skipped ++ r).drop (log.1 + log.2 - 172)) :=
    if_neg (by rw [List.length_append]; omega)
  unfold seekFrom
  rw [he]
  simp only [P.ofRes, P.pure_bind]
  rw [if_neg (by omega), ha, show log.1 + log.2 - 172 = skipped.length by omega, List.drop_left]

/-- **Exactly the files of `LaxFile` are accepted**, and the result is what is written in them.
`LaxFile` is the format with two deviations. What follows the container is left unread. -/
theorem C45_accepted_exactly (s rest : Bytes) (p : Packaging) :
    Packaging.parse s = .ok (p, rest) ↔
      ∃ a b c d si schema es bs, LaxFile a b c d si schema es bs ∧ s = bs ++ rest ∧
        p = ⟨a, b, c, d, si, schema, laxPackageOf es⟩ := by
  refine ⟨file_accepts, ?_⟩
  rintro ⟨a, b, c, d, si, schema, es, bs, h, rfl, rfl⟩
  rw [parse_eq_const]
  unfold parseConst
  cases h with
  | packageStore _ hd h =>
    cases h with
    | mk bs h =>
      simp only [List.append_assoc]
      rw [P.bind_ok (Guid.parse_guid _ _), P.bind_ok (Guid.parse_guid _ _),
        P.bind_ok (Guid.parse_guid _ _), P.bind_ok (Guid.parse_guid _ _),
        if_pos (show d = Packaging.packageStoreFormat from hd)]
      exact (legacy_iff _ _ _ _ _ _ _).2 ⟨si, schema, es, bs, h, rfl, rfl⟩
  | legacy _ hd hc h =>
    cases h with
    | mk bs h =>
      subst hd
      simp only [List.append_assoc]
      rw [P.bind_ok (Guid.parse_guid _ _), P.bind_ok (Guid.parse_guid _ _),
        P.bind_ok (Guid.parse_guid _ _), P.bind_ok (Guid.parse_guid _ _), if_neg (by decide),
        if_neg (by decide), if_pos (by simpa [Guid.isNil] using hc)]
      exact (legacy_iff _ _ _ _ _ _ _).2 ⟨si, schema, es, bs, h, rfl, rfl⟩
  | embedded fileType file f skipped bs h1 h2 h3 h4 hs hl hp hk h =>
    unfold revisionStoreHead
    simp only [List.append_assoc]
    rw [P.bind_ok (Guid.parse_guid _ _), P.bind_ok (Guid.parse_guid _ _),
      P.bind_ok (Guid.parse_guid _ _), P.bind_ok (Guid.parse_guid _ _), if_neg (by decide),
      if_neg (by decide), if_neg (by decide), P.bind_ok (storeHeader_reads f h1 h2 h3 h4 hs hl _),
      P.bind_ok (seek_past hp hk)]
    exact (embeddedContainer_iff _ _ _).2 ⟨a, b, c, d, si, schema, es, bs, h, rfl, rfl⟩

/-- The same for the package alone. -/
theorem C45_package_exactly (s rest : Bytes) (pkg : Package) :
    Package.parse s = .ok (pkg, rest) ↔
      ∃ es bs, LaxPackage es bs ∧ s = bs ++ rest ∧ pkg = laxPackageOf es :=
  package_iff s rest pkg

/-- A legal package is either free of fragments or rejected. -/
theorem legal_package {s : Bytes} (h : LegalPackage s) :
    (∃ es, PackageEnc es s) ∨ ∃ e, Package.parse s = .error e := by
  cases h with
  | mk h bs hh he =>
    have key : ∀ {bs}, LegalElements bs → (∃ es, ListEnc ElementEnc es bs) ∨
        ∃ es b0 id f fb t, ListEnc ElementEnc es b0 ∧ FragmentElementEnc id f fb ∧
          bs = b0 ++ (fb ++ t) := by
      intro bs he
      induction he with
      | nil => exact .inl ⟨[], .nil⟩
      | cons b bs hb _ ih =>
        cases hb with
        | fragment id f _ hf => exact .inr ⟨[], [], id, f, b, bs, .nil, hf, rfl⟩
        | ordinary e _ he =>
          rcases ih with ⟨es, h⟩ | ⟨es, b0, id, f, fb, t, h, hf, rfl⟩
          · exact .inl ⟨e :: es, .cons he h⟩
          · exact .inr ⟨e :: es, b ++ b0, id, f, fb, t, .cons he h, hf,
              (List.append_assoc _ _ _).symm⟩
    rcases key he with ⟨es, HE⟩ | ⟨es, b0, id, f, fb, t, HE, hf, rfl⟩
    · exact .inl ⟨es, .mk es h bs hh HE⟩
    · right
      obtain ⟨x, u, hx⟩ : ∃ x u, t ++ end8 (typeCode .dataElementPackage) = x :: u := by
        cases ht : t ++ end8 (typeCode .dataElementPackage) with
        | nil => simp [end8, leBytes] at ht
        | cons x u => exact ⟨x, u, rfl⟩
      refine ⟨.malformedFssHttpB, ?_⟩
      have := package_fragment_fails (es := es) (h := h) (x := x) (t := u) hh HE hf
      rw [← hx] at this
      simpa only [List.append_assoc] using this

/-- A fragment without the end header of its data element. -/
theorem openFragment : OpenFragment ⟨ExGuid.nil, 2, 0, 2, [1, 2]⟩
    (hdr32 .dataElementFragment ++ ([0] ++ (compact 2 ++ (compact 0 ++ (compact 2 ++ [1, 2]))))) :=
  .mk _ _ _ _ _ _ _ _ _ _ (.s32 _ (hdr32_start _)) .null (compact_writer (by decide))
    (compact_writer (by decide)) (compact_writer (by decide)) rfl

/-- **Refuted**: a package whose only data element is a fragment without end header is accepted,
although it is not a legal package. -/
theorem C45_open_fragment_refuted :
    ∃ s pkg, Package.parse s = .ok (pkg, []) ∧ ¬ LegalPackage s := by
  have hp : LaxPackage [⟨ExGuid.nil, .fragment ⟨ExGuid.nil, 2, 0, 2, [1, 2]⟩⟩] _ :=
    .mk _ _ _ (hdr16_start _) (.cons
      (.mk ExGuid.nil (.fragment _) ⟨Guid.nil, 0⟩ _ _ _ _ _ (hdr16_start _) .null .null
        (compact_writer (by decide)) (.fragment _ _ openFragment)) .nil)
  have hr := (package_iff _ [] _).2 ⟨_, _, hp, (List.append_nil _).symm, rfl⟩
  refine ⟨_, _, hr, fun hl => ?_⟩
  rcases legal_package hl with ⟨es, he⟩ | ⟨e, he⟩
  · have := reads_package es _ he []
    rw [List.append_nil, hr] at this
    have hf := congrArg Package.fragments (Prod.mk.inj (Except.ok.inj this)).1
    have : (packageOf es).fragments = [] := rfl
    rw [this] at hf
    revert hf
    decide
  · rw [hr] at he
    cases he

/-- **Refuted**: a serial number is accepted with a type byte that the format does not have. -/
theorem C45_serial_refuted (t : UInt8) (h0 : t ≠ 0) (h1 : t ≠ 0x80) (g : Guid) (n : Nat)
    (hn : n < 2 ^ 64) (rest : Bytes) :
    SerialNumber.parse (t :: (guid g ++ leBytes 8 n) ++ rest) = .ok (⟨g, n⟩, rest) ∧
    ¬ ∃ s, SerialEnc s (t :: (guid g ++ leBytes 8 n)) := by
  refine ⟨reads_laxSerial _ _ (.value t g n h0 hn) rest, ?_⟩
  rintro ⟨s, h⟩
  generalize hb : t :: (guid g ++ leBytes 8 n) = bs at h
  cases h with
  | null => exact h0 (List.cons.inj hb).1
  | value => exact h1 (List.cons.inj hb).1

/-- What does hold: a legal package without fragments is accepted and read as written. -/
theorem C45_legal_partial (es : List Element) (bs rest : Bytes) (h : PackageEnc es bs) :
    Package.parse (bs ++ rest) = .ok (packageOf es, rest) :=
  reads_package es bs h rest

/-- Any list of data elements that fits its fields is the content of a legal package. -/
example : PackagingTailEnc ExGuid.nil Guid.nil [⟨ExGuid.nil, .blob [1, 2, 3]⟩]
    (tailW ExGuid.nil Guid.nil [⟨ExGuid.nil, .blob [1, 2, 3]⟩]) :=
  tailW_enc (by decide) (by decide)

/-- The sample file is accepted, so it is one of the files of `LaxFile`. -/
example : ∃ a b c d si schema es, LaxFile a b c d si schema es sampleFile := by
  obtain ⟨a, b, c, d, si, schema, es, bs, h, hs, -⟩ :=
    (C45_accepted_exactly _ _ _).1 (sampleFile_parse [])
  rw [List.append_nil, List.append_nil] at hs
  exact ⟨a, b, c, d, si, schema, es, hs ▸ h⟩

#print axioms C45_accepted_exactly
#print axioms C45_package_exactly
#print axioms C45_open_fragment_refuted
#print axioms C45_serial_refuted
#print axioms C45_legal_partial

end OneNote
