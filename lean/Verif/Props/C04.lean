/-
C04: Stream object headers decode to the encoded header.
-/
import Verif.Lemmas.Header

namespace OneNote

open Spec

/-- 16-bit start headers: every type that fits in 6 bits, every 7-bit length. Both the explicit
16-bit reader and the kind-detecting reader return what was encoded. -/
theorem C04_header16_roundtrip (c : Bool) (ty : ObjectType) (len : Nat) (rest : Bytes)
    (ht : typeCode ty < 2 ^ 6) (hl : len < 2 ^ 7) :
    ObjectHeader.parse16 (header16 c (typeCode ty) len ++ rest) = .ok (⟨c, ty, len⟩, rest) ∧
    ObjectHeader.parse (header16 c (typeCode ty) len ++ rest) = .ok (⟨c, ty, len⟩, rest) :=
  ⟨ObjectHeader.parse16_enc c ty len ht hl rest, ObjectHeader.parse_enc16 c ty len ht hl rest⟩

/-- 32-bit start headers: every type, every 64-bit length, in the short form or with the length in
the compact integer that follows. -/
theorem C04_header32_roundtrip (c : Bool) (ty : ObjectType) (len : Nat) (bs rest : Bytes)
    (h : Header32 c (typeCode ty) len bs) :
    ObjectHeader.parse32 (bs ++ rest) = .ok (⟨c, ty, len⟩, rest) ∧
    ObjectHeader.parse (bs ++ rest) = .ok (⟨c, ty, len⟩, rest) :=
  ⟨ObjectHeader.parse32_enc c ty len bs h rest, ObjectHeader.parse_enc32 c ty len bs h rest⟩

/-- 8-bit and 16-bit end headers. -/
theorem C04_end_roundtrip (ty : ObjectType) (rest : Bytes) :
    (typeCode ty < 2 ^ 6 → ObjectHeader.parseEnd8 (end8 (typeCode ty) ++ rest) = .ok (ty, rest)) ∧
    ObjectHeader.parseEnd16 (end16 (typeCode ty) ++ rest) = .ok (ty, rest) :=
  ⟨fun ht => ObjectHeader.parseEnd8_enc ty ht rest, ObjectHeader.parseEnd16_enc ty rest⟩

/-- The peek that drives the loops of the container parser recognises exactly the 8-bit end header
of the asked type. -/
theorem C04_hasEnd8 (ty : ObjectType) (b : UInt8) (rest : Bytes) :
    ObjectHeader.hasEnd8 ty (b :: rest) = .ok (decide (b.toNat = 1 + 4 * typeCode ty), b :: rest) := by
  unfold ObjectHeader.hasEnd8
  rw [P.bind_ok (peekU8_cons _ _), P.pure_apply]
  congr 2
  simp only [and_3, shr_eq, code_eq, Nat.reducePow]
  rw [← Bool.decide_and]
  congr 1
  apply propext
  have := b.toNat_lt
  omega

/-- Nothing else is accepted: whatever a header reader accepts is an encoding of the header it
returns. In particular headers of the wrong kind and headers with an unknown type are rejected. -/
theorem C04_headers_only_encodings (s rest : Bytes) :
    (∀ h, ObjectHeader.parse16 s = .ok (h, rest) →
      typeCode h.objectType < 2 ^ 6 ∧ h.length < 2 ^ 7 ∧
        s = header16 h.compound (typeCode h.objectType) h.length ++ rest) ∧
    (∀ h, ObjectHeader.parse32 s = .ok (h, rest) →
      ∃ bs, Header32 h.compound (typeCode h.objectType) h.length bs ∧ s = bs ++ rest) ∧
    (∀ ty, ObjectHeader.parseEnd8 s = .ok (ty, rest) →
      typeCode ty < 2 ^ 6 ∧ s = end8 (typeCode ty) ++ rest) ∧
    (∀ ty, ObjectHeader.parseEnd16 s = .ok (ty, rest) → s = end16 (typeCode ty) ++ rest) :=
  ⟨fun _ h => ObjectHeader.parse16_inv h, fun _ h => ObjectHeader.parse32_inv h,
    fun _ h => ObjectHeader.parseEnd8_inv h, fun _ h => ObjectHeader.parseEnd16_inv h⟩

/-- Wrong kind (low two bits) or unknown type: malformed FSSHTTPB data, whatever follows. -/
theorem C04_header_rejects (w : Nat) (rest : Bytes) :
    (w < 2 ^ 16 → (w % 4 ≠ 0 ∨ ∀ ty, typeCode ty ≠ w / 8 % 2 ^ 6) →
      ObjectHeader.parse16 (leBytes 2 w ++ rest) = .error .malformedFssHttpB) ∧
    (w < 2 ^ 32 → (w % 4 ≠ 2 ∨ ∀ ty, typeCode ty ≠ w / 8 % 2 ^ 14) →
      ObjectHeader.parse32 (leBytes 4 w ++ rest) = .error .malformedFssHttpB) ∧
    (w < 2 ^ 8 → (w % 4 ≠ 1 ∨ ∀ ty, typeCode ty ≠ w / 4) →
      ObjectHeader.parseEnd8 (leBytes 1 w ++ rest) = .error .malformedFssHttpB) ∧
    (w < 2 ^ 16 → (w % 4 ≠ 3 ∨ ∀ ty, typeCode ty ≠ w / 4) →
      ObjectHeader.parseEnd16 (leBytes 2 w ++ rest) = .error .malformedFssHttpB) := by
  have none_of : ∀ n, (∀ ty, typeCode ty ≠ n) → ObjectType.ofCode n = none := by
    intro n h
    cases ho : ObjectType.ofCode n with
    | none => rfl
    | some t => exact absurd (by rw [← code_eq, ofCode_eq_some ho]) (h t)
  refine ⟨?_, ?_, ?_, ?_⟩
  · intro hw h
    rw [ObjectHeader.parse16_eq, P.bind_ok (getLE_leBytes_lt (by omega) _)]
    split
    · rfl
    · have := none_of _ (h.resolve_left (by assumption))
      simp only [Nat.reducePow] at this ⊢
      rw [this]; rfl
  · intro hw h
    rw [ObjectHeader.parse32_eq, P.bind_ok (getLE_leBytes_lt (by omega) _)]
    split
    · rfl
    · have := none_of _ (h.resolve_left (by assumption))
      simp only [Nat.reducePow] at this ⊢
      rw [this]; rfl
  · intro hw h
    unfold ObjectHeader.parseEnd8 getU8
    rw [P.bind_ok (getLE_leBytes_lt (by omega) _)]
    simp only [and_3, shr_eq, Nat.reducePow]
    split
    · rfl
    · rw [none_of _ (h.resolve_left (by assumption))]; rfl
  · intro hw h
    unfold ObjectHeader.parseEnd16 getU16
    rw [P.bind_ok (getLE_leBytes_lt (by omega) _)]
    simp only [and_3, shr_eq, Nat.reducePow]
    split
    · rfl
    · rw [none_of _ (h.resolve_left (by assumption))]; rfl

/-- The readers that expect a given type accept exactly the headers of that type: a header of
another type, though well formed, is an error. -/
theorem C04_expected_type (ty : ObjectType) (s rest : Bytes) :
    (ObjectHeader.tryParse16 ty s = .ok ((), rest) ↔
      ∃ c len, typeCode ty < 2 ^ 6 ∧ len < 2 ^ 7 ∧ s = header16 c (typeCode ty) len ++ rest) ∧
    (ObjectHeader.tryParse32 ty s = .ok ((), rest) ↔
      ∃ c len bs, Header32 c (typeCode ty) len bs ∧ s = bs ++ rest) ∧
    (ObjectHeader.tryParse ty s = .ok ((), rest) ↔
      (∃ c len, typeCode ty < 2 ^ 6 ∧ len < 2 ^ 7 ∧ s = header16 c (typeCode ty) len ++ rest) ∨
      ∃ c len bs, Header32 c (typeCode ty) len bs ∧ s = bs ++ rest) ∧
    (ObjectHeader.tryParseEnd8 ty s = .ok ((), rest) ↔
      typeCode ty < 2 ^ 6 ∧ s = end8 (typeCode ty) ++ rest) ∧
    (ObjectHeader.tryParseEnd16 ty s = .ok ((), rest) ↔ s = end16 (typeCode ty) ++ rest) := by
  have start : ∀ p : P ObjectHeader, ObjectHeader.tryParseStart ty p s = .ok ((), rest) ↔
      ∃ c len, p s = .ok (⟨c, ty, len⟩, rest) := by
    intro p
    constructor
    · intro h
      obtain ⟨⟨c, t, len⟩, r, h1, h2⟩ := P.bind_eq_ok.1 h
      simp only at h2
      split at h2
      · next e => cases e; cases h2; exact ⟨c, len, h1⟩
      · cases h2
    · rintro ⟨c, len, h⟩
      unfold ObjectHeader.tryParseStart
      rw [P.bind_ok h, if_pos rfl]
      rfl
  have stop : ∀ p : P ObjectType, ObjectHeader.tryParseEnd ty p s = .ok ((), rest) ↔
      p s = .ok (ty, rest) := by
    intro p
    constructor
    · intro h
      obtain ⟨t, r, h1, h2⟩ := P.bind_eq_ok.1 h
      split at h2
      · next e => cases e; cases h2; exact h1
      · cases h2
    · intro h
      unfold ObjectHeader.tryParseEnd
      rw [P.bind_ok h, if_pos rfl]
      rfl
  refine ⟨(start _).trans ⟨?_, ?_⟩, (start _).trans ⟨?_, ?_⟩, (start _).trans ⟨?_, ?_⟩,
    (stop _).trans ⟨ObjectHeader.parseEnd8_inv, ?_⟩,
    (stop _).trans ⟨ObjectHeader.parseEnd16_inv, ?_⟩⟩
  · rintro ⟨c, len, h⟩
    exact ⟨c, len, ObjectHeader.parse16_inv h⟩
  · rintro ⟨c, len, ht, hl, rfl⟩
    exact ⟨c, len, ObjectHeader.parse16_enc c ty len ht hl rest⟩
  · rintro ⟨c, len, h⟩
    exact ⟨c, len, ObjectHeader.parse32_inv h⟩
  · rintro ⟨c, len, bs, h, rfl⟩
    exact ⟨c, len, ObjectHeader.parse32_enc c ty len bs h rest⟩
  · rintro ⟨c, len, h⟩
    rcases ObjectHeader.parse_inv h with h | h
    · exact .inl ⟨c, len, ObjectHeader.parse16_inv h⟩
    · exact .inr ⟨c, len, ObjectHeader.parse32_inv h⟩
  · rintro (⟨c, len, ht, hl, rfl⟩ | ⟨c, len, bs, h, rfl⟩)
    · exact ⟨c, len, ObjectHeader.parse_enc16 c ty len ht hl rest⟩
    · exact ⟨c, len, ObjectHeader.parse_enc32 c ty len bs h rest⟩
  · rintro ⟨ht, rfl⟩
    exact ObjectHeader.parseEnd8_enc ty ht rest
  · rintro rfl
    exact ObjectHeader.parseEnd16_enc ty rest

/-- Where the end of a data element is expected, the end of a data element is accepted and the end
of a data element package is not. -/
example : ObjectHeader.tryParseEnd8 .dataElement (end8 0x01 ++ [7]) = .ok ((), [7]) ∧
    ∀ rest, ObjectHeader.tryParseEnd8 .dataElement (end8 0x15) ≠ .ok ((), rest) :=
  ⟨(C04_expected_type .dataElement _ [7]).2.2.2.1.2 ⟨by decide, rfl⟩, fun rest h => by
    have := ((C04_expected_type .dataElement _ rest).2.2.2.1.1 h).2
    simp [end8, typeCode, leBytes] at this⟩

/-- A compound object group declaration of length 5, as 16-bit header. -/
example : ObjectHeader.parse (header16 true 0x1D 5 ++ [9]) =
    .ok (⟨true, .objectGroupDeclaration, 5⟩, [9]) :=
  (C04_header16_roundtrip true .objectGroupDeclaration 5 [9] (by decide) (by decide)).2

/-- A 32-bit header with its length (100000) in the trailing compact integer. -/
example : ObjectHeader.parse ((leBytes 4 (2 + 4 * 0 + 8 * 0x16 + 2 ^ 17 * 0x7fff) ++
    compact 100000) ++ [9]) = .ok (⟨false, .objectGroupDataObject, 100000⟩, [9]) :=
  (C04_header32_roundtrip false .objectGroupDataObject 100000 _ [9]
    (Header32.long 100000 _ (compact_writer (by decide)))).2

/-- Type 0x3F is unknown. -/
example : ObjectHeader.parse16 (leBytes 2 (8 * 0x3F) ++ []) = .error .malformedFssHttpB :=
  (C04_header_rejects (8 * 0x3F) []).1 (by decide) (.inr (by intro ty; cases ty <;> decide))

#print axioms C04_header16_roundtrip
#print axioms C04_header32_roundtrip
#print axioms C04_end_roundtrip
#print axioms C04_hasEnd8
#print axioms C04_headers_only_encodings
#print axioms C04_header_rejects
#print axioms C04_expected_type

end OneNote
