/-
C02: Extended GUIDs decode to the encoded identifier in each of the five forms;
any other first byte is malformed data.
-/
import Verif.Lemmas.Data

namespace OneNote

open Spec

/-- Every legal encoding of an extended GUID decodes to it; exactly the encoding is consumed. -/
theorem C02_exguid_roundtrip (e : ExGuid) (bs rest : Bytes) (h : ExGuidEnc e bs) :
    ExGuid.parse (bs ++ rest) = .ok (e, rest) :=
  exGuid_enc h rest

/-- Every extended GUID (32-bit value) has an encoding. -/
theorem C02_exguid_every_value (e : ExGuid) (hv : e.value < 2 ^ 32) : ExGuidEnc e (exGuid e) :=
  exGuid_writer hv

/-- Conversely everything accepted is a legal encoding of the result. -/
theorem C02_exguid_only_encodings (s rest : Bytes) (e : ExGuid)
    (h : ExGuid.parse s = .ok (e, rest)) : ∃ bs, ExGuidEnc e bs ∧ s = bs ++ rest :=
  exGuid_inv h

/-- The first byte announces one of the five forms. -/
def legalExGuidFirstByte (b : UInt8) : Prop :=
  b.toNat = 0 ∨ b.toNat % 8 = 4 ∨ b.toNat % 64 = 32 ∨ b.toNat % 128 = 64 ∨ b.toNat = 128

/-- Every other first byte is rejected as malformed data, whatever follows. -/
theorem C02_exguid_rejects (b : UInt8) (rest : Bytes) (h : ¬ legalExGuidFirstByte b) :
    ExGuid.parse (b :: rest) = .error .malformedData := by
  unfold legalExGuidFirstByte at h
  simp only [not_or] at h
  obtain ⟨h0, h1, h2, h3, h4⟩ := h
  rw [ExGuid.parse_eq]
  have : getLE 1 (b :: rest) = .ok (b.toNat, rest) := by simp [getLE, leNat]
  rw [P.bind_ok this, if_neg h0, if_neg h1, if_neg h2, if_neg h3, if_neg h4]
  rfl

/-- ... and a legal first byte is only ever rejected because the file ends. -/
theorem C02_exguid_legal_first_byte (b : UInt8) (rest : Bytes) (h : legalExGuidFirstByte b) :
    (∃ e r, ExGuid.parse (b :: rest) = .ok (e, r)) ∨ ExGuid.parse (b :: rest) = .error .eof := by
  have gp : ∀ {α : Type} (f : Guid → α) (s : Bytes),
      (∃ e r, (Guid.parse >>= fun g => (pure (f g) : P α)) s = .ok (e, r)) ∨
        (Guid.parse >>= fun g => (pure (f g) : P α)) s = .error .eof := by
    intro α f s
    by_cases hl : s.length < 16
    · exact .inr (P.bind_err (Guid.parse_short hl))
    · obtain ⟨g, r, hg⟩ := Guid.parse_total (s := s) (by omega)
      exact .inl ⟨f g, r, by rw [P.bind_ok hg]; rfl⟩
  have gl : ∀ (n : Nat) (f : Nat → Guid → ExGuid) (s : Bytes),
      (∃ e r, (getLE n >>= fun x => Guid.parse >>= fun g => (pure (f x g) : P ExGuid)) s
          = .ok (e, r)) ∨
        (getLE n >>= fun x => Guid.parse >>= fun g => (pure (f x g) : P ExGuid)) s
          = .error .eof := by
    intro n f s
    by_cases hl : s.length < n
    · exact .inr (P.bind_err (by simp [getLE, hl]))
    · have hg : getLE n s = .ok (leNat (s.take n), s.drop n) := by simp [getLE, hl]
      rw [P.bind_ok hg]
      exact gp _ _
  have hg : getLE 1 (b :: rest) = .ok (b.toNat, rest) := by simp [getLE, leNat]
  rw [ExGuid.parse_eq, P.bind_ok hg]
  unfold legalExGuidFirstByte at h
  split
  · exact .inl ⟨_, _, rfl⟩
  split
  · exact gp _ _
  split
  · exact gl 1 _ _
  split
  · exact gl 2 _ _
  split
  · exact gl 4 _ _
  · omega

/-- A 17-bit value: 70000 does not fit in 10 bits. -/
example (g : Guid) : ExGuid.parse ((leBytes 3 (64 + 2 ^ 7 * 70000) ++ guid g) ++ [1, 2]) =
    .ok (⟨g, 70000⟩, [1, 2]) :=
  C02_exguid_roundtrip _ _ _ (ExGuidEnc.bits17 g 70000 (by decide))

example : ExGuid.parse [1, 2, 3] = .error .malformedData :=
  C02_exguid_rejects 1 [2, 3] (by unfold legalExGuidFirstByte; decide)

#print axioms C02_exguid_roundtrip
#print axioms C02_exguid_every_value
#print axioms C02_exguid_only_encodings
#print axioms C02_exguid_rejects
#print axioms C02_exguid_legal_first_byte

end OneNote
