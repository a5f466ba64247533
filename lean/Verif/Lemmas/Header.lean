/-
Helper lemmas for stream object headers.
-/
import Verif.Lemmas.Data

namespace OneNote

open Spec

theorem code_eq (ty : ObjectType) : ty.code = typeCode ty := by cases ty <;> rfl

theorem ofCode_code (ty : ObjectType) : ObjectType.ofCode ty.code = some ty := by
  cases ty <;> rfl

theorem ofCode_eq_some {n : Nat} {ty : ObjectType} (h : ObjectType.ofCode n = some ty) :
    n = ty.code := by
  unfold ObjectType.ofCode at h
  split at h <;> first | (cases h; rfl) | cases h

theorem code_lt (ty : ObjectType) : ty.code < 128 := by cases ty <;> decide

theorem code_inj {a b : ObjectType} (h : a.code = b.code) : a = b := by
  have := ofCode_code a
  rw [h, ofCode_code] at this
  exact (Option.some.inj this).symm

namespace ObjectHeader

theorem parse16_eq (s : Bytes) : parse16 s = (getLE 2 >>= fun d =>
    if d % 4 ≠ 0 then P.fail .malformedFssHttpB else
    P.ofOption .malformedFssHttpB (ObjectType.ofCode (d / 2 ^ 3 % 64)) >>= fun t =>
    pure ⟨decide (d / 4 % 2 = 1), t, d / 2 ^ 9⟩) s := by
  unfold parse16
  have e : ∀ x : Nat, (4 * (x / 4 % 2) = 4) = (x / 4 % 2 = 1) := by
    intro x; apply propext; omega
  simp only [and_3, and_4, and_3f, shr_eq, getU16, e]

theorem parse32_eq (s : Bytes) : parse32 s = (getLE 4 >>= fun d =>
    if d % 4 ≠ 2 then P.fail .malformedFssHttpB else
    P.ofOption .malformedFssHttpB (ObjectType.ofCode (d / 2 ^ 3 % 16384)) >>= fun t =>
    if d / 2 ^ 17 = 0x7fff then
      CompactU64.parse >>= fun l => pure ⟨decide (d / 4 % 2 = 1), t, l⟩
    else pure ⟨decide (d / 4 % 2 = 1), t, d / 2 ^ 17⟩) s := by
  unfold parse32
  have e : ∀ x : Nat, (4 * (x / 4 % 2) = 4) = (x / 4 % 2 = 1) := by
    intro x; apply propext; omega
  simp only [and_3, and_4, and_3fff, shr_eq, getU32, e]

theorem parse16_enc (c : Bool) (ty : ObjectType) (l : Nat) (ht : typeCode ty < 64) (hl : l < 2 ^ 7)
    (r : Bytes) : parse16 (header16 c (typeCode ty) l ++ r) = .ok (⟨c, ty, l⟩, r) := by
  rw [parse16_eq, header16, P.bind_ok (getLE_leBytes _ _ _)]
  have hc : c.toNat < 2 := by cases c <;> decide
  simp only [Nat.reducePow] at hl ⊢
  rw [if_neg (by omega)]
  have e : (0 + 4 * c.toNat + 8 * typeCode ty + 512 * l) % 65536 / 8 % 64 = ty.code := by
    rw [code_eq]; omega
  rw [e, ofCode_code, P.ofOption_some, P.pure_bind, P.pure_apply]
  have e1 : (0 + 4 * c.toNat + 8 * typeCode ty + 512 * l) % 65536 / 512 = l := by omega
  have e2 : (0 + 4 * c.toNat + 8 * typeCode ty + 512 * l) % 65536 / 4 % 2 = c.toNat := by omega
  rw [e1, e2]
  cases c <;> rfl

theorem parse16_inv {s r : Bytes} {h : ObjectHeader} (hp : parse16 s = .ok (h, r)) :
    typeCode h.objectType < 64 ∧ h.length < 2 ^ 7 ∧
      s = header16 h.compound (typeCode h.objectType) h.length ++ r := by
  rw [parse16_eq, P.bind_eq_ok] at hp
  obtain ⟨d, r1, hd, hp⟩ := hp
  rw [getLE_eq_ok] at hd
  obtain ⟨hd, rfl⟩ := hd
  by_cases h0 : d % 4 ≠ 0
  · rw [if_pos h0] at hp; cases hp
  rw [if_neg h0] at hp
  cases ho : ObjectType.ofCode (d / 2 ^ 3 % 64) with
  | none => rw [ho] at hp; cases hp
  | some t =>
    rw [ho] at hp
    cases hp
    have hc := ofCode_eq_some ho
    rw [code_eq] at hc
    refine ⟨?_, ?_, ?_⟩
    · show typeCode t < 64
      omega
    · show d / 2 ^ 9 < 2 ^ 7
      omega
    · unfold header16
      simp only
      have : (decide (d / 4 % 2 = 1)).toNat = d / 4 % 2 := by
        rcases Nat.mod_two_eq_zero_or_one (d / 4) with h | h <;> simp [h]
      rw [this]
      congr 2
      omega

theorem parse32_enc (c : Bool) (ty : ObjectType) (l : Nat) (bs : Bytes)
    (he : Header32 c (typeCode ty) l bs)
    (r : Bytes) : parse32 (bs ++ r) = .ok (⟨c, ty, l⟩, r) := by
  have hcode := code_lt ty
  rw [code_eq] at hcode
  have hc : c.toNat < 2 := by cases c <;> decide
  rw [parse32_eq]
  cases he with
  | short hl =>
    rw [P.bind_ok (getLE_leBytes _ _ _)]
    simp only [Nat.reducePow] at hl ⊢
    rw [if_neg (by omega)]
    have e : (2 + 4 * c.toNat + 8 * typeCode ty + 131072 * l) % 4294967296 / 8 % 16384
        = ty.code := by
      rw [code_eq]; omega
    rw [e, ofCode_code, P.ofOption_some, P.pure_bind, if_neg (by omega), P.pure_apply]
    have e1 : (2 + 4 * c.toNat + 8 * typeCode ty + 131072 * l) % 4294967296 / 131072 = l := by
      omega
    have e2 : (2 + 4 * c.toNat + 8 * typeCode ty + 131072 * l) % 4294967296 / 4 % 2 = c.toNat := by
      omega
    rw [e1, e2]
    cases c <;> rfl
  | long cs hcs =>
    rw [List.append_assoc, P.bind_ok (getLE_leBytes _ _ _)]
    simp only [Nat.reducePow, Nat.reduceMul]
    rw [if_neg (by omega)]
    have e : (2 + 4 * c.toNat + 8 * typeCode ty + 4294836224) % 4294967296 / 8 % 16384
        = ty.code := by
      rw [code_eq]; omega
    rw [e, ofCode_code, P.ofOption_some, P.pure_bind, if_pos (by omega),
      P.bind_ok (compact_enc hcs r), P.pure_apply]
    have e2 : (2 + 4 * c.toNat + 8 * typeCode ty + 4294836224) % 4294967296 / 4 % 2
        = c.toNat := by
      omega
    rw [e2]
    cases c <;> rfl

theorem parse32_inv {s r : Bytes} {h : ObjectHeader} (hp : parse32 s = .ok (h, r)) :
    ∃ bs, Header32 h.compound (typeCode h.objectType) h.length bs ∧ s = bs ++ r := by
  rw [parse32_eq, P.bind_eq_ok] at hp
  obtain ⟨d, r1, hd, hp⟩ := hp
  rw [getLE_eq_ok] at hd
  obtain ⟨hd, rfl⟩ := hd
  by_cases h0 : d % 4 ≠ 2
  · rw [if_pos h0] at hp; cases hp
  rw [if_neg h0] at hp
  cases ho : ObjectType.ofCode (d / 2 ^ 3 % 16384) with
  | none => rw [ho] at hp; cases hp
  | some t =>
    rw [ho, P.ofOption_some, P.pure_bind] at hp
    have hc := ofCode_eq_some ho
    rw [code_eq] at hc
    have hb : (decide (d / 4 % 2 = 1)).toNat = d / 4 % 2 := by
      rcases Nat.mod_two_eq_zero_or_one (d / 4) with h | h <;> simp [h]
    by_cases hl : d / 2 ^ 17 = 0x7fff
    · rw [if_pos hl, P.bind_eq_ok] at hp
      obtain ⟨l, r2, hcp, hp⟩ := hp
      cases hp
      obtain ⟨cs, hcs, rfl⟩ := compact_inv hcp
      refine ⟨_, .long l cs hcs, ?_⟩
      rw [List.append_assoc]
      congr 2
      simp only
      rw [hb]
      omega
    · rw [if_neg hl] at hp
      cases hp
      refine ⟨_, .short (d / 2 ^ 17) (by omega), ?_⟩
      congr 2
      simp only
      rw [hb]
      omega

theorem parseEnd8_enc (ty : ObjectType) (ht : typeCode ty < 64) (r : Bytes) :
    parseEnd8 (end8 (typeCode ty) ++ r) = .ok (ty, r) := by
  unfold parseEnd8 end8 getU8
  rw [P.bind_ok (getLE_leBytes _ _ _)]
  simp only [and_3, shr_eq, Nat.reducePow]
  rw [if_neg (by omega)]
  have e : (1 + 4 * typeCode ty) % 256 / 4 = ty.code := by rw [code_eq]; omega
  rw [e, ofCode_code]; rfl

theorem parseEnd8_inv {s r : Bytes} {ty : ObjectType} (hp : parseEnd8 s = .ok (ty, r)) :
    typeCode ty < 64 ∧ s = end8 (typeCode ty) ++ r := by
  unfold parseEnd8 getU8 at hp
  rw [P.bind_eq_ok] at hp
  obtain ⟨d, r1, hd, hp⟩ := hp
  rw [getLE_eq_ok] at hd
  obtain ⟨hd, rfl⟩ := hd
  simp only [and_3, shr_eq, Nat.reducePow] at hp hd
  by_cases h0 : d % 4 ≠ 1
  · rw [if_pos h0] at hp; cases hp
  rw [if_neg h0] at hp
  cases ho : ObjectType.ofCode (d / 4) with
  | none => rw [ho] at hp; cases hp
  | some t =>
    rw [ho] at hp
    cases hp
    have hc := ofCode_eq_some ho
    rw [code_eq] at hc
    refine ⟨by omega, ?_⟩
    unfold end8
    congr 2
    omega

theorem parseEnd16_enc (ty : ObjectType) (r : Bytes) :
    parseEnd16 (end16 (typeCode ty) ++ r) = .ok (ty, r) := by
  have hcode := code_lt ty
  rw [code_eq] at hcode
  unfold parseEnd16 end16 getU16
  rw [P.bind_ok (getLE_leBytes _ _ _)]
  simp only [and_3, shr_eq, Nat.reducePow]
  rw [if_neg (by omega)]
  have e : (3 + 4 * typeCode ty) % 65536 / 4 = ty.code := by rw [code_eq]; omega
  rw [e, ofCode_code]; rfl

theorem parseEnd16_inv {s r : Bytes} {ty : ObjectType} (hp : parseEnd16 s = .ok (ty, r)) :
    s = end16 (typeCode ty) ++ r := by
  unfold parseEnd16 getU16 at hp
  rw [P.bind_eq_ok] at hp
  obtain ⟨d, r1, hd, hp⟩ := hp
  rw [getLE_eq_ok] at hd
  obtain ⟨hd, rfl⟩ := hd
  simp only [and_3, shr_eq, Nat.reducePow] at hp hd
  by_cases h0 : d % 4 ≠ 3
  · rw [if_pos h0] at hp; cases hp
  rw [if_neg h0] at hp
  cases ho : ObjectType.ofCode (d / 4) with
  | none => rw [ho] at hp; cases hp
  | some t =>
    rw [ho] at hp
    cases hp
    have hc := ofCode_eq_some ho
    rw [code_eq] at hc
    unfold end16
    congr 2
    omega

/-- The kind-detecting parser picks the 16-bit form for headers whose first two bits are 0. -/
theorem parse_enc16 (c : Bool) (ty : ObjectType) (l : Nat) (ht : typeCode ty < 64) (hl : l < 2 ^ 7)
    (r : Bytes) : parse (header16 c (typeCode ty) l ++ r) = .ok (⟨c, ty, l⟩, r) := by
  rw [← parse16_enc c ty l ht hl r]
  unfold parse
  rw [header16, P.bind_ok (peekU8_leBytes _ _ _)]
  simp only [and_3]
  rw [if_pos (by omega)]

theorem parse_enc32 (c : Bool) (ty : ObjectType) (l : Nat) (bs : Bytes)
    (he : Header32 c (typeCode ty) l bs) (r : Bytes) :
    parse (bs ++ r) = .ok (⟨c, ty, l⟩, r) := by
  rw [← parse32_enc c ty l bs he r]
  unfold parse
  cases he with
  | short hl =>
    rw [P.bind_ok (peekU8_leBytes _ _ _)]
    simp only [and_3]
    rw [if_neg (by omega), if_pos (by omega)]
  | long cs hcs =>
    rw [List.append_assoc, P.bind_ok (peekU8_leBytes _ _ _)]
    simp only [and_3]
    rw [if_neg (by omega), if_pos (by omega)]

theorem parse_inv {s r : Bytes} {h : ObjectHeader} (hp : parse s = .ok (h, r)) :
    parse16 s = .ok (h, r) ∨ parse32 s = .ok (h, r) := by
  unfold parse at hp
  rw [P.bind_eq_ok] at hp
  obtain ⟨b, r', hb, hp⟩ := hp
  obtain ⟨rfl, -⟩ := peekU8_eq_ok hb
  split at hp
  · exact .inl hp
  split at hp
  · exact .inr hp
  · cases hp

end ObjectHeader

end OneNote
