/-
Helper lemmas for compact integers, GUIDs, extended GUIDs.
-/
import Verif.Lemmas.Basic

namespace OneNote

open Spec

theorem peekU8_leBytes (n v : Nat) (r : Bytes) :
    peekU8 (leBytes (n + 1) v ++ r) = .ok (v % 256, leBytes (n + 1) v ++ r) := by
  simp [peekU8, leBytes]

theorem peekU8_cons (b : UInt8) (r : Bytes) : peekU8 (b :: r) = .ok (b.toNat, b :: r) := rfl

theorem peekU8_eq_ok {s r : Bytes} {v : Nat} (h : peekU8 s = .ok (v, r)) :
    r = s ∧ ∃ b t, s = b :: t ∧ v = b.toNat := by
  cases s with
  | nil => cases h
  | cons b t =>
    cases h
    exact ⟨rfl, b, t, rfl, rfl⟩

/-- The compact-integer parser with masks and shifts as arithmetic. -/
theorem CompactU64.parse_eq (s : Bytes) : CompactU64.parse s = (peekU8 >>= fun b =>
    if b = 0 then advance 1 >>= fun _ => pure 0
    else if b % 2 = 1 then getLE 1 >>= fun x => pure (x / 2 ^ 1)
    else if b / 2 % 2 = 1 then getLE 2 >>= fun x => pure (x / 2 ^ 2)
    else if b / 4 % 2 = 1 then getLE 3 >>= fun x => pure (x / 2 ^ 3)
    else if b / 8 % 2 = 1 then getLE 4 >>= fun x => pure (x / 2 ^ 4)
    else if b / 16 % 2 = 1 then getLE 5 >>= fun x => pure (x / 2 ^ 5)
    else if b / 32 % 2 = 1 then getLE 6 >>= fun x => pure (x / 2 ^ 6)
    else if b / 64 % 2 = 1 then getLE 7 >>= fun x => pure (x / 2 ^ 7)
    else if b / 128 % 2 = 1 then advance 1 >>= fun _ => getLE 8
    else P.fail .malformedFssHttpB) s := by
  unfold CompactU64.parse
  have e : ∀ x : Nat, (x % 2 = 1) = ¬ (x % 2 = 0) := by intro x; simp
  simp only [and_1, and_2, and_4, and_8, and_16, and_32, and_64, and_128, shr_eq, getU8, getU16,
    getU64, ne_eq, Nat.mul_eq_zero, Nat.reduceEqDiff, false_or, e]

theorem compact_small (k v : Nat) (hk : 1 ≤ k ∧ k ≤ 7) (hv : v < 2 ^ (7 * k)) (r : Bytes) :
    CompactU64.parse (leBytes k (v * 2 ^ k + 2 ^ (k - 1)) ++ r) = .ok (v, r) := by
  have h8 : k = 1 ∨ k = 2 ∨ k = 3 ∨ k = 4 ∨ k = 5 ∨ k = 6 ∨ k = 7 := by omega
  rw [CompactU64.parse_eq]
  rcases h8 with rfl | rfl | rfl | rfl | rfl | rfl | rfl <;>
  · rw [P.bind_ok (peekU8_leBytes _ _ _)]
    simp only [Nat.reducePow, Nat.reduceSub, Nat.reduceMul] at hv ⊢
    repeat (first | rw [if_neg (by omega)] | rw [if_pos (by omega)])
    rw [P.bind_ok (getLE_leBytes _ _ _), P.pure_apply]
    congr 2
    omega

theorem compact_wide (v : Nat) (hv : v < 2 ^ 64) (r : Bytes) :
    CompactU64.parse (0x80 :: leBytes 8 v ++ r) = .ok (v, r) := by
  rw [CompactU64.parse_eq]
  have h : (0x80 :: leBytes 8 v ++ r) = 0x80 :: (leBytes 8 v ++ r) := rfl
  rw [h, P.bind_ok (peekU8_cons _ _)]
  have h2 : advance 1 (0x80 :: (leBytes 8 v ++ r)) = .ok ((), leBytes 8 v ++ r) := by
    simp [advance]
  simp only [show (0x80 : UInt8).toNat = 128 from rfl]
  simp only [Nat.reduceMod, Nat.reduceDiv, Nat.reduceEqDiff, if_false, if_true]
  rw [P.bind_ok h2, getLE_leBytes]
  congr 2
  omega

theorem leBytes_head {k x : Nat} {b : UInt8} {t r : Bytes} (hk : 1 ≤ k)
    (h : b :: t = leBytes k x ++ r) : b.toNat = x % 256 := by
  cases k with
  | zero => omega
  | succ k =>
    simp only [leBytes, List.cons_append, List.cons.injEq] at h
    rw [h.1, ofNat_toNat_mod]

theorem compact_inv_small {k b : Nat} {s r : Bytes} {v : Nat} {b' : UInt8} {t : Bytes}
    (hk : 1 ≤ k ∧ k ≤ 7) (hs : s = b' :: t) (hb : b = b'.toNat)
    (hbit : b % 2 ^ k = 2 ^ (k - 1))
    (h : (getLE k >>= fun x => pure (x / 2 ^ k)) s = .ok (v, r)) :
    ∃ bs, Compact v bs ∧ s = bs ++ r := by
  rw [P.bind_eq_ok] at h
  obtain ⟨x, r', h1, h2⟩ := h
  cases h2
  rw [getLE_eq_ok] at h1
  obtain ⟨hx, he⟩ := h1
  rw [hs] at he
  have hh := leBytes_head hk.1 he
  refine ⟨leBytes k x, ?_, by rw [hs, he]⟩
  have hd : (2 ^ k : Nat) ∣ 256 := by
    have : (256 : Nat) = 2 ^ 8 := rfl
    rw [this]
    exact Nat.pow_dvd_pow 2 (by omega)
  have hm : x % 2 ^ k = 2 ^ (k - 1) := by
    rw [← hbit, hb, hh, Nat.mod_mod_of_dvd _ hd]
  have hx' : x = x / 2 ^ k * 2 ^ k + 2 ^ (k - 1) := by
    rw [← hm, Nat.mul_comm, Nat.div_add_mod]
  have hv : x / 2 ^ k < 2 ^ (7 * k) := by
    rw [Nat.div_lt_iff_lt_mul (Nat.two_pow_pos k), ← Nat.pow_add]
    have : (256 : Nat) ^ k = 2 ^ (7 * k + k) := by
      rw [show (256 : Nat) = 2 ^ 8 from rfl, ← Nat.pow_mul]
      congr 1
      omega
    omega
  conv => rhs; rw [hx']
  exact Compact.small k _ hk hv

theorem compact_inv {s r : Bytes} {v : Nat} (h : CompactU64.parse s = .ok (v, r)) :
    ∃ bs, Compact v bs ∧ s = bs ++ r := by
  rw [CompactU64.parse_eq, P.bind_eq_ok] at h
  obtain ⟨b, r', hp, h⟩ := h
  obtain ⟨rfl, b', t, hs, hb⟩ := peekU8_eq_ok hp
  have hlt : b < 256 := by rw [hb]; exact b'.toNat_lt
  by_cases h0 : b = 0
  · rw [if_pos h0, P.bind_eq_ok] at h
    obtain ⟨_, _, h1, h2⟩ := h
    subst hs
    simp only [advance, List.length_cons, List.drop_succ_cons, List.drop_zero] at h1
    split at h1
    · cases h1
    · cases h1
      cases h2
      refine ⟨[0], .zero, ?_⟩
      have : b' = 0 := by
        apply UInt8.toNat_inj.mp
        rw [← hb, h0]; rfl
      rw [this]; rfl
  rw [if_neg h0] at h
  by_cases h1 : b % 2 = 1
  · rw [if_pos h1] at h
    exact compact_inv_small (k := 1) (by omega) hs hb (by simp; omega) h
  rw [if_neg h1] at h
  by_cases h2 : b / 2 % 2 = 1
  · rw [if_pos h2] at h
    exact compact_inv_small (k := 2) (by omega) hs hb (by simp; omega) h
  rw [if_neg h2] at h
  by_cases h3 : b / 4 % 2 = 1
  · rw [if_pos h3] at h
    exact compact_inv_small (k := 3) (by omega) hs hb (by simp; omega) h
  rw [if_neg h3] at h
  by_cases h4 : b / 8 % 2 = 1
  · rw [if_pos h4] at h
    exact compact_inv_small (k := 4) (by omega) hs hb (by simp; omega) h
  rw [if_neg h4] at h
  by_cases h5 : b / 16 % 2 = 1
  · rw [if_pos h5] at h
    exact compact_inv_small (k := 5) (by omega) hs hb (by simp; omega) h
  rw [if_neg h5] at h
  by_cases h6 : b / 32 % 2 = 1
  · rw [if_pos h6] at h
    exact compact_inv_small (k := 6) (by omega) hs hb (by simp; omega) h
  rw [if_neg h6] at h
  by_cases h7 : b / 64 % 2 = 1
  · rw [if_pos h7] at h
    exact compact_inv_small (k := 7) (by omega) hs hb (by simp; omega) h
  rw [if_neg h7] at h
  by_cases h8 : b / 128 % 2 = 1
  · rw [if_pos h8, P.bind_eq_ok] at h
    obtain ⟨_, r1, ha, hg⟩ := h
    subst hs
    simp only [advance, List.length_cons, List.drop_succ_cons, List.drop_zero] at ha
    split at ha
    · cases ha
    · cases ha
      rw [getLE_eq_ok] at hg
      obtain ⟨hv, rfl⟩ := hg
      refine ⟨0x80 :: leBytes 8 v, .wide v hv, ?_⟩
      have : b' = 0x80 := by
        apply UInt8.toNat_inj.mp
        rw [← hb]
        show b = 128
        omega
      rw [this]; rfl
  · rw [if_neg h8] at h
    cases h

theorem compact_enc {v : Nat} {bs : Bytes} (h : Compact v bs) (r : Bytes) :
    CompactU64.parse (bs ++ r) = .ok (v, r) := by
  cases h with
  | zero => simp [CompactU64.parse_eq, P.bind_apply, peekU8, advance]
  | small k v hk hv => exact compact_small k v hk hv r
  | wide v hv => exact compact_wide v hv r

theorem compact_writer {v : Nat} (hv : v < 2 ^ 64) : Compact v (compact v) := by
  unfold compact
  split
  · subst_vars; exact .zero
  split
  · exact .small 1 v (by omega) (by omega)
  split
  · exact .small 2 v (by omega) (by omega)
  split
  · exact .small 3 v (by omega) (by omega)
  split
  · exact .small 4 v (by omega) (by omega)
  split
  · exact .small 5 v (by omega) (by omega)
  split
  · exact .small 6 v (by omega) (by omega)
  split
  · exact .small 7 v (by omega) (by omega)
  · exact .wide v hv

theorem byteAt_leNat (bs : Bytes) (i : Nat) (h : i < bs.length) :
    Guid.byteAt (leNat bs) (8 * i) = bs[i] := by
  induction bs generalizing i with
  | nil => simp at h
  | cons b bs ih =>
    cases i with
    | zero =>
      apply UInt8.toNat_inj.mp
      have := b.toNat_lt
      simp [Guid.byteAt, leNat]
    | succ i =>
      have := ih i (by simpa using h)
      simp only [List.getElem_cons_succ]
      rw [← this]
      have h1 := b.toNat_lt
      unfold Guid.byteAt
      rw [shr_eq, shr_eq, leNat, show 8 * (i + 1) = 8 + 8 * i from by omega, Nat.pow_add,
        ← Nat.div_div_eq_div_mul]
      congr 2
      omega

theorem Guid.parse_cons16 (c0 c1 c2 c3 c4 c5 c6 c7 c8 c9 c10 c11 c12 c13 c14 c15 : UInt8)
    (r : Bytes) :
    Guid.parse (c0 :: c1 :: c2 :: c3 :: c4 :: c5 :: c6 :: c7 :: c8 :: c9 :: c10 :: c11 :: c12 ::
      c13 :: c14 :: c15 :: r) =
      .ok (⟨c3, c2, c1, c0, c5, c4, c7, c6, c8, c9, c10, c11, c12, c13, c14, c15⟩, r) := by
  let bs : Bytes := [c0, c1, c2, c3, c4, c5, c6, c7, c8, c9, c10, c11, c12, c13, c14, c15]
  have e : ∀ i (h : i < 16), Guid.byteAt (leNat bs) (8 * i) = bs[i] :=
    fun i h => byteAt_leNat bs i h
  have hg : getLE 16 (bs ++ r) = .ok (leNat bs, r) := getLE_append 16 bs r rfl
  show Guid.parse (bs ++ r) = _
  unfold Guid.parse
  rw [P.bind_ok hg, P.pure_apply]
  have e0 := e 0 (by omega)
  have e1 := e 1 (by omega)
  have e2 := e 2 (by omega)
  have e3 := e 3 (by omega)
  have e4 := e 4 (by omega)
  have e5 := e 5 (by omega)
  have e6 := e 6 (by omega)
  have e7 := e 7 (by omega)
  have e8 := e 8 (by omega)
  have e9 := e 9 (by omega)
  have e10 := e 10 (by omega)
  have e11 := e 11 (by omega)
  have e12 := e 12 (by omega)
  have e13 := e 13 (by omega)
  have e14 := e 14 (by omega)
  have e15 := e 15 (by omega)
  simp only [Nat.reduceMul] at e0 e1 e2 e3 e4 e5 e6 e7 e8 e9 e10 e11 e12 e13 e14 e15
  rw [e0, e1, e2, e3, e4, e5, e6, e7, e8, e9, e10, e11, e12, e13, e14, e15]
  rfl

theorem Guid.parse_guid (g : Guid) (r : Bytes) : Guid.parse (guid g ++ r) = .ok (g, r) := by
  have := Guid.parse_cons16 g.b3 g.b2 g.b1 g.b0 g.b5 g.b4 g.b7 g.b6
    g.b8 g.b9 g.b10 g.b11 g.b12 g.b13 g.b14 g.b15 r
  exact this

@[simp] theorem guid_length (g : Guid) : (guid g).length = 16 := rfl

theorem Guid.parse_short {s : Bytes} (h : s.length < 16) : Guid.parse s = .error .eof := by
  unfold Guid.parse
  rw [P.bind_err]
  simp [getLE, h]

theorem Guid.parse_inv {s r : Bytes} {g : Guid} (h : Guid.parse s = .ok (g, r)) :
    s = guid g ++ r := by
  match s, h with
  | c0 :: c1 :: c2 :: c3 :: c4 :: c5 :: c6 :: c7 :: c8 :: c9 :: c10 :: c11 :: c12 ::
      c13 :: c14 :: c15 :: r', h =>
    rw [Guid.parse_cons16] at h
    cases h
    rfl
  | [], h => rw [Guid.parse_short (by simp)] at h; cases h
  | [_], h => rw [Guid.parse_short (by simp)] at h; cases h
  | [_, _], h => rw [Guid.parse_short (by simp)] at h; cases h
  | [_, _, _], h => rw [Guid.parse_short (by simp)] at h; cases h
  | [_, _, _, _], h => rw [Guid.parse_short (by simp)] at h; cases h
  | [_, _, _, _, _], h => rw [Guid.parse_short (by simp)] at h; cases h
  | [_, _, _, _, _, _], h => rw [Guid.parse_short (by simp)] at h; cases h
  | [_, _, _, _, _, _, _], h => rw [Guid.parse_short (by simp)] at h; cases h
  | [_, _, _, _, _, _, _, _], h => rw [Guid.parse_short (by simp)] at h; cases h
  | [_, _, _, _, _, _, _, _, _], h => rw [Guid.parse_short (by simp)] at h; cases h
  | [_, _, _, _, _, _, _, _, _, _], h => rw [Guid.parse_short (by simp)] at h; cases h
  | [_, _, _, _, _, _, _, _, _, _, _], h => rw [Guid.parse_short (by simp)] at h; cases h
  | [_, _, _, _, _, _, _, _, _, _, _, _], h => rw [Guid.parse_short (by simp)] at h; cases h
  | [_, _, _, _, _, _, _, _, _, _, _, _, _], h => rw [Guid.parse_short (by simp)] at h; cases h
  | [_, _, _, _, _, _, _, _, _, _, _, _, _, _], h => rw [Guid.parse_short (by simp)] at h; cases h
  | [_, _, _, _, _, _, _, _, _, _, _, _, _, _, _], h =>
    rw [Guid.parse_short (by simp)] at h; cases h

theorem Guid.parse_total {s : Bytes} (h : 16 ≤ s.length) : ∃ g r, Guid.parse s = .ok (g, r) := by
  unfold Guid.parse
  have : ¬ s.length < 16 := by omega
  have h2 : getLE 16 s = .ok (leNat (s.take 16), s.drop 16) := by simp [getLE, this]
  exact ⟨_, _, by rw [P.bind_ok h2]; rfl⟩

/-! ### Extended GUIDs -/

/-- The extended-GUID parser with masks and shifts as arithmetic. -/
theorem ExGuid.parse_eq (s : Bytes) : ExGuid.parse s = (getLE 1 >>= fun d =>
    if d = 0 then pure ExGuid.nil
    else if d % 8 = 4 then Guid.parse >>= fun g => pure ⟨g, d / 2 ^ 3⟩
    else if d % 64 = 32 then getLE 1 >>= fun x => Guid.parse >>= fun g =>
      pure ⟨g, (x <<< 2) ||| (d / 2 ^ 6)⟩
    else if d % 128 = 64 then getLE 2 >>= fun x => Guid.parse >>= fun g =>
      pure ⟨g, (x <<< 1) ||| (d / 2 ^ 7)⟩
    else if d = 128 then getLE 4 >>= fun x => Guid.parse >>= fun g => pure ⟨g, x⟩
    else P.fail .malformedData) s := by
  unfold ExGuid.parse
  simp only [and_7, and_3f, and_7f, shr_eq, getU8, getU16, getU32]

theorem leBytes_add (m n v : Nat) :
    leBytes (m + n) v = leBytes m v ++ leBytes n (v / 256 ^ m) := by
  induction m generalizing v with
  | zero => simp [leBytes]
  | succ m ih =>
    rw [show m + 1 + n = (m + n) + 1 from by omega, leBytes, leBytes, ih, Nat.div_div_eq_div_mul,
      ← Nat.pow_succ']
    rfl

theorem or_add2 (x d : Nat) (h : d < 2 ^ 2) : (x <<< 2) ||| d = 4 * x + d := by
  rw [← Nat.shiftLeft_add_eq_or_of_lt h, Nat.shiftLeft_eq]; omega

theorem or_add1 (x d : Nat) (h : d < 2 ^ 1) : (x <<< 1) ||| d = 2 * x + d := by
  rw [← Nat.shiftLeft_add_eq_or_of_lt h, Nat.shiftLeft_eq]; omega

theorem exGuid_enc {e : ExGuid} {bs : Bytes} (h : ExGuidEnc e bs) (r : Bytes) :
    ExGuid.parse (bs ++ r) = .ok (e, r) := by
  rw [ExGuid.parse_eq]
  cases h with
  | null => simp [P.bind_apply, getLE, leNat, ExGuid.nil]
  | bits5 g v hv =>
    rw [List.append_assoc, P.bind_ok (getLE_leBytes _ _ _)]
    simp only [Nat.reducePow] at hv ⊢
    rw [if_neg (by omega), if_pos (by omega), P.bind_ok (Guid.parse_guid g r), P.pure_apply]
    congr 3; omega
  | bits10 g v hv =>
    rw [leBytes_add 1 1, List.append_assoc, List.append_assoc, P.bind_ok (getLE_leBytes _ _ _)]
    simp only [Nat.reducePow] at hv ⊢
    rw [if_neg (by omega), if_neg (by omega), if_pos (by omega), P.bind_ok (getLE_leBytes _ _ _),
      P.bind_ok (Guid.parse_guid g r), P.pure_apply, or_add2 _ _ (by omega)]
    congr 3; omega
  | bits17 g v hv =>
    rw [leBytes_add 1 2, List.append_assoc, List.append_assoc, P.bind_ok (getLE_leBytes _ _ _)]
    simp only [Nat.reducePow] at hv ⊢
    rw [if_neg (by omega), if_neg (by omega), if_neg (by omega), if_pos (by omega),
      P.bind_ok (getLE_leBytes _ _ _),
      P.bind_ok (Guid.parse_guid g r), P.pure_apply, or_add1 _ _ (by omega)]
    congr 3; omega
  | bits32 g v hv =>
    rw [leBytes_add 1 4, List.append_assoc, List.append_assoc, P.bind_ok (getLE_leBytes _ _ _)]
    simp only [Nat.reducePow] at hv ⊢
    rw [if_neg (by omega), if_neg (by omega), if_neg (by omega), if_neg (by omega),
      if_pos (by omega), P.bind_ok (getLE_leBytes _ _ _),
      P.bind_ok (Guid.parse_guid g r), P.pure_apply]
    congr 3; omega

theorem exGuid_inv {s r : Bytes} {e : ExGuid} (h : ExGuid.parse s = .ok (e, r)) :
    ∃ bs, ExGuidEnc e bs ∧ s = bs ++ r := by
  rw [ExGuid.parse_eq, P.bind_eq_ok] at h
  obtain ⟨d, r1, hd, h⟩ := h
  rw [getLE_eq_ok] at hd
  obtain ⟨hd, rfl⟩ := hd
  by_cases h0 : d = 0
  · rw [if_pos h0] at h
    cases h
    subst h0
    exact ⟨[0], .null, rfl⟩
  rw [if_neg h0] at h
  by_cases h1 : d % 8 = 4
  · rw [if_pos h1, P.bind_eq_ok] at h
    obtain ⟨g, r2, hg, h⟩ := h
    cases h
    rw [Guid.parse_inv hg]
    refine ⟨_, .bits5 g (d / 2 ^ 3) (by omega), ?_⟩
    rw [List.append_assoc]
    congr 2
    omega
  rw [if_neg h1] at h
  by_cases h2 : d % 64 = 32
  · rw [if_pos h2, P.bind_eq_ok] at h
    obtain ⟨x, r2, hx, h⟩ := h
    rw [P.bind_eq_ok] at h
    obtain ⟨g, r3, hg, h⟩ := h
    cases h
    rw [getLE_eq_ok] at hx
    obtain ⟨hx, rfl⟩ := hx
    rw [Guid.parse_inv hg]
    rw [or_add2 _ _ (by omega)]
    refine ⟨_, .bits10 g (4 * x + d / 2 ^ 6) (by omega), ?_⟩
    rw [leBytes_add 1 1]
    simp only [List.append_assoc]
    simp only [leBytes]
    have e1 : (32 + 2 ^ 6 * (4 * x + d / 2 ^ 6)) % 256 = d % 256 := by omega
    have e2 : (32 + 2 ^ 6 * (4 * x + d / 2 ^ 6)) / 256 ^ 1 % 256 = x % 256 := by omega
    rw [e1, e2]
  rw [if_neg h2] at h
  by_cases h3 : d % 128 = 64
  · rw [if_pos h3, P.bind_eq_ok] at h
    obtain ⟨x, r2, hx, h⟩ := h
    rw [P.bind_eq_ok] at h
    obtain ⟨g, r3, hg, h⟩ := h
    cases h
    rw [getLE_eq_ok] at hx
    obtain ⟨hx, rfl⟩ := hx
    rw [Guid.parse_inv hg]
    rw [or_add1 _ _ (by omega)]
    refine ⟨_, .bits17 g (2 * x + d / 2 ^ 7) (by omega), ?_⟩
    rw [leBytes_add 1 2]
    simp only [List.append_assoc]
    have e1 : (64 + 2 ^ 7 * (2 * x + d / 2 ^ 7)) % 256 = d % 256 := by omega
    have e2 : (64 + 2 ^ 7 * (2 * x + d / 2 ^ 7)) / 256 ^ 1 = x := by omega
    rw [e2]
    simp only [leBytes, e1]
  rw [if_neg h3] at h
  by_cases h4 : d = 128
  · rw [if_pos h4, P.bind_eq_ok] at h
    obtain ⟨x, r2, hx, h⟩ := h
    rw [P.bind_eq_ok] at h
    obtain ⟨g, r3, hg, h⟩ := h
    cases h
    rw [getLE_eq_ok] at hx
    obtain ⟨hx, rfl⟩ := hx
    rw [Guid.parse_inv hg]
    refine ⟨_, .bits32 g x (by omega), ?_⟩
    rw [leBytes_add 1 4]
    simp only [List.append_assoc]
    have e1 : (128 + 2 ^ 8 * x) % 256 = d % 256 := by omega
    have e2 : (128 + 2 ^ 8 * x) / 256 ^ 1 = x := by omega
    rw [e2]
    simp only [leBytes, e1]
  · rw [if_neg h4] at h
    cases h

theorem exGuid_writer {e : ExGuid} (hv : e.value < 2 ^ 32) : ExGuidEnc e (exGuid e) := by
  obtain ⟨g, v⟩ := e
  unfold exGuid
  simp only at hv ⊢
  split
  · rename_i h
    obtain ⟨rfl, rfl⟩ := h
    exact .null
  split
  · exact .bits5 g v (by omega)
  split
  · exact .bits10 g v (by omega)
  split
  · exact .bits17 g v (by omega)
  · exact .bits32 g v hv

theorem compact_lt {v : Nat} {bs : Bytes} (h : Compact v bs) : v < 2 ^ 64 := by
  cases h with
  | zero => decide
  | small k v hk hv =>
    exact Nat.lt_of_lt_of_le hv (Nat.pow_le_pow_right (by omega) (by omega))
  | wide v hv => exact hv

end OneNote
