/-
Structured values: indents, dimensions, list formats and tables.
-/
import Verif.Lemmas.Readings2
import Verif.Lemmas.Tree

namespace OneNote

open Spec Spec.Fields

/-! ### Readers of binary data -/

theorem run_iff {α : Type} (p : P α) (d : Bytes) (a : α) :
    P.run p d = .ok a ↔ ∃ rest, p d = .ok (a, rest) := by
  unfold P.run
  cases h : p d with
  | error e => simp
  | ok x => obtain ⟨b, r⟩ := x; simp

theorem getU8_iff (s r : Bytes) (v : Nat) :
    getU8 s = .ok (v, r) ↔ s = leBytes 1 v ++ r ∧ v < 2 ^ 8 :=
  (getLE_eq_ok (n := 1)).trans ⟨fun h => ⟨h.2, h.1⟩, fun h => ⟨h.2, h.1⟩⟩

theorem getU32_iff (s r : Bytes) (v : Nat) :
    getU32 s = .ok (v, r) ↔ s = leBytes 4 v ++ r ∧ v < 2 ^ 32 :=
  (getLE_eq_ok (n := 4)).trans ⟨fun h => ⟨h.2, h.1⟩, fun h => ⟨h.2, h.1⟩⟩

theorem replicate_u32 (n : Nat) : ∀ (s : Bytes) (ns : List Nat) (r : Bytes),
    replicateP getU32 n s = .ok (ns, r) ↔
      s = ns.flatMap (leBytes 4) ++ r ∧ ns.length = n ∧ ∀ k ∈ ns, k < 2 ^ 32 := by
  induction n with
  | zero =>
    intro s ns r
    simp only [replicateP, P.pure_apply, Except.ok.injEq, Prod.mk.injEq]
    constructor
    · rintro ⟨rfl, rfl⟩; simp
    · rintro ⟨h, hl, _⟩
      rw [List.length_eq_zero_iff] at hl
      subst hl
      simpa using h
  | succ n ih =>
    intro s ns r
    rw [replicateP, P.bind_eq_ok]
    constructor
    · rintro ⟨v, s', h1, h2⟩
      rw [P.bind_eq_ok] at h2
      obtain ⟨vs, s'', h2, h3⟩ := h2
      cases h3
      obtain ⟨rfl, hv⟩ := (getU32_iff _ _ _).1 h1
      obtain ⟨rfl, hl, hvs⟩ := (ih _ _ _).1 h2
      refine ⟨by simp, by simp [hl], ?_⟩
      intro k hk
      rcases List.mem_cons.1 hk with rfl | hk
      · exact hv
      · exact hvs k hk
    · rintro ⟨rfl, hl, hb⟩
      cases ns with
      | nil => cases hl
      | cons v vs =>
        refine ⟨v, vs.flatMap (leBytes 4) ++ r, (getU32_iff _ _ _).2 ⟨by simp, hb v (by simp)⟩, ?_⟩
        rw [P.bind_ok ((ih _ vs r).2 ⟨rfl, by simpa using hl, fun k hk => hb k (by simp [hk])⟩)]
        rfl

theorem advance_iff (n : Nat) (s r : Bytes) :
    advance n s = .ok ((), r) ↔ ∃ c, s = c ++ r ∧ c.length = n := by
  unfold advance
  constructor
  · intro h
    split at h
    · cases h
    · cases h
      exact ⟨s.take n, (List.take_append_drop n s).symm, by rw [List.length_take]; omega⟩
  · rintro ⟨c, rfl, hl⟩
    rw [if_neg (by rw [List.length_append]; omega), ← hl, List.drop_left]

theorem indents_iff (d : Bytes) (ns : List F32) :
    P.run OutlineIndentDistance.reader d = .ok ns ↔ Value.indents (.vec d) ns := by
  rw [run_iff]
  unfold OutlineIndentDistance.reader Value.indents
  constructor
  · rintro ⟨r, h⟩
    rw [P.bind_eq_ok] at h
    obtain ⟨n, s1, h1, h⟩ := h
    rw [P.bind_eq_ok] at h
    obtain ⟨u, s2, h2, h3⟩ := h
    obtain ⟨rfl, hn⟩ := (getU8_iff _ _ _).1 h1
    obtain ⟨c, rfl, hc⟩ := (advance_iff _ _ _).1 h2
    obtain ⟨rfl, rfl, hb⟩ := (replicate_u32 _ _ _ _).1 h3
    match c, hc with
    | [a, b, c], _ => exact ⟨a, b, c, r, by simp, hn, hb⟩
  · rintro ⟨a, b, c, tail, hd, hn, hb⟩
    cases hd
    refine ⟨tail, ?_⟩
    rw [List.append_assoc, List.append_assoc,
      P.bind_ok ((getU8_iff _ _ _).2 ⟨rfl, hn⟩),
      P.bind_ok ((advance_iff 3 _ _).2 ⟨[a, b, c], rfl, rfl⟩)]
    exact (replicate_u32 _ _ _ _).2 ⟨rfl, rfl, hb⟩

theorem parseIndents_iff {o : Object} {r : Option OutlineIndentDistance} :
    OutlineIndentDistance.parse o = .ok r ↔ Optional o.props.properties
      PropertyType.rgOutlineIndentDistance.code Value.indents r := by
  have e : OutlineIndentDistance.parse o = (Simple.parseVec .rgOutlineIndentDistance o >>=
      optM fun d => P.run OutlineIndentDistance.reader d) := by
    unfold OutlineIndentDistance.parse Simple.parseVec
    congr 1
    funext d
    cases d with
    | none => rfl
    | some d =>
      simp only [optM]
      cases P.run OutlineIndentDistance.reader d <;> rfl
  rw [e]
  refine optional_conv (R' := Value.indents) (fun v b => ?_) (fun r => parseVec_iff)
  simp only [indents_iff, Value.bytes]
  constructor
  · intro h; obtain ⟨a, b, c, tail, rfl, h⟩ := h; exact ⟨_, rfl, a, b, c, tail, rfl, h⟩
  · rintro ⟨d, rfl, h⟩; exact h

/-! ### Ink dimensions -/

theorem i32_toI32 {n : Nat} (h : n < 2 ^ 32) :
    Ink.i32 (toI32 n) = n ∧ (-2 ^ 31 ≤ toI32 n ∧ toI32 n < 2 ^ 31) := by
  unfold toI32 Ink.i32
  split <;> split <;> omega

theorem entry_iff (c : Bytes) (d : InkDimension) :
    P.run InkDimension.entry c = .ok d ↔ ∃ rest, c = Ink.dimension d rest ∧
      (-2 ^ 31 ≤ d.limitLower ∧ d.limitLower < 2 ^ 31) ∧
      (-2 ^ 31 ≤ d.limitUpper ∧ d.limitUpper < 2 ^ 31) := by
  constructor
  · intro h
    rw [run_iff] at h
    obtain ⟨r, h⟩ := h
    unfold InkDimension.entry at h
    rw [P.bind_eq_ok] at h
    obtain ⟨g, s1, h1, h⟩ := h
    rw [P.bind_eq_ok] at h
    obtain ⟨a, s2, h2, h⟩ := h
    rw [P.bind_eq_ok] at h
    obtain ⟨b, s3, h3, h⟩ := h
    cases h
    obtain ⟨rfl, ha⟩ := (getU32_iff _ _ _).1 h2
    obtain ⟨rfl, hb⟩ := (getU32_iff _ _ _).1 h3
    refine ⟨r, ?_, (i32_toI32 ha).2, (i32_toI32 hb).2⟩
    unfold Ink.dimension
    rw [(i32_toI32 ha).1, (i32_toI32 hb).1]
    exact Guid.parse_inv h1
  · rintro ⟨rest, rfl, h1, h2⟩
    exact entry_dimension h1 h2

theorem dimension_length (d : InkDimension) (r : Bytes) :
    (Ink.dimension d r).length = 24 + r.length := by
  unfold Ink.dimension
  simp
  omega

/-- The entries of the chunks, all chunks of 32 bytes. -/
theorem chunks_iff (k : Nat) : ∀ (data : Bytes) (ds : List InkDimension), 32 * k ≤ data.length →
    ((chunksOf 32 k data).mapM (P.run InkDimension.entry) = .ok ds ↔
      ∃ rests tail, data = (ds.zip rests).flatMap (fun e => Ink.dimension e.1 e.2) ++ tail ∧
        rests.length = ds.length ∧ ds.length = k ∧ (∀ r ∈ rests, r.length = 8) ∧
        ∀ d ∈ ds, (-2 ^ 31 ≤ d.limitLower ∧ d.limitLower < 2 ^ 31) ∧
          (-2 ^ 31 ≤ d.limitUpper ∧ d.limitUpper < 2 ^ 31)) := by
  induction k with
  | zero =>
    intro data ds _
    simp only [chunksOf, List.mapM_nil]
    constructor
    · intro h; cases h; exact ⟨[], data, rfl, rfl, rfl, by simp, by simp⟩
    · rintro ⟨rests, tail, _, _, hl, _⟩
      rw [List.length_eq_zero_iff] at hl
      subst hl; rfl
  | succ k ih =>
    intro data ds hlen
    have hd : 32 * k ≤ (data.drop 32).length := by rw [List.length_drop]; omega
    have ht : (data.take 32).length = 32 := by rw [List.length_take]; omega
    simp only [chunksOf, List.mapM_cons]
    constructor
    · intro h
      obtain ⟨d, h1, h⟩ := Res.bind_ok h
      obtain ⟨ds', h2, h⟩ := Res.bind_ok h
      cases h
      obtain ⟨r, hr, hb1, hb2⟩ := (entry_iff _ _).1 h1
      obtain ⟨rests, tail, e, hl1, hl2, h8, hb⟩ := (ih _ _ hd).1 h2
      refine ⟨r :: rests, tail, ?_, by simp [hl1], by simp [hl2], ?_, ?_⟩
      · rw [List.zip_cons_cons, List.flatMap_cons, ← hr, List.append_assoc, ← e]
        exact (List.take_append_drop 32 data).symm
      · intro x hx
        rcases List.mem_cons.1 hx with rfl | hx
        · rw [hr, dimension_length] at ht; omega
        · exact h8 x hx
      · intro x hx
        rcases List.mem_cons.1 hx with rfl | hx
        · exact ⟨hb1, hb2⟩
        · exact hb x hx
    · rintro ⟨rests, tail, rfl, hl1, hl2, h8, hb⟩
      match ds, rests, hl1, hl2 with
      | d :: ds, r :: rests, hl1, hl2 =>
        have hr : (Ink.dimension d r).length = 32 := by rw [dimension_length, h8 r (by simp)]
        rw [List.zip_cons_cons, List.flatMap_cons, List.append_assoc]
        simp only
        rw [List.take_append_of_le_length (by rw [hr]; exact Nat.le_refl _), List.take_of_length_le (by omega),
          List.drop_append_of_le_length (by omega), List.drop_of_length_le (by omega)]
        rw [List.zip_cons_cons, List.flatMap_cons, List.append_assoc, List.length_append, hr] at hlen
        have h1 := (entry_iff _ d).2 ⟨r, rfl, hb d (by simp)⟩
        rw [h1]
        have h2 := (ih ((ds.zip rests).flatMap (fun e => Ink.dimension e.1 e.2) ++ tail) ds
          (by omega)).2 ⟨rests, tail, rfl, by simpa using hl1, by simpa using hl2,
            fun x hx => h8 x (by simp [hx]), fun x hx => hb x (by simp [hx])⟩
        rw [List.nil_append]
        simp only [bind, Except.bind] at h2 ⊢
        rw [h2]
        rfl

theorem flat_dimensions (ds : List InkDimension) : ∀ rests : List Bytes, rests.length = ds.length →
    (∀ r ∈ rests, r.length = 8) →
    ((ds.zip rests).flatMap (fun e => Ink.dimension e.1 e.2)).length = 32 * ds.length := by
  induction ds with
  | nil => intro _ _ _; rfl
  | cons d ds ih =>
    intro rests hl h8
    cases rests with
    | nil => cases hl
    | cons r rests =>
      rw [List.zip_cons_cons, List.flatMap_cons, List.length_append, dimension_length,
        ih rests (by simpa using hl) fun x hx => h8 x (by simp [hx]), h8 r (by simp)]
      simp; omega

theorem dimensions_iff (data : Bytes) (ds : List InkDimension) :
    (chunksOf 32 (data.length / 32) data).mapM (P.run InkDimension.entry) = .ok ds ↔
      Value.dimensions (.vec data) ds := by
  rw [chunks_iff _ _ _ (by omega)]
  unfold Value.dimensions
  constructor
  · rintro ⟨rests, tail, h, hl1, hl2, h8, hb⟩
    refine ⟨rests, tail, congrArg _ h, hl1, h8, ?_, hb⟩
    have := congrArg List.length h
    rw [List.length_append, flat_dimensions ds rests hl1 h8] at this
    omega
  · rintro ⟨rests, tail, h, hl1, h8, ht, hb⟩
    cases h
    refine ⟨rests, tail, rfl, hl1, ?_, h8, hb⟩
    rw [List.length_append, flat_dimensions ds rests hl1 h8]
    omega

theorem parseDimensions_iff {t : PropertyType} {o : Object} {r : List InkDimension} :
    InkDimension.parse t o = .ok r ↔ Default o.props.properties t.code Value.dimensions [] r := by
  unfold InkDimension.parse
  rw [bind_ok_iff]
  constructor
  · rintro ⟨a, ha, h⟩
    rcases parseVec_iff.1 ha with ⟨hn, rfl⟩ | ⟨v, n, hv, rfl, rfl⟩
    · cases h; exact .inl ⟨hn, rfl⟩
    · exact .inr ⟨_, hv, (dimensions_iff n r).1 h⟩
  · rintro (⟨hn, rfl⟩ | ⟨v, hv, h⟩)
    · exact ⟨none, propAs_missing hn, rfl⟩
    · have h' := h
      obtain ⟨_, _, rfl, _⟩ := h'
      exact ⟨some _, propAs_some hv rfl, (dimensions_iff _ r).2 h⟩

/-! ### Characters and list formats -/

theorem unit_iff (n : Nat) (c : Char) :
    (∃ r, parseUtf16Char n = .ok r ∧ r = some c) ↔ ¬ Leading n ∧ ¬ Trailing n ∧ c = Char.ofNat n := by
  unfold parseUtf16Char
  simp only [decodeUtf16]
  by_cases h : isPlainUnit n = true
  · simp only [h, if_true]
    have := (plain_iff n).1 h
    constructor
    · rintro ⟨r, h1, h2⟩
      cases h1
      cases h2
      refine ⟨?_, ?_, rfl⟩
      · unfold Leading; omega
      · unfold Trailing; omega
    · rintro ⟨_, _, rfl⟩
      exact ⟨_, rfl, rfl⟩
  · simp only [h]
    constructor
    · rintro ⟨r, h1, _⟩; cases h1
    · rintro ⟨h1, h2, _⟩
      exfalso
      rw [plain_iff] at h
      unfold Leading at h1
      unfold Trailing at h2
      omega

theorem unit_some {n : Nat} {r : Option Char} (h : parseUtf16Char n = .ok r) : ∃ c, r = some c := by
  unfold parseUtf16Char at h
  simp only [decodeUtf16] at h
  split at h
  · next he => split at he <;> cases he; cases h; exact ⟨_, rfl⟩
  · cases h

theorem parseUnit_iff {t : PropertyType} {o : Object} {r : Option Char} :
    (∃ x, (Simple.parseU16 t o >>= optM parseUtf16Char) = .ok x ∧ x.join = r) ↔
      Optional o.props.properties t.code Value.unit r := by
  simp only [bind_ok_iff]
  constructor
  · rintro ⟨x, ⟨a, ha, hx⟩, rfl⟩
    rcases parseU16_iff.1 ha with ⟨hn, rfl⟩ | ⟨v, n, hv, rfl, rfl⟩
    · cases hx; exact .inl ⟨hn, rfl⟩
    · rcases optM_ok hx with ⟨h, _⟩ | ⟨a', b, ha', rfl, hb⟩
      · cases h
      · cases ha'
        obtain ⟨c, rfl⟩ := unit_some hb
        exact .inr ⟨_, c, hv, ⟨n, rfl, (unit_iff n c).1 ⟨_, hb, rfl⟩⟩, rfl⟩
  · rintro (⟨hn, rfl⟩ | ⟨v, c, hv, ⟨n, rfl, hc⟩, rfl⟩)
    · exact ⟨none, ⟨none, propAs_missing hn, rfl⟩, rfl⟩
    · obtain ⟨r, h1, rfl⟩ := (unit_iff n c).2 hc
      exact ⟨some (some c), ⟨some n, propAs_some hv rfl, by simp only [optM, h1]⟩, rfl⟩

theorem lossy_plain {u : Nat} (h : isPlainUnit u = true) (us : List Nat) :
    decodeUtf16Lossy (u :: us) = Char.ofNat u :: decodeUtf16Lossy us := by
  cases us with
  | nil => simp [decodeUtf16Lossy, h]
  | cons v us => simp [decodeUtf16Lossy, h]

theorem lossy_pair {u v : Nat} (hu : Leading u) (hv : Trailing v) (us : List Nat) :
    decodeUtf16Lossy (u :: v :: us) = pairChar u v :: decodeUtf16Lossy us := by
  have h0 : isPlainUnit u = false := by
    rw [Bool.eq_false_iff]; intro h; rw [plain_iff] at h; unfold Leading at hu; omega
  rw [decodeUtf16Lossy]
  simp [h0, (high_iff u).2 hu, (low_iff v).2 hv]

theorem lossy_unpaired {u : Nat} {us : List Nat}
    (h : Trailing u ∨ (Leading u ∧ ∀ v rest, us = v :: rest → ¬ Trailing v)) :
    decodeUtf16Lossy (u :: us) = replacementChar :: decodeUtf16Lossy us := by
  have h0 : isPlainUnit u = false := by
    rw [Bool.eq_false_iff]; intro h'; rw [plain_iff] at h'
    rcases h with h | ⟨h, _⟩
    · unfold Trailing at h; omega
    · unfold Leading at h; omega
  cases us with
  | nil => simp [decodeUtf16Lossy, h0]
  | cons v us =>
    have h1 : (isHighSurrogate u && isLowSurrogate v) = false := by
      rw [Bool.eq_false_iff]; intro h'
      rw [Bool.and_eq_true, high_iff, low_iff] at h'
      rcases h with h | ⟨_, h⟩
      · have := h'.1; unfold Trailing at h; unfold Leading at this; omega
      · exact h v us rfl h'.2
    rw [decodeUtf16Lossy]
    simp [h0, h1]

theorem lossy_units (c : Char) (us : List Nat) :
    decodeUtf16Lossy (utf16Units c ++ us) = c :: decodeUtf16Lossy us := by
  unfold utf16Units
  have hc := char_cases c
  split
  · rw [List.singleton_append, lossy_plain (by rw [plain_iff]; omega), Char.ofNat_toNat]
  · rw [List.cons_append, List.cons_append, List.nil_append, lossy_pair]
    · unfold pairChar
      rw [show 0x10000 + (0xD800 + (c.toNat - 0x10000) / 0x400 - 0xD800) * 0x400
        + (0xDC00 + (c.toNat - 0x10000) % 0x400 - 0xDC00) = c.toNat by omega, Char.ofNat_toNat]
    · unfold Leading; omega
    · unfold Trailing; omega

theorem lossy_sound {us : List Nat} {t : List Char} (h : Value.Lossy us t) :
    decodeUtf16Lossy us = t := by
  induction h with
  | nil => rfl
  | char c _ ih => rw [lossy_units, ih]
  | unpaired hu _ ih => rw [lossy_unpaired hu, ih]; rfl

theorem units_plain {u : Nat} (h : isPlainUnit u = true) (hu : u < 0x10000) :
    utf16Units (Char.ofNat u) = [u] := by
  have := (plain_iff u).1 h
  have hv : (Char.ofNat u).toNat = u := toNat_ofNat (by unfold Nat.isValidChar; omega)
  unfold utf16Units
  rw [hv, if_pos hu]

theorem units_pair {u v : Nat} (h1 : Leading u) (h2 : Trailing v) :
    utf16Units (pairChar u v) = [u, v] := by
  unfold Leading at h1
  unfold Trailing at h2
  have hv : (pairChar u v).toNat = 0x10000 + (u - 0xD800) * 0x400 + (v - 0xDC00) :=
    toNat_ofNat (by unfold Nat.isValidChar; omega)
  unfold utf16Units
  rw [hv, if_neg (by omega)]
  rw [show 0xD800 + (0x10000 + (u - 0xD800) * 0x400 + (v - 0xDC00) - 0x10000) / 0x400 = u by omega,
    show 0xDC00 + (0x10000 + (u - 0xD800) * 0x400 + (v - 0xDC00) - 0x10000) % 0x400 = v by omega]

theorem lossy_complete (n : Nat) : ∀ us : List Nat, us.length ≤ n → (∀ u ∈ us, u < 0x10000) →
    Value.Lossy us (decodeUtf16Lossy us) := by
  induction n with
  | zero =>
    intro us hn _
    rw [List.length_eq_zero_iff.1 (Nat.le_zero.1 hn)]
    exact .nil
  | succ n ih =>
    intro us hn hlt
    match us with
    | [] => exact .nil
    | u :: us =>
      have hu := hlt u (by simp)
      have hus : ∀ x ∈ us, x < 0x10000 := fun x hx => hlt x (by simp [hx])
      by_cases hp : isPlainUnit u = true
      · rw [lossy_plain hp]
        have := Value.Lossy.char (Char.ofNat u) (ih us (by simpa using hn) hus)
        rwa [units_plain hp hu] at this
      · by_cases hun : Trailing u ∨ (Leading u ∧ ∀ v rest, us = v :: rest → ¬ Trailing v)
        · rw [lossy_unpaired hun]
          exact .unpaired hun (ih us (by simpa using hn) hus)
        · have hl : Leading u := by
            rw [plain_iff] at hp
            by_cases hl : Leading u
            · exact hl
            · exfalso
              apply hun
              left
              unfold Leading at hl
              unfold Trailing
              omega
          match us with
          | [] => exact absurd (.inr ⟨hl, by simp⟩) hun
          | v :: us =>
            have hv : Trailing v := by
              by_cases hv : Trailing v
              · exact hv
              · exact absurd (.inr ⟨hl, fun v' rest h => by cases h; exact hv⟩) hun
            rw [lossy_pair hl hv]
            have := Value.Lossy.char (pairChar u v)
              (ih us (by simp at hn; omega) fun x hx => hus x (by simp [hx]))
            rwa [units_pair hl hv] at this

theorem parseListFormat_iff {t : PropertyType} {o : Object} {r : Option Text} :
    (Simple.parseVecU16 t o >>= optM parseListFormat) = .ok r ↔
      Optional o.props.properties t.code Value.listFormat r := by
  refine optional_conv (R := Value.u16s) (fun v b => ?_) (fun r => parseVecU16_iff)
  constructor
  · rintro ⟨n, us, h, hl⟩
    exact ⟨n :: us, h, congrArg _ (lossy_sound hl)⟩
  · rintro ⟨ns, h, hf⟩
    match ns with
    | [] => cases hf
    | n :: us =>
      cases hf
      refine ⟨n, us, h, lossy_complete _ us (Nat.le_refl _) ?_⟩
      obtain ⟨_, _, _, hb⟩ := h
      exact fun u hu => hb u (by simp [hu])

/-! ### Boxes and columns -/

theorem four_iff (ns : List Nat) (r : Option (Nat × Nat × Nat × Nat)) :
    four ns = r ↔ (∃ a b c d, ns = [a, b, c, d] ∧ r = some (a, b, c, d)) ∨
      (ns.length ≠ 4 ∧ r = none) := by
  constructor
  · rintro rfl
    match ns with
    | [a, b, c, d] => exact .inl ⟨a, b, c, d, rfl, rfl⟩
    | [] => exact .inr ⟨by simp, rfl⟩
    | [_] => exact .inr ⟨by simp, rfl⟩
    | [_, _] => exact .inr ⟨by simp, rfl⟩
    | [_, _, _] => exact .inr ⟨by simp, rfl⟩
    | _ :: _ :: _ :: _ :: _ :: _ => exact .inr ⟨by simp, rfl⟩
  · rintro (⟨a, b, c, d, rfl, rfl⟩ | ⟨h, rfl⟩)
    · rfl
    · match ns with
      | [a, b, c, d] => simp at h
      | [] => rfl
      | [_] => rfl
      | [_, _] => rfl
      | [_, _, _] => rfl
      | _ :: _ :: _ :: _ :: _ :: _ => rfl

theorem parseBox_iff {t : PropertyType} {o : Object} {r : Option (Nat × Nat × Nat × Nat)} :
    (∃ x, Simple.parseVecU32 t o = .ok x ∧ x.bind four = r) ↔
      Default o.props.properties t.code Value.box none r := by
  simp only [parseVecU32_iff]
  constructor
  · rintro ⟨x, ⟨hn, rfl⟩ | ⟨v, ns, hv, hns, rfl⟩, rfl⟩
    · exact .inl ⟨hn, rfl⟩
    · exact .inr ⟨v, hv, ns, hns, (four_iff ns _).1 rfl⟩
  · rintro (⟨hn, rfl⟩ | ⟨v, hv, ns, hns, h⟩)
    · exact ⟨none, .inl ⟨hn, rfl⟩, rfl⟩
    · exact ⟨some ns, .inr ⟨v, ns, hv, hns, rfl⟩, (four_iff ns r).2 h⟩

/-- `getD` of an optional property. -/
theorem default_iff {R : Reading α} {ps : PropertySet} {w : Nat} {d a : α} :
    Default ps w R d a ↔ ∃ r, Optional ps w R r ∧ r.getD d = a := by
  constructor
  · rintro (⟨hn, rfl⟩ | ⟨v, hv, h⟩)
    · exact ⟨none, .inl ⟨hn, rfl⟩, rfl⟩
    · exact ⟨some a, .inr ⟨v, a, hv, h, rfl⟩, rfl⟩
  · rintro ⟨r, ⟨hn, rfl⟩ | ⟨v, a', hv, h, rfl⟩, rfl⟩
    · exact .inl ⟨hn, rfl⟩
    · exact .inr ⟨v, hv, h⟩

theorem required_iff {R : Reading α} {ps : PropertySet} {w : Nat} {a : α} :
    Optional ps w R (some a) ↔ Required ps w R a := by
  unfold Optional Required
  constructor
  · rintro (⟨_, h⟩ | ⟨v, a', hv, h, he⟩)
    · cases h
    · cases he; exact ⟨v, hv, h⟩
  · rintro ⟨v, hv, h⟩
    exact .inr ⟨v, a, hv, h, rfl⟩

theorem parseLocks_iff {t : PropertyType} {o : Object} {r : Bytes} :
    (∃ x, Simple.parseVec t o = .ok x ∧ (x.map (List.drop 1)).getD [] = r) ↔
      Default o.props.properties t.code Value.columnLocks [] r := by
  simp only [parseVec_iff]
  constructor
  · rintro ⟨x, ⟨hn, rfl⟩ | ⟨v, d, hv, hd, rfl⟩, rfl⟩
    · exact .inl ⟨hn, rfl⟩
    · exact .inr ⟨v, hv, d, hd, by simp⟩
  · rintro (⟨hn, rfl⟩ | ⟨v, hv, d, hd, rfl⟩)
    · exact ⟨none, .inl ⟨hn, rfl⟩, rfl⟩
    · exact ⟨some d, .inr ⟨v, d, hv, hd, rfl⟩, by simp⟩

theorem parseWidths_iff {t : PropertyType} {o : Object} {r : List F32} :
    (∃ x, Simple.parseVec t o = .ok x ∧
      (x.map fun value => chunks4 (value.drop 1)).getD [] = r) ↔
      Default o.props.properties t.code Value.columnWidths [] r := by
  simp only [parseVec_iff]
  constructor
  · rintro ⟨x, ⟨hn, rfl⟩ | ⟨v, d, hv, hd, rfl⟩, rfl⟩
    · exact .inl ⟨hn, rfl⟩
    · exact .inr ⟨v, hv, d, hd, (u32s_iff _ _).2 (by simp)⟩
  · rintro (⟨hn, rfl⟩ | ⟨v, hv, d, hd, h⟩)
    · exact ⟨none, .inl ⟨hn, rfl⟩, rfl⟩
    · exact ⟨some d, .inr ⟨v, d, hv, hd, rfl⟩, by simpa using (u32s_iff _ _).1 h⟩

theorem mathType_iff (n : Nat) (t : MathObjectType) :
    MathObjectType.fromU32 n = some t ↔ (n, t) ∈ Value.mathTypes := by
  constructor
  · intro h
    unfold MathObjectType.fromU32 at h
    split at h <;> cases h <;> decide
  · intro h
    simp only [Value.mathTypes, List.mem_cons, Prod.mk.injEq, List.not_mem_nil, or_false] at h
    rcases h with ⟨rfl, rfl⟩ | ⟨rfl, rfl⟩ | ⟨rfl, rfl⟩ | ⟨rfl, rfl⟩ | ⟨rfl, rfl⟩ | ⟨rfl, rfl⟩ | ⟨rfl, rfl⟩ |
      ⟨rfl, rfl⟩ | ⟨rfl, rfl⟩ | ⟨rfl, rfl⟩ | ⟨rfl, rfl⟩ | ⟨rfl, rfl⟩ | ⟨rfl, rfl⟩ | ⟨rfl, rfl⟩ | ⟨rfl, rfl⟩ |
      ⟨rfl, rfl⟩ | ⟨rfl, rfl⟩ | ⟨rfl, rfl⟩ | ⟨rfl, rfl⟩ | ⟨rfl, rfl⟩ | ⟨rfl, rfl⟩ | ⟨rfl, rfl⟩ | ⟨rfl, rfl⟩ |
      ⟨rfl, rfl⟩ | ⟨rfl, rfl⟩ | ⟨rfl, rfl⟩ <;> rfl

end OneNote
