/-
Every property reader returns what the stored value reads as.
-/
import Verif.Lemmas.Node
import Verif.Lemmas.NoteTag
import Verif.Lemmas.Utf16
import Verif.Spec.Fields
import Verif.Props.C31
import Verif.Props.C39

namespace OneNote

open Spec Spec.Fields

theorem propAs_iff {to : PropertyValue → Option α} {R : Reading α} (hR : ∀ v a, to v = some a ↔ R v a)
    {t : PropertyType} {o : Object} {r : Option α} :
    propAs to t o = .ok r ↔ Optional o.props.properties t.code R r := by
  constructor
  · intro h
    rcases propAs_ok h with ⟨hn, hr⟩ | ⟨v, a, hv, ha, hr⟩
    · exact .inl ⟨hn, hr⟩
    · exact .inr ⟨v, a, hv, (hR v a).1 ha, hr⟩
  · rintro (⟨hn, rfl⟩ | ⟨v, a, hv, ha, rfl⟩)
    · exact propAs_missing hn
    · exact propAs_some hv ((hR v a).2 ha)

theorem bind_ok_iff {x : Res α} {f : α → Res β} {b : β} :
    (x >>= f) = .ok b ↔ ∃ a, x = .ok a ∧ f a = .ok b :=
  ⟨Res.bind_ok, fun ⟨a, h1, h2⟩ => by rw [h1]; exact h2⟩

/-- A reader followed by a conversion of the value. -/
theorem optional_conv {R : Reading α} {R' : Reading β} {f : α → Res β}
    (h : ∀ v b, R' v b ↔ ∃ a, R v a ∧ f a = .ok b) {x : Res (Option α)} {ps : PropertySet} {w : Nat}
    (hx : ∀ r, x = .ok r ↔ Optional ps w R r) {r : Option β} :
    (x >>= optM f) = .ok r ↔ Optional ps w R' r := by
  rw [bind_ok_iff]
  constructor
  · rintro ⟨a, ha, hf⟩
    rcases (hx a).1 ha with ⟨hn, rfl⟩ | ⟨v, a, hv, hr, rfl⟩
    · cases hf; exact .inl ⟨hn, rfl⟩
    · rcases optM_ok hf with ⟨h, _⟩ | ⟨a', b, ha', rfl, hb⟩
      · cases h
      · cases ha'
        exact .inr ⟨v, b, hv, (h v b).2 ⟨a, hr, hb⟩, rfl⟩
  · rintro (⟨hn, rfl⟩ | ⟨v, b, hv, hr, rfl⟩)
    · exact ⟨none, (hx none).2 (.inl ⟨hn, rfl⟩), rfl⟩
    · obtain ⟨a, ha, hf⟩ := (h v b).1 hr
      refine ⟨some a, (hx _).2 (.inr ⟨v, a, hv, ha, rfl⟩), ?_⟩
      simp only [optM, hf]

/-- A reader followed by a total conversion of the value. -/
theorem optional_map {R : Reading α} {R' : Reading β} {f : α → β}
    (h : ∀ v b, R' v b ↔ ∃ a, R v a ∧ f a = b) {x : Res (Option α)} {ps : PropertySet} {w : Nat}
    (hx : ∀ r, x = .ok r ↔ Optional ps w R r) {r : Option β} :
    (x >>= fun d => pure (d.map f)) = .ok r ↔ Optional ps w R' r := by
  have : (x >>= fun d => pure (d.map f)) = (x >>= optM fun a => .ok (f a)) := by
    congr 1
    funext d
    cases d <;> rfl
  rw [this]
  refine optional_conv (fun v b => (h v b).trans ?_) hx
  simp

/-! ### Plain values -/

theorem parseBool_iff {t : PropertyType} {o : Object} {r : Option Bool} :
    Simple.parseBool t o = .ok r ↔ Optional o.props.properties t.code Value.bool r :=
  propAs_iff fun v a => by cases v <;> simp [PropertyValue.toBool, Value.bool]

theorem toU8_iff (v : PropertyValue) (a : Nat) : v.toU8 = some a ↔ Value.u8 v a := by
  cases v <;> simp [PropertyValue.toU8, Value.u8]
theorem toU16_iff (v : PropertyValue) (a : Nat) : v.toU16 = some a ↔ Value.u16 v a := by
  cases v <;> simp [PropertyValue.toU16, Value.u16]
theorem toU32_iff (v : PropertyValue) (a : Nat) : v.toU32 = some a ↔ Value.u32 v a := by
  cases v <;> simp [PropertyValue.toU32, Value.u32]
theorem toU64_iff (v : PropertyValue) (a : Nat) : v.toU64 = some a ↔ Value.u64 v a := by
  cases v <;> simp [PropertyValue.toU64, Value.u64]
theorem toVec_iff (v : PropertyValue) (a : Bytes) : v.toVec = some a ↔ Value.bytes v a := by
  cases v <;> simp [PropertyValue.toVec, Value.bytes]

theorem parseU8_iff {t : PropertyType} {o : Object} {r : Option Nat} :
    Simple.parseU8 t o = .ok r ↔ Optional o.props.properties t.code Value.u8 r := propAs_iff toU8_iff
theorem parseU16_iff {t : PropertyType} {o : Object} {r : Option Nat} :
    Simple.parseU16 t o = .ok r ↔ Optional o.props.properties t.code Value.u16 r := propAs_iff toU16_iff
theorem parseU32_iff {t : PropertyType} {o : Object} {r : Option Nat} :
    Simple.parseU32 t o = .ok r ↔ Optional o.props.properties t.code Value.u32 r := propAs_iff toU32_iff
theorem parseF32_iff {t : PropertyType} {o : Object} {r : Option F32} :
    Simple.parseF32 t o = .ok r ↔ Optional o.props.properties t.code Value.f32 r := propAs_iff toU32_iff
theorem parseVec_iff {t : PropertyType} {o : Object} {r : Option Bytes} :
    Simple.parseVec t o = .ok r ↔ Optional o.props.properties t.code Value.bytes r := propAs_iff toVec_iff
theorem parseTime_iff {t : PropertyType} {o : Object} {r : Option Nat} :
    Time.parse t o = .ok r ↔ Optional o.props.properties t.code Value.u32 r := propAs_iff toU32_iff
theorem parseTimestamp_iff {t : PropertyType} {o : Object} {r : Option Nat} :
    Timestamp.parse t o = .ok r ↔ Optional o.props.properties t.code Value.u64 r := propAs_iff toU64_iff

theorem parseI32_iff {t : PropertyType} {o : Object} {r : Option Int} :
    (Simple.parseU32 t o >>= fun d => pure (d.map toI32)) = .ok r ↔
      Optional o.props.properties t.code Value.i32 r := by
  refine optional_map (fun v b => ?_) (fun r => parseU32_iff)
  simp only [Value.i32, Value.u32, toI32]
  exact exists_congr fun n => and_congr_right fun _ => ⟨fun h => h.symm, fun h => h.symm⟩

/-! ### Text -/

theorem utf16_iff (d : Bytes) (t : List Char) :
    utf16ToString d = .ok t ↔ Value.text (.vec d) t := by
  rw [(C31_decode_iff d).1 t]
  simp only [Value.text, PropertyValue.vec.injEq]
  constructor
  · rintro ⟨h1, tail, h2, h3⟩; exact ⟨tail, h2, h1, h3⟩
  · rintro ⟨tail, h2, h1, h3⟩; exact ⟨h1, tail, h2, h3⟩

theorem text_vec {v : PropertyValue} {t : List Char} :
    Value.text v t ↔ ∃ d, Value.bytes v d ∧ utf16ToString d = .ok t := by
  constructor
  · rintro ⟨tail, rfl, h1, h2⟩
    exact ⟨_, rfl, (utf16_iff _ _).2 ⟨tail, rfl, h1, h2⟩⟩
  · rintro ⟨d, rfl, h⟩
    exact (utf16_iff _ _).1 h

theorem parseString_iff {t : PropertyType} {o : Object} {r : Option Text} :
    Simple.parseString t o = .ok r ↔ Optional o.props.properties t.code Value.text r := by
  have e : Simple.parseString t o = (Simple.parseVec t o >>= optM fun d =>
      match utf16ToString d with
      | .ok text => .ok text
      | .error _ => .error .malformedOneNoteFile) := by
    unfold Simple.parseString Simple.parseVec
    congr 1
    funext d
    cases d with
    | none => rfl
    | some d =>
      simp only [optM]
      cases utf16ToString d <;> rfl
  rw [e]
  refine optional_conv (fun v b => ?_) (fun r => parseVec_iff)
  rw [text_vec]
  refine exists_congr fun d => and_congr_right fun _ => ?_
  cases utf16ToString d with
  | ok t => simp
  | error e => simp

theorem parseAscii_iff {t : PropertyType} {o : Object} {r : Option Text} :
    Simple.parseAscii t o = .ok r ↔ Optional o.props.properties t.code Value.latin1 r := by
  refine optional_map (fun v b => ?_) (fun r => parseVec_iff)
  simp only [Value.latin1, Value.bytes, decodeLatin1]
  exact exists_congr fun n => and_congr_right fun _ => ⟨fun h => h.symm, fun h => h.symm⟩

theorem parseAuthor_iff {o : Object} {r : Option Text} :
    Author.parse o = .ok r ↔ Optional o.props.properties 0x1C001D75 Value.text r := parseString_iff

/-! ### Lists of numbers -/

theorem u16s_iff (d : Bytes) (ns : List Nat) : Value.u16s (.vec d) ns ↔ chunks2 d = ns := by
  constructor
  · rintro ⟨tail, h, hl, hb⟩
    cases h
    have := chunks2_units ns hb tail
    unfold unitBytes at this
    rw [this, chunks2_short (by omega), List.append_nil]
  · rintro rfl
    obtain ⟨tail, hd, hl⟩ := chunks2_split d
    exact ⟨tail, congrArg _ hd, by omega, fun n hn => chunks2_lt d n hn⟩

theorem chunks4_split : ∀ (d : Bytes), ∃ tail, d = (chunks4 d).flatMap (leBytes 4) ++ tail ∧
    tail.length < 4
  | a :: b :: c :: e :: rest => by
    obtain ⟨tail, h, hl⟩ := chunks4_split rest
    refine ⟨tail, ?_, hl⟩
    rw [chunks4, List.flatMap_cons, List.append_assoc, ← h]
    rw [show leBytes 4 (leNat [a, b, c, e]) = [a, b, c, e] from leBytes_leNat [a, b, c, e]]
    rfl
  | [] => ⟨[], rfl, by simp⟩
  | [a] => ⟨[a], rfl, by simp⟩
  | [a, b] => ⟨[a, b], rfl, by simp⟩
  | [a, b, c] => ⟨[a, b, c], rfl, by simp⟩

theorem chunks4_lt : ∀ (d : Bytes), ∀ n ∈ chunks4 d, n < 2 ^ 32
  | a :: b :: c :: e :: rest => by
    intro n hn
    rw [chunks4, List.mem_cons] at hn
    rcases hn with rfl | hn
    · have := a.toNat_lt
      have := b.toNat_lt
      have := c.toNat_lt
      have := e.toNat_lt
      simp only [leNat]
      omega
    · exact chunks4_lt rest n hn
  | [] => by simp [chunks4]
  | [a] => by simp [chunks4]
  | [a, b] => by simp [chunks4]
  | [a, b, c] => by simp [chunks4]

theorem chunks4_numbers : ∀ (ns : List Nat), (∀ n ∈ ns, n < 2 ^ 32) → ∀ tail : Bytes,
    tail.length < 4 → chunks4 (ns.flatMap (leBytes 4) ++ tail) = ns
  | [], _, tail, h => by
    match tail, h with
    | [], _ => rfl
    | [_], _ => rfl
    | [_, _], _ => rfl
    | [_, _, _], _ => rfl
  | n :: ns, hb, tail, h => by
    have ih := chunks4_numbers ns (fun m hm => hb m (List.mem_cons_of_mem _ hm)) tail h
    rw [List.flatMap_cons, List.append_assoc]
    have hn : n < 2 ^ 32 := hb n (List.mem_cons_self ..)
    have hl := leNat_leBytes 4 n
    rw [Nat.mod_eq_of_lt (by omega)] at hl
    change leNat (leBytes 4 n) :: chunks4 (ns.flatMap (leBytes 4) ++ tail) = _
    rw [ih, hl]

theorem u32s_iff (d : Bytes) (ns : List Nat) : Value.u32s (.vec d) ns ↔ chunks4 d = ns := by
  constructor
  · rintro ⟨tail, h, hl, hb⟩
    cases h
    exact chunks4_numbers ns hb tail hl
  · rintro rfl
    obtain ⟨tail, hd, hl⟩ := chunks4_split d
    exact ⟨tail, congrArg _ hd, hl, chunks4_lt d⟩

theorem u16s_bytes {v : PropertyValue} {ns : List Nat} :
    Value.u16s v ns ↔ ∃ d, Value.bytes v d ∧ chunks2 d = ns := by
  constructor
  · rintro ⟨tail, rfl, h⟩; exact ⟨_, rfl, (u16s_iff _ _).1 ⟨tail, rfl, h⟩⟩
  · rintro ⟨d, rfl, h⟩; exact (u16s_iff _ _).2 h

theorem u32s_bytes {v : PropertyValue} {ns : List Nat} :
    Value.u32s v ns ↔ ∃ d, Value.bytes v d ∧ chunks4 d = ns := by
  constructor
  · rintro ⟨tail, rfl, h⟩; exact ⟨_, rfl, (u32s_iff _ _).1 ⟨tail, rfl, h⟩⟩
  · rintro ⟨d, rfl, h⟩; exact (u32s_iff _ _).2 h

theorem parseVecU16_iff {t : PropertyType} {o : Object} {r : Option (List Nat)} :
    Simple.parseVecU16 t o = .ok r ↔ Optional o.props.properties t.code Value.u16s r :=
  optional_map (R' := Value.u16s) (fun _ _ => u16s_bytes) (fun _ => parseVec_iff)

theorem parseVecU32_iff {t : PropertyType} {o : Object} {r : Option (List Nat)} :
    Simple.parseVecU32 t o = .ok r ↔ Optional o.props.properties t.code Value.u32s r :=
  optional_map (R' := Value.u32s) (fun _ _ => u32s_bytes) (fun _ => parseVec_iff)

end OneNote
