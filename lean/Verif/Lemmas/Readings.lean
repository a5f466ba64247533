/-
Every conversion of a property's value is what the specification says the value means.
-/
import Verif.Lemmas.Fields
import Verif.Lemmas.MultiByte
import Verif.Lemmas.Ink
import Verif.Props.C03
import Verif.Props.C29

namespace OneNote

open Spec Spec.Fields

/-! ### Colours, layouts and codes -/

theorem parseColor_iff {t : PropertyType} {o : Object} {r : Option Color} :
    Color.parse t o = .ok r ↔ Optional o.props.properties t.code Value.color r := by
  refine optional_map (R := Value.u32) (fun v b => ?_) (fun r => parseU32_iff)
  refine exists_congr fun n => and_congr_right fun _ => ?_
  obtain ⟨a, r, g, b⟩ := b
  simp only [Color.ofValue, leByte_eq, Color.mk.injEq]
  constructor
  · rintro ⟨h1, h2, h3, h4⟩; simp_all
  · rintro ⟨h1, h2, h3, h4⟩; simp_all

theorem parseColorRef_iff {t : PropertyType} {o : Object} {r : Option ColorRef} :
    ColorRef.parse t o = .ok r ↔ Optional o.props.properties t.code Value.colorRef r := by
  refine optional_conv (R := Value.u32) (fun v b => ?_) (fun r => parseU32_iff)
  refine exists_congr fun n => and_congr_right fun _ => ?_
  rw [ColorRef.ofValue_eq]
  simp only [leByte_eq]
  constructor
  · rintro (⟨h, rfl⟩ | ⟨h, rfl⟩)
    · simp [h]
    · simp [h]
  · intro h
    split at h
    · cases h; exact .inl ⟨by assumption, rfl⟩
    · split at h
      · cases h; exact .inr ⟨by assumption, by simp⟩
      · cases h

theorem charset_iff (n : Nat) (c : Charset) : Charset.ofValue n = .ok c ↔ (n, c) ∈ Value.charsets := by
  constructor
  · intro h
    unfold Charset.ofValue at h
    split at h <;> cases h <;> decide
  · intro h
    simp only [Value.charsets, List.mem_cons, Prod.mk.injEq, List.not_mem_nil, or_false] at h
    rcases h with ⟨rfl, rfl⟩ | ⟨rfl, rfl⟩ | ⟨rfl, rfl⟩ | ⟨rfl, rfl⟩ | ⟨rfl, rfl⟩ | ⟨rfl, rfl⟩ | ⟨rfl, rfl⟩ |
      ⟨rfl, rfl⟩ | ⟨rfl, rfl⟩ | ⟨rfl, rfl⟩ | ⟨rfl, rfl⟩ | ⟨rfl, rfl⟩ | ⟨rfl, rfl⟩ | ⟨rfl, rfl⟩ | ⟨rfl, rfl⟩ |
      ⟨rfl, rfl⟩ | ⟨rfl, rfl⟩ | ⟨rfl, rfl⟩ | ⟨rfl, rfl⟩ <;> rfl

theorem parseCharset_iff {t : PropertyType} {o : Object} {r : Option Charset} :
    Charset.parse t o = .ok r ↔ Optional o.props.properties t.code Value.charset r := by
  refine optional_conv (R := Value.u8) (fun v b => ?_) (fun r => parseU8_iff)
  exact exists_congr fun n => and_congr_right fun _ => (charset_iff n b).symm

theorem pageSize_iff (n : Nat) (s : PageSize) : PageSize.ofValue n = .ok s ↔ Value.pageSizes[n]? = some s := by
  match n with
  | 0 | 1 | 2 | 3 | 4 | 5 | 6 | 7 | 8 | 9 | 10 | 11 | 12 | 13 | 14 | 15 =>
    simp [PageSize.ofValue, Value.pageSizes]
  | n + 16 =>
    simp [PageSize.ofValue, Value.pageSizes]

theorem parsePageSize_iff {t : PropertyType} {o : Object} {r : Option PageSize} :
    PageSize.parse t o = .ok r ↔ Optional o.props.properties t.code Value.pageSize r := by
  refine optional_conv (R := Value.u8) (fun v b => ?_) (fun r => parseU8_iff)
  exact exists_congr fun n => and_congr_right fun _ => (pageSize_iff n b).symm

theorem parseParagraphAlignment_iff {o : Object} {r : Option ParagraphAlignment} :
    ParagraphAlignment.parse o = .ok r ↔
      Optional o.props.properties PropertyType.paragraphAlignment.code Value.paragraphAlignment r := by
  refine optional_map (R := Value.u8) (fun v b => ?_) (fun r => parseU8_iff)
  refine exists_congr fun n => and_congr_right fun _ => ?_
  match n with
  | 0 | 1 | 2 => simp [ParagraphAlignment.ofValue, eq_comm]
  | n + 3 =>
    simp only [ParagraphAlignment.ofValue]
    rw [if_neg (by omega), if_neg (by omega), if_neg (by omega)]
    exact eq_comm

theorem fileType_iff (n : Nat) (t : FileType) :
    FileType.ofValue n = .ok t ↔ (n = 1 ∧ t = .audio) ∨ (n = 2 ∧ t = .video) := by
  match n with
  | 0 | 1 | 2 => simp [FileType.ofValue, eq_comm]
  | n + 3 => simp [FileType.ofValue]

theorem parseFileType_iff {o : Object} {r : FileType} :
    FileType.parse o = .ok r ↔
      Default o.props.properties PropertyType.iRecordMedia.code Value.fileType .unknown r := by
  unfold FileType.parse
  rw [bind_ok_iff]
  constructor
  · rintro ⟨a, ha, h⟩
    rcases parseU32_iff.1 ha with ⟨hn, rfl⟩ | ⟨v, n, hv, rfl, rfl⟩
    · cases h; exact .inl ⟨hn, rfl⟩
    · refine .inr ⟨_, hv, ?_⟩
      rcases (fileType_iff n r).1 h with ⟨rfl, rfl⟩ | ⟨rfl, rfl⟩
      · exact .inl ⟨rfl, rfl⟩
      · exact .inr ⟨rfl, rfl⟩
  · rintro (⟨hn, rfl⟩ | ⟨v, hv, ⟨rfl, rfl⟩ | ⟨rfl, rfl⟩⟩)
    · exact ⟨none, propAs_missing hn, rfl⟩
    · exact ⟨some 1, propAs_some hv rfl, rfl⟩
    · exact ⟨some 2, propAs_some hv rfl, rfl⟩

theorem layout_iff (n : Nat) (r : Option LayoutAlignment) :
    LayoutAlignment.ofValue n = .ok r ↔ Value.layout (.u32 n) r := by
  unfold LayoutAlignment.ofValue Value.layout
  simp only [bit_eq, show n &&& 0x7 = n % 8 from Nat.and_two_pow_sub_one_eq_mod n 3,
    PropertyValue.u32.injEq, exists_eq_left']
  have b31 : n / 2 ^ 31 % 2 = 0 ∨ n / 2 ^ 31 % 2 = 1 := Nat.mod_two_eq_zero_or_one _
  have b3 : n / 2 ^ 3 % 2 = 0 ∨ n / 2 ^ 3 % 2 = 1 := Nat.mod_two_eq_zero_or_one _
  have b16 : n / 2 ^ 16 % 2 = 0 ∨ n / 2 ^ 16 % 2 = 1 := Nat.mod_two_eq_zero_or_one _
  have b19 : n / 2 ^ 19 % 2 = 0 ∨ n / 2 ^ 19 % 2 = 1 := Nat.mod_two_eq_zero_or_one _
  have b0 : n % 8 < 8 := Nat.mod_lt _ (by omega)
  generalize n / 2 ^ 31 % 2 = a31 at *
  generalize n / 2 ^ 3 % 2 = a3 at *
  generalize n / 2 ^ 16 % 2 = a16 at *
  generalize n / 2 ^ 19 % 2 = a19 at *
  generalize n % 8 = a at *
  rcases b31 with rfl | rfl
  · rw [if_neg (by simp)]
    have hh : ∀ h, HorizontalAlignment.parse a = .ok h ↔ horizontals[a]? = some h := by
      intro h
      match a, b0 with
      | 0, _ | 1, _ | 2, _ | 3, _ | 4, _ | 5, _ | 6, _ | 7, _ =>
        simp [HorizontalAlignment.parse, horizontals]
    rw [bind_ok_iff]
    constructor
    · rintro ⟨h, h1, h2⟩
      refine .inr ⟨rfl, h, (hh h).1 h1, ?_⟩
      rcases b3 with rfl | rfl <;> rcases b16 with rfl | rfl <;> rcases b19 with rfl | rfl <;>
        cases h2 <;> rfl
    · rintro (⟨h, _⟩ | ⟨_, h, h1, rfl⟩)
      · cases h
      · refine ⟨h, (hh h).2 h1, ?_⟩
        rcases b3 with rfl | rfl <;> rcases b16 with rfl | rfl <;> rcases b19 with rfl | rfl <;> rfl
  · rw [if_pos (by simp)]
    constructor
    · intro h; cases h; exact .inl ⟨rfl, rfl⟩
    · rintro (⟨_, rfl⟩ | ⟨h, _⟩)
      · rfl
      · cases h

theorem parseLayout_iff {t : PropertyType} {o : Object} {r : Option LayoutAlignment} :
    LayoutAlignment.parse t o = .ok r ↔ Default o.props.properties t.code Value.layout none r := by
  unfold LayoutAlignment.parse
  rw [bind_ok_iff]
  constructor
  · rintro ⟨a, ha, h⟩
    rcases parseU32_iff.1 ha with ⟨hn, rfl⟩ | ⟨v, n, hv, rfl, rfl⟩
    · cases h; exact .inl ⟨hn, rfl⟩
    · exact .inr ⟨_, hv, (layout_iff n r).1 h⟩
  · rintro (⟨hn, rfl⟩ | ⟨v, hv, h⟩)
    · exact ⟨none, propAs_missing hn, rfl⟩
    · obtain ⟨n, rfl, h'⟩ := h
      exact ⟨some n, propAs_some hv rfl, (layout_iff n r).2 ⟨n, rfl, h'⟩⟩

/-! ### Note tags -/

theorem parseShape_iff {t : PropertyType} {o : Object} {r : Option NoteTagShape} :
    (Simple.parseU16 t o >>= optM NoteTagShape.parse) = .ok r ↔
      Optional o.props.properties t.code Value.shape r := by
  refine optional_conv (R := Value.u16) (fun v b => ?_) (fun r => parseU16_iff)
  simp only [(C39_shape _).1, Value.u16, Value.shape]
  constructor
  · rintro rfl; exact ⟨_, rfl, rfl⟩
  · rintro ⟨n, rfl, rfl⟩; rfl

theorem itemType_iff (v : Nat) (t : ActionItemType) :
    ActionItemType.ofValue v = t ↔ itemTypeCode t v := by
  unfold ActionItemType.ofValue
  by_cases h99 : v ≤ 99
  · rw [if_pos h99]
    cases t <;> simp only [itemTypeCode, reduceCtorEq, false_iff, ActionItemType.numeric.injEq] <;>
      omega
  · rw [if_neg h99]
    have hv : v = 100 ∨ v = 101 ∨ v = 102 ∨ v = 103 ∨ v = 104 ∨ v = 105 ∨
        ∃ w, v = w + 106 := by
      by_cases h : v ≤ 105
      · omega
      · exact .inr (.inr (.inr (.inr (.inr (.inr ⟨v - 106, by omega⟩)))))
    rcases hv with rfl | rfl | rfl | rfl | rfl | rfl | ⟨w, rfl⟩ <;>
      cases t <;> simp [itemTypeCode] <;> omega

theorem parseItemType_iff {o : Object} {r : Option ActionItemType} :
    ActionItemType.parse o = .ok r ↔
      Optional o.props.properties PropertyType.actionItemType.code Value.itemType r := by
  refine optional_map (R := Value.u16) (fun v b => ?_) (fun r => parseU16_iff)
  exact exists_congr fun n => and_congr_right fun _ => (itemType_iff n b).symm

theorem bitSet_toNat (n i : Nat) : (bitSet n i).toNat = n / 2 ^ i % 2 := by
  unfold bitSet
  rw [bit_eq]
  rcases Nat.mod_two_eq_zero_or_one (n / 2 ^ i) with h | h <;> simp [h]

theorem half_step (n i : Nat) : n / 2 ^ i = n / 2 ^ i % 2 + 2 * (n / 2 ^ (i + 1)) := by
  rw [Nat.pow_succ, ← Nat.div_div_eq_div_mul]
  omega

theorem itemStatus_word (n : Nat) :
    n = itemStatusWord (ActionItemStatus.ofValue n) (n / 2 ^ 3) := by
  simp only [itemStatusWord, ActionItemStatus.ofValue, bitSet_toNat]
  have h0 := half_step n 0
  have h1 := half_step n 1
  have h2 := half_step n 2
  simp only [Nat.pow_zero, Nat.div_one, Nat.zero_add, Nat.reduceAdd] at h0 h1 h2 ⊢
  omega

theorem itemStatus_iff (n : Nat) (s : ActionItemStatus) :
    (∃ unused, n = itemStatusWord s unused) ↔ ActionItemStatus.ofValue n = s := by
  constructor
  · rintro ⟨u, rfl⟩
    obtain ⟨a, b, c⟩ := s
    have nested : itemStatusWord ⟨a, b, c⟩ u = a.toNat + 2 * (b.toNat + 2 * (c.toNat + 2 * u)) := by
      simp only [itemStatusWord]; omega
    rw [nested]
    simp only [ActionItemStatus.ofValue, bitSet_succ, bitSet_zero]
  · rintro rfl; exact ⟨_, itemStatus_word n⟩

theorem parseItemStatus_iff {o : Object} {r : Option ActionItemStatus} :
    ActionItemStatus.parse o = .ok r ↔
      Optional o.props.properties PropertyType.actionItemStatus.code Value.itemStatus r := by
  refine optional_map (R := Value.u16) (fun v b => ?_) (fun r => parseU16_iff)
  simp only [← itemStatus_iff, Value.itemStatus, Value.u16]
  constructor
  · rintro ⟨u, rfl⟩; exact ⟨_, rfl, u, rfl⟩
  · rintro ⟨_, rfl, u, rfl⟩; exact ⟨u, rfl⟩

theorem definitionStatus_word (n : Nat) :
    n = definitionStatusWord (NoteTagPropertyStatus.ofValue n) (bitSet n 4) (bitSet n 5) (n / 2 ^ 12) := by
  simp only [definitionStatusWord, NoteTagPropertyStatus.ofValue, bitSet_toNat]
  have h0 := half_step n 0
  have h1 := half_step n 1
  have h2 := half_step n 2
  have h3 := half_step n 3
  have h4 := half_step n 4
  have h5 := half_step n 5
  have h6 := half_step n 6
  have h7 := half_step n 7
  have h8 := half_step n 8
  have h9 := half_step n 9
  have h10 := half_step n 10
  have h11 := half_step n 11
  simp only [Nat.reduceAdd] at h0 h1 h2 h3 h4 h5 h6 h7 h8 h9 h10 h11
  generalize n / 2 ^ 1 = q1 at *
  generalize n / 2 ^ 2 = q2 at *
  generalize n / 2 ^ 3 = q3 at *
  generalize n / 2 ^ 4 = q4 at *
  generalize n / 2 ^ 5 = q5 at *
  generalize n / 2 ^ 6 = q6 at *
  generalize n / 2 ^ 7 = q7 at *
  generalize n / 2 ^ 8 = q8 at *
  generalize n / 2 ^ 9 = q9 at *
  generalize n / 2 ^ 10 = q10 at *
  generalize n / 2 ^ 11 = q11 at *
  generalize n / 2 ^ 12 = q12 at *
  simp only [Nat.pow_zero, Nat.div_one] at *
  generalize n % 2 = r0 at *
  generalize q1 % 2 = r1 at *
  generalize q2 % 2 = r2 at *
  generalize q3 % 2 = r3 at *
  generalize q4 % 2 = r4 at *
  generalize q5 % 2 = r5 at *
  generalize q6 % 2 = r6 at *
  generalize q7 % 2 = r7 at *
  generalize q8 % 2 = r8 at *
  generalize q9 % 2 = r9 at *
  generalize q10 % 2 = r10 at *
  generalize q11 % 2 = r11 at *
  omega

theorem definitionStatus_iff (n : Nat) (s : NoteTagPropertyStatus) :
    (∃ u v rest, n = definitionStatusWord s u v rest) ↔ NoteTagPropertyStatus.ofValue n = s := by
  constructor
  · rintro ⟨u, v, rest, rfl⟩
    have := C39_definition_status
      ⟨⟨⟨0, 0, 0, 0, 0, 0, 0, 0, 0, 0, 0, 0, 0, 0, 0, 0⟩, 0⟩, 0, ⟨[], [], [],
        [(PropertyId.id PropertyType.noteTagPropertyStatus.code,
          (0, .u32 (definitionStatusWord s u v rest)))]⟩, none, ⟨[], []⟩⟩ s u v rest rfl
    unfold NoteTagPropertyStatus.parse at this
    rw [propAs_some (to := PropertyValue.toU32) (v := .u32 (definitionStatusWord s u v rest)) rfl rfl]
      at this
    exact Option.some.inj (Except.ok.inj this)
  · rintro rfl; exact ⟨_, _, _, definitionStatus_word n⟩

theorem parseDefinitionStatus_iff {o : Object} {r : Option NoteTagPropertyStatus} :
    NoteTagPropertyStatus.parse o = .ok r ↔ Optional o.props.properties
      PropertyType.noteTagPropertyStatus.code Value.definitionStatus r := by
  refine optional_map (R := Value.u32) (fun v b => ?_) (fun r => parseU32_iff)
  simp only [← definitionStatus_iff, Value.definitionStatus, Value.u32]
  constructor
  · rintro ⟨u, u', rest, rfl⟩; exact ⟨_, rfl, u, u', rest, rfl⟩
  · rintro ⟨_, rfl, u, u', rest, rfl⟩; exact ⟨u, u', rest, rfl⟩

/-! ### Structured data -/

theorem guid_run (d : Bytes) (g : Guid) : P.run Guid.parse d = .ok g ↔ ∃ tail, d = Spec.guid g ++ tail := by
  unfold P.run
  constructor
  · intro h
    cases hp : Guid.parse d with
    | error e => rw [hp] at h; cases h
    | ok x =>
      rw [hp] at h
      cases h
      exact ⟨x.2, Guid.parse_inv hp⟩
  · rintro ⟨tail, rfl⟩
    rw [Guid.parse_guid]

theorem parseGuid_iff {t : PropertyType} {o : Object} {r : Option Guid} :
    Simple.parseGuid t o = .ok r ↔ Optional o.props.properties t.code Value.guid r := by
  have e : Simple.parseGuid t o = (Simple.parseVec t o >>= optM fun d => P.run Guid.parse d) := by
    unfold Simple.parseGuid Simple.parseVec
    congr 1
    funext d
    cases d with
    | none => rfl
    | some d =>
      simp only [optM]
      cases P.run Guid.parse d <;> rfl
  rw [e]
  refine optional_conv (fun v b => ?_) (fun r => parseVec_iff)
  simp only [guid_run, Value.guid, Value.bytes]
  constructor
  · rintro ⟨tail, rfl⟩; exact ⟨_, rfl, tail, rfl⟩
  · rintro ⟨_, rfl, tail, rfl⟩; exact ⟨tail, rfl⟩

end OneNote
