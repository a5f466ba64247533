/-
What the values of written documents read as.
-/
import Verif.Lemmas.MultiByte
import Verif.Lemmas.Utf16
import Verif.Lemmas.Ink
import Verif.Spec.WriteDocument
import Verif.Spec.Storable

namespace OneNote.Writer

open Spec Spec.Writer Spec.Storable

theorem cut {k n : Nat} (h : Bits k n) : n % 2 ^ k = n := Nat.mod_eq_of_lt h

theorem reads_bool (b : Bool) : Value.bool (Scalar.bool b).val.value b := rfl

theorem reads_u8 {n : Nat} (h : Bits 8 n) : Value.u8 (Scalar.u8 n).val.value n :=
  congrArg PropertyValue.u8 (cut h)

theorem reads_u16 {n : Nat} (h : Bits 16 n) : Value.u16 (Scalar.u16 n).val.value n :=
  congrArg PropertyValue.u16 (cut h)

theorem reads_u32 {n : Nat} (h : Bits 32 n) : Value.u32 (Scalar.u32 n).val.value n :=
  congrArg PropertyValue.u32 (cut h)

theorem reads_u64 {n : Nat} (h : Bits 64 n) : Value.u64 (Scalar.u64 n).val.value n :=
  congrArg PropertyValue.u64 (cut h)

theorem reads_f32 {n : F32} (h : Bits 32 n) : Value.f32 (Scalar.f32 n).val.value n :=
  congrArg PropertyValue.u32 (cut h)

theorem reads_i32 {i : Int} (h : -2 ^ 31 ≤ i ∧ i < 2 ^ 31) : Value.i32 (Scalar.i32 i).val.value i := by
  refine ⟨Ink.i32 i, congrArg PropertyValue.u32 (cut ?_), ?_⟩
  · unfold Bits Ink.i32
    split <;> omega
  · unfold Ink.i32
    split <;> split <;> omega

theorem reads_text {t : List Char} (h : Plain t) : Value.text (Scalar.text t).val.value t :=
  ⟨[], by rw [List.append_nil]; rfl, h, .inl (by decide)⟩

theorem reads_latin1 {t : List Char} (h : ∀ c ∈ t, c.toNat < 256) :
    Value.latin1 (Scalar.latin1 t).val.value t := by
  refine ⟨_, rfl, ?_⟩
  rw [List.map_map]
  conv => lhs; rw [← List.map_id t]
  refine List.map_congr_left fun c hc => ?_
  show c = Char.ofNat (UInt8.ofNat c.toNat).toNat
  rw [UInt8.toNat_ofNat', Nat.mod_eq_of_lt (h c hc), Char.ofNat_toNat]

theorem reads_guid (g : Guid) : Value.guid (Scalar.guid g).val.value g :=
  ⟨[], by rw [List.append_nil]; rfl⟩

theorem reads_u32s {ns : List Nat} (h : ∀ n ∈ ns, Bits 32 n) : Value.u32s (Scalar.u32s ns).val.value ns :=
  ⟨[], by rw [List.append_nil]; rfl, by decide, h⟩

theorem reads_indents {ns : List F32} (h : IndentsOk ns) :
    Value.indents (Scalar.indents ns).val.value ns :=
  ⟨0, 0, 0, [], by rw [List.append_nil]; rfl, h.1, h.2⟩

theorem reads_locks (d : Bytes) : Value.columnLocks (Scalar.columnLocks d).val.value d := ⟨_, rfl, rfl⟩

theorem reads_widths {ws : List F32} (h : ∀ w ∈ ws, Bits 32 w) :
    Value.columnWidths (Scalar.columnWidths ws).val.value ws :=
  ⟨_, rfl, [], by rw [List.append_nil]; rfl, by decide, h⟩

theorem color_parts {r g b a : Nat} (hr : r < 256) (hg : g < 256) (hb : b < 256) (ha : a < 256) :
    let n := r + 2 ^ 8 * g + 2 ^ 16 * b + 2 ^ 24 * a
    n < 2 ^ 32 ∧ r = n % 256 ∧ g = n / 2 ^ 8 % 256 ∧ b = n / 2 ^ 16 % 256 ∧ a = n / 2 ^ 24 % 256 := by
  intro n
  simp only [n]
  omega

theorem reads_color {c : Color} (h : ColorOk c) : Value.color (Scalar.color c).val.value c := by
  have ha := h.alpha
  obtain ⟨h1, h2, h3, h4, h5⟩ := color_parts h.r h.g h.b (show 255 - c.alpha < 256 by omega)
  refine ⟨_, congrArg PropertyValue.u32 (cut h1), h2, h3, h4, ?_⟩
  omega

theorem reads_colorRef {c : ColorRef} (h : ColorRefOk c) :
    Value.colorRef (Scalar.colorRef c).val.value c := by
  cases c with
  | auto => exact ⟨_, congrArg PropertyValue.u32 (cut (by decide)), .inl (by decide)⟩
  | manual r g b =>
    obtain ⟨hr, hg, hb⟩ := h
    obtain ⟨h1, h2, h3, h4, h5⟩ := color_parts hr hg hb (show 0 < 256 by decide)
    rw [Nat.mul_zero, Nat.add_zero] at h1 h2 h3 h4 h5
    exact ⟨_, congrArg PropertyValue.u32 (cut h1), .inr ⟨h5.symm, by rw [← h2, ← h3, ← h4]⟩⟩

theorem reads_layout (a : LayoutAlignment) : Value.layout (Scalar.layout a).val.value (some a) := by
  obtain ⟨h, mh, v, mv⟩ := a
  refine ⟨_, congrArg PropertyValue.u32 (cut ?_), .inr ⟨?_, h, ?_, ?_⟩⟩
  all_goals cases h <;> cases mh <;> cases v <;> cases mv <;> decide

theorem reads_charset (c : Charset) : Value.charset (Scalar.charset c).val.value c := by
  cases c <;> exact ⟨_, rfl, by decide⟩

theorem math_code (t : MathObjectType) : (Scalar.codeOf Value.mathTypes t, t) ∈ Value.mathTypes ∧
    Bits 32 (Scalar.codeOf Value.mathTypes t) := by
  cases t <;> decide

theorem reads_fileType {ps : PropertySet} {t : FileType} {w : Nat}
    (h : ps.get w = (Scalar.fileType t).map fun s => s.val.value) :
    Fields.Default ps w Value.fileType .unknown t := by
  cases t with
  | unknown => exact .inl ⟨h, rfl⟩
  | audio => exact .inr ⟨_, h, .inl ⟨rfl, rfl⟩⟩
  | video => exact .inr ⟨_, h, .inr ⟨rfl, rfl⟩⟩

theorem reads_paragraph (a : ParagraphAlignment) :
    Value.paragraphAlignment (Scalar.paragraphAlignment a).val.value a := by
  cases a <;> exact ⟨_, rfl, by decide⟩

theorem reads_itemStatus (s : ActionItemStatus) : Value.itemStatus (Scalar.itemStatus s).val.value s := by
  obtain ⟨a, b, c⟩ := s
  exact ⟨0, congrArg PropertyValue.u16 (cut (by cases a <;> cases b <;> cases c <;> decide))⟩

theorem reads_status (s : NoteTagPropertyStatus) :
    Value.definitionStatus (Scalar.definitionStatus s).val.value s := by
  refine ⟨false, false, 0, congrArg PropertyValue.u32 (cut ?_)⟩
  unfold Bits definitionStatusWord
  have h : ∀ b : Bool, b.toNat ≤ 1 := fun b => by cases b <;> decide
  have := h s.hasLabel
  have := h s.hasFontColor
  have := h s.hasHighlightColor
  have := h s.hasIcon
  have := h s.dueToday
  have := h s.dueTomorrow
  have := h s.dueThisWeek
  have := h s.dueNextWeek
  have := h s.dueLater
  have := h s.dueCustom
  have := h false
  omega

theorem reads_shape (s : NoteTagShape) : Value.shape (Scalar.shape s).val.value s := by
  refine congrArg PropertyValue.u16 (cut ?_)
  unfold Bits shapeCode
  cases s <;> decide

theorem reads_itemType {t : ActionItemType} (h : ∀ n, t = .numeric n → n ≤ 99) :
    Value.itemType (Scalar.itemType t).val.value t := by
  cases t with
  | numeric n =>
    have := h n rfl
    exact ⟨n, congrArg PropertyValue.u16 (cut (by unfold Bits; omega)), this, rfl⟩
  | unknown => exact ⟨_, rfl, by unfold itemTypeCode; decide⟩
  | _ => exact ⟨_, rfl, rfl⟩

theorem reads_unit {c : Char} (h : Bits 16 c.toNat) : Value.unit (Scalar.unit c).val.value c := by
  refine ⟨c.toNat, congrArg PropertyValue.u16 (cut h), ?_, ?_, (Char.ofNat_toNat c).symm⟩
  · intro hl
    obtain ⟨h1, h2⟩ := hl
    have := char_cases c
    omega
  · intro hl
    obtain ⟨h1, h2⟩ := hl
    have := char_cases c
    omega

theorem lossy_units (t : List Char) : Value.Lossy (t.flatMap utf16Units) t := by
  induction t with
  | nil => exact .nil
  | cons c t ih => exact .char c ih

theorem reads_listFormat (t : List Char) : Value.listFormat (Scalar.listFormat t).val.value t := by
  refine ⟨t.length % 2 ^ 16, t.flatMap utf16Units, ⟨[], ?_, by decide, ?_⟩, lossy_units t⟩
  · rw [List.append_nil, List.flatMap_cons]
    rfl
  · intro n hn
    rcases List.mem_cons.1 hn with rfl | hn
    · exact Nat.mod_lt _ (by decide)
    · exact text_units_lt t n hn

theorem reads_box {b : Nat × Nat × Nat × Nat} (h1 : Bits 32 b.1) (h2 : Bits 32 b.2.1)
    (h3 : Bits 32 b.2.2.1) (h4 : Bits 32 b.2.2.2) : Value.box (Scalar.box b).val.value (some b) := by
  refine ⟨[b.1, b.2.1, b.2.2.1, b.2.2.2], reads_u32s ?_, .inl ⟨_, _, _, _, rfl, rfl⟩⟩
  intro n hn
  simp only [List.mem_cons, List.not_mem_nil, or_false] at hn
  rcases hn with rfl | rfl | rfl | rfl <;> assumption

theorem reads_dimensions : Value.dimensions Scalar.dimensions.val.value
    [⟨Ink.xId, 0, 0⟩, ⟨Ink.yId, 0, 0⟩] := by
  refine ⟨[List.replicate 8 0, List.replicate 8 0], [], ?_, rfl, ?_, by decide, ?_⟩
  · rw [List.append_nil]
    rfl
  · intro r hr
    simp only [List.mem_cons, List.not_mem_nil, or_false, or_self] at hr
    subst hr
    rfl
  · intro d hd
    simp only [List.mem_cons, List.not_mem_nil, or_false] at hd
    rcases hd with rfl | rfl <;> decide

theorem number_uint {n : Nat} (h : n < 2 ^ 64) (rest : Bytes) : Value.Number (Ink.uint n ++ rest) n rest := by
  obtain ⟨hc, hl, _⟩ := uint_fine h
  exact ⟨Ink.uint n, rfl, hl, by rw [value_uint, Nat.mod_eq_of_lt h], .inl hc⟩

theorem numbers_uint {is : List Int} (h : ∀ i ∈ is, i.natAbs < 2 ^ 63) :
    Value.Numbers ((is.map fun v => Ink.uint (Ink.zigzag v)).flatten) (is.map Ink.zigzag) := by
  induction is with
  | nil => exact .nil
  | cons i is ih =>
    exact .cons (number_uint (zigzag_lt (h i List.mem_cons_self)) _)
      (ih fun j hj => h j (List.mem_cons_of_mem _ hj))

theorem reads_path {is : List Int} (h : ∀ i ∈ is, i.natAbs < 2 ^ 63) (hl : is.length < 2 ^ 63) :
    Value.path (Scalar.path is).val.value is := by
  have hz : Ink.zigzag is.length = 2 * is.length := by
    unfold Ink.zigzag
    rw [if_neg (by omega)]
    omega
  refine ⟨_, Ink.zigzag is.length, _, is.map Ink.zigzag, rfl, number_uint (by omega) _, numbers_uint h, ?_, ?_⟩
  · rw [List.length_map, hz]
    omega
  · rw [List.map_map]
    conv => lhs; rw [← List.map_id is]
    exact List.map_congr_left fun i _ => (unzigzag_zigzag i).symm

end OneNote.Writer
