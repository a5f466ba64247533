/-
C58: A table has the size it says, and its locked columns are found as documented.
-/
import Verif.Spec.Tables
import Verif.Spec.SampleFile
import Verif.Props.C43
import Verif.Lemmas.Shown
import Verif.Lemmas.Terminates

namespace OneNote

open Spec Spec.Document Spec.Objects Spec.Fields

/-! ### Tables that are not as they say -/

/-- The tables in the outline elements directly in the outlines of the pages. -/
private def tables (s : Section) : List Table :=
  s.pageSeries.flatMap fun series => series.pages.flatMap fun p => p.contents.flatMap fun
    | .outline o => o.items.flatMap fun
      | .element e => e.contents.flatMap fun
        | .table t => [t]
        | _ => []
      | _ => []
    | _ => []

private theorem tables_shown {s : Section} {t : Table} (h : t ∈ tables s) : TableOf t s := by
  obtain ⟨series, hs, h⟩ := List.mem_flatMap.1 h
  obtain ⟨p, hp, h⟩ := List.mem_flatMap.1 h
  obtain ⟨c, hc, h⟩ := List.mem_flatMap.1 h
  refine ⟨p, ⟨series, hs, hp⟩, ?_⟩
  cases c with
  | outline o =>
    obtain ⟨i, hi, h⟩ := List.mem_flatMap.1 h
    cases i with
    | group g => cases h
    | element e =>
      obtain ⟨x, hx, h⟩ := List.mem_flatMap.1 h
      cases x with
      | table r =>
        obtain rfl := List.mem_singleton.1 h
        exact ⟨o, .inl hc, _, hi, .element (.here hx)⟩
      | _ => cases h
  | _ => cases h

/-- A section file with a table of one row with two empty cells. -/
private def file (rows : Nat) (more : List (PropertyType × PropertyValue)) : Bytes :=
  sectionFile none [3001] [outlineW 3001 [3002], outlineElementW 3002 [] [3003] [],
    objectW 3003 .tableNode ([(.lastModifiedTime, .u32 0), (.elementChildNodes, .objectIds 1),
      (.rowCount, .u32 rows), (.columnCount, .u32 2),
      (.tableColumnWidths, .vec [2, 0, 0, 0x80, 0x3F, 0, 0, 0x80, 0x3F])] ++ more) [3004],
    objectW 3004 .tableRowNode [(.lastModifiedTime, .u32 0), (.elementChildNodes, .objectIds 2)]
      [3005, 3005],
    objectW 3005 .tableCellNode [(.lastModifiedTime, .u32 0), (.elementChildNodes, .objectIds 0),
      (.rgOutlineIndentDistance, .vec [0, 0, 0, 0]), (.outlineElementChildLevel, .u8 1)] []]

private def summary (s : Section) : List (List (List Nat)) :=
  (tables s).map fun t =>
    [t.contents.map (·.contents.length), t.colsLocked.map UInt8.toNat,
      [t.rows, t.cols, t.colWidths.length]]

private theorem shown_of {data : Bytes} {cells bits : List Nat} {rows cols widths : Nat}
    (h : (parseSectionBuffer 2 Order.id data []).toOption.map summary =
      some [[cells, bits, [rows, cols, widths]]]) :
    ∃ s t, parseSectionBuffer 2 Order.id data [] = .ok s ∧ TableOf t s ∧
      t.contents.map (·.contents.length) = cells ∧ t.rows = rows ∧ t.cols = cols ∧
      t.colsLocked.map UInt8.toNat = bits ∧ t.colWidths.length = widths := by
  obtain ⟨s, hs, he⟩ := Option.map_eq_some_iff.1 h
  obtain ⟨t, ht, hx⟩ := List.map_eq_singleton_iff.1 he
  refine ⟨s, t, toOption_some hs, tables_shown (by rw [ht]; exact .head _), ?_⟩
  injection hx with h1 hx
  injection hx with h2 hx
  injection hx with h3 _
  injection h3 with h3 hx
  injection hx with h4 hx
  injection hx with h5 _
  exact ⟨h1, h3, h4, h2, h5⟩

private theorem bytes_nil {bits : Bytes} (h : bits.map UInt8.toNat = []) : bits = [] :=
  List.map_eq_nil_iff.1 h

private theorem bytes_three {bits : Bytes} (h : bits.map UInt8.toNat = [3]) : bits = [3] := by
  obtain ⟨b, rfl, hb⟩ := List.map_eq_singleton_iff.1 h
  rw [show b = 3 from UInt8.toNat_inj.1 hb]

/-- **Refuted**: a table that says that it has seven rows is shown with one. -/
theorem C58_size_refuted : ∃ data s t, parseSectionBuffer 2 Order.id data [] = .ok s ∧ TableOf t s ∧
    t.rows = 7 ∧ t.contents.length = 1 ∧ ¬ Rectangular t := by
  obtain ⟨s, t, h1, h2, h3, h4, -⟩ := shown_of (data := file 7 []) (cells := [2]) (bits := [])
    (rows := 7) (cols := 2) (widths := 2)
    (by decide +kernel)
  have hl : t.contents.length = 1 := by rw [← List.length_map, h3]; rfl
  refine ⟨_, s, t, h1, h2, h4, hl, fun h => ?_⟩
  have := h.1
  rw [hl, h4] at this
  cases this

/-- **Refuted**: the second column of this table is locked, and the documented calculation says that
it is not. -/
theorem C58_locked_refuted : ∃ data s t, parseSectionBuffer 2 Order.id data [] = .ok s ∧ TableOf t s ∧
    Rectangular t ∧ 1 < t.cols ∧ Locked t.colsLocked 1 ∧ documented t.colsLocked 1 = some false := by
  obtain ⟨s, t, h1, h2, h3, h4, h5, h6, h7⟩ := shown_of
    (data := file 1 [(.tableColumnsLocked, .vec [2, 3])]) 
    (cells := [2]) (bits := [3]) (rows := 1) (cols := 2) (widths := 2) (by decide +kernel)
  have h6 := bytes_three h6
  refine ⟨_, s, t, h1, h2, ⟨?_, ?_, ?_⟩, ?_, ?_, ?_⟩
  · rw [← List.length_map, h3, h4]; rfl
  · intro r hr
    have := List.mem_map_of_mem (f := fun r : TableRow => r.contents.length) hr
    rw [h3] at this
    rw [h5]
    exact List.mem_singleton.1 this
  · rw [h7, h5]
  · rw [h5]; decide
  · rw [h6]; exact ⟨3, rfl, rfl⟩
  · rw [h6]; rfl

/-- **Refuted**: for a table without the property the documented calculation panics. -/
theorem C58_absent_refuted : ∃ data s t, parseSectionBuffer 2 Order.id data [] = .ok s ∧ TableOf t s ∧
    0 < t.cols ∧ documented t.colsLocked 0 = none := by
  obtain ⟨s, t, h1, h2, h3, h4, h5, h6, h7⟩ := shown_of (data := file 1 [])
    (cells := [2]) (bits := []) (rows := 1) (cols := 2) (widths := 2) (by decide +kernel)
  have h6 := bytes_nil h6
  refine ⟨_, s, t, h1, h2, ?_, ?_⟩
  · rw [h5]; decide
  · rw [h6]; rfl

/-- The documented calculation finds no locked column but every eighth. -/
theorem C58_never_refuted (bits : Bytes) (c : Nat) (h : c % 8 ≠ 0) :
    documented bits c ≠ some true := by
  unfold documented
  cases bits[c / 8]? with
  | none => nofun
  | some b =>
    intro he
    have he := of_decide_eq_true (Option.some.inj he)
    have h0 := congrArg (fun n => n.testBit 0) he
    simp only [Nat.one_shiftLeft, Nat.testBit_and, Nat.testBit_two_pow] at h0
    simp [h] at h0

/-! ### What holds -/

/-- The bit is in the byte exactly when the masked byte is not zero. -/
private theorem masked (b i : Nat) : b &&& (1 <<< i) ≠ 0 ↔ b.testBit i = true := by
  rw [Nat.one_shiftLeft]
  cases h : b.testBit i with
  | false =>
    have : b &&& 2 ^ i = 0 := by
      apply Nat.eq_of_testBit_eq
      intro j
      rw [Nat.testBit_and, Nat.testBit_two_pow, Nat.zero_testBit]
      by_cases hj : i = j
      · subst hj; rw [h]; rfl
      · simp [hj]
    simp [this]
  | true =>
    refine ⟨fun _ => rfl, fun _ h0 => ?_⟩
    have h0 := congrArg (fun n => n.testBit i) h0
    simp [Nat.testBit_and, h] at h0

/-- **What holds**: for every eighth column within the table the documented calculation is right. -/
theorem C58_documented_partial (bits : Bytes) (c : Nat) (h : c % 8 = 0) :
    documented bits c = some true ↔ Locked bits c := by
  unfold documented Locked
  rw [h]
  cases bits[c / 8]? with
  | none => simp
  | some b =>
    simp only [Option.map_some, Option.some.injEq, decide_eq_true_eq, exists_eq_left']
    rw [← masked b.toNat 0]
    have : b.toNat &&& 1 <<< 0 = b.toNat % 2 := by simp
    rw [this]
    omega

/-- With `!= 0` in place of `== 1` it is right for every column. -/
theorem C58_corrected (bits : Bytes) (c : Nat) :
    Locked bits c ↔ ∃ b, bits[c / 8]? = some b ∧ b.toNat &&& (1 <<< (c % 8)) ≠ 0 := by
  simp only [masked]
  rfl

/-- **What holds**: every table of a section shows the counts that are stored with it, one row for
each reference to a row, one cell for each reference of the row to a cell, and the stored bits of the
columns without the count before them. -/
theorem C58_stored_partial (fuel : Nat) (ord : Order) (data : Bytes) (name : Text) (s : Section)
    (h : parseSectionBuffer fuel ord data name = .ok s) (t : Table) (ht : TableOf t s) :
    ∃ store cell space id o rows, readStore ord data = .ok store ∧
      store.objectSpace cell = some space ∧ At space id o ∧ o.jcId = 0x00060022 ∧
      Required o.props.properties Word.rowCount Value.u32 t.rows ∧
      Required o.props.properties Word.columnCount Value.u32 t.cols ∧
      Default o.props.properties Word.tableColumnsLocked Value.columnLocks [] t.colsLocked ∧
      Default o.props.properties Word.tableColumnWidths Value.columnWidths [] t.colWidths ∧
      RefList o Word.elementChildNodes rows ∧ t.contents.length = rows.length ∧
      ∀ (i : Nat) (r : TableRow), t.contents[i]? = some r → ∃ rid row cells, rows[i]? = some rid ∧ At space rid row ∧
        row.jcId = 0x00060023 ∧ RefList row Word.elementChildNodes cells ∧
        r.contents.length = cells.length := by
  obtain ⟨store, hr, -, hs⟩ := (C43_buffer ord data name s).1 ⟨fuel, h⟩
  obtain ⟨p, hp, hc⟩ := ht
  obtain ⟨cell, space, hsp, hpage⟩ := page_space hs hp
  obtain ⟨id, hi⟩ := content_object hpage hc
  cases hi with
  | table h1 h2 h3 h4 =>
    rename_i o n rows tags
    refine ⟨store, cell, space, id, o, n.rows, hr, hsp, h1, h2.kind, h2.rowCount, h2.colCount,
      h2.colsLocked, h2.colWidths, h2.rows, (((each_iff _ _ _).1 h3).1).symm, fun i r hir => ?_⟩
    obtain ⟨hl, he⟩ := (each_iff _ _ _).1 h3
    have hlt := (List.getElem?_eq_some_iff.1 hir).1
    have hlt' : i < n.rows.length := by rw [hl]; exact hlt
    have hrow := he i hlt' hlt
    rw [(List.getElem?_eq_some_iff.1 hir).2] at hrow
    cases hrow with
    | mk k1 k2 k3 =>
      exact ⟨_, _, _, List.getElem?_eq_getElem hlt', k1, k2.kind, k2.cells,
        (((each_iff _ _ _).1 k3).1).symm⟩

/-- A table with all that is asked for. -/
example : ∃ data s t, parseSectionBuffer 2 Order.id data [] = .ok s ∧ TableOf t s ∧ t.rows = 1 ∧
    t.cols = 2 ∧ documented t.colsLocked 0 = some true ∧ Locked t.colsLocked 0 := by
  obtain ⟨s, t, h1, h2, h3, h4, h5, h6, h7⟩ := shown_of
    (data := file 1 [(.tableColumnsLocked, .vec [2, 3])]) 
    (cells := [2]) (bits := [3]) (rows := 1) (cols := 2) (widths := 2) (by decide +kernel)
  have h6 := bytes_three h6
  exact ⟨_, s, t, h1, h2, h4, h5, by rw [h6]; rfl, by rw [h6]; exact ⟨3, rfl, rfl⟩⟩

#print axioms C58_size_refuted
#print axioms C58_locked_refuted
#print axioms C58_absent_refuted
#print axioms C58_never_refuted
#print axioms C58_documented_partial
#print axioms C58_corrected
#print axioms C58_stored_partial

end OneNote
