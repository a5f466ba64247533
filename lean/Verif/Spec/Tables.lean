/-
Tables ([MS-ONE] 2.2.26): their size and the columns whose width is locked.
-/
import Verif.Spec.Shown

namespace OneNote.Spec

/-- The table is as large as it says: as many rows, in each row as many cells, and as many widths. -/
def Rectangular (t : Table) : Prop :=
  t.contents.length = t.rows ∧ (∀ r ∈ t.contents, r.contents.length = t.cols) ∧
    t.colWidths.length = t.cols

/-- The bit of column `c` is set. -/
def Locked (bits : Bytes) (c : Nat) : Prop :=
  ∃ b, bits[c / 8]? = some b ∧ b.toNat.testBit (c % 8) = true

/-- The calculation that the documentation of `Table::cols_locked` gives,
`table.cols_locked()[c / 8] & (1 << (c % 8)) == 1` (/repo/src/onenote/table.rs L48-54). `none` stands
for the panic of the index. -/
def documented (bits : Bytes) (c : Nat) : Option Bool :=
  bits[c / 8]?.map fun b => decide (b.toNat &&& (1 <<< (c % 8)) = 1)

/-- The table appears in the section. -/
def TableOf (t : Table) (s : Section) : Prop := ∃ p, Shown.PageOf p s ∧ Shown.ContentOn (.table t) p

end OneNote.Spec
