/-
The layout alignment word ([MS-ONE] 2.3.2) written field by field.
-/
import Verif.Model.Property

namespace OneNote.Spec

/-- The 32 bits of a layout alignment, least significant first: horizontal alignment (3 bits),
horizontal margin (1), unused (12), vertical alignment (1), unused (2), vertical margin (1),
unused (11), and whether the default applies (1). -/
structure LayoutWord where
  horizontal : Fin 8
  marginHorizontal : Fin 2
  unused1 : Fin 4096
  vertical : Fin 2
  unused2 : Fin 4
  marginVertical : Fin 2
  unused3 : Fin 2048
  unset : Fin 2

/-- The word as a number. -/
def LayoutWord.toNat (w : LayoutWord) : Nat :=
  w.horizontal + 2 ^ 3 * w.marginHorizontal + 2 ^ 4 * w.unused1 + 2 ^ 16 * w.vertical
    + 2 ^ 17 * w.unused2 + 2 ^ 19 * w.marginVertical + 2 ^ 20 * w.unused3 + 2 ^ 31 * w.unset

/-- The horizontal alignments by code. -/
def horizontals : List HorizontalAlignment :=
  [.unknown, .left, .center, .right, .biDiNormal, .biDiReverse]

/-- What a word says: nothing when it is unset, otherwise its fields; `none` for an unknown
horizontal code. -/
def LayoutWord.meaning (w : LayoutWord) : Option (Option LayoutAlignment) :=
  if w.unset = 1 then some none
  else (horizontals[w.horizontal.val]?).map fun h => some
    { horizontal := h
      marginHorizontal := if w.marginHorizontal = 0 then .right else .left
      vertical := if w.vertical = 0 then .bottom else .top
      marginVertical := if w.marginVertical = 0 then .bottom else .top }

end OneNote.Spec
