/-
Note tag codes ([MS-ONE] 2.3.85, 2.3.86, 2.3.87, 2.3.91).
-/
import Verif.Model.Property

namespace OneNote.Spec

/-- The code of a shape: the shapes are numbered from 0 in the order of the format's table, which is
the order they are declared in. -/
def shapeCode (s : NoteTagShape) : Nat := s.ctorIdx

/-- The codes that stand for an item type: user-defined numbers up to 99, then the due dates. -/
def itemTypeCode : ActionItemType → Nat → Prop
  | .numeric n, v => v ≤ 99 ∧ v = n
  | .dueToday, v => v = 100
  | .dueTomorrow, v => v = 101
  | .dueThisWeek, v => v = 102
  | .dueNextWeek, v => v = 103
  | .noDueDate, v => v = 104
  | .customDueDate, v => v = 105
  | .unknown, v => 105 < v

/-- The item status bits, least significant first. -/
def itemStatusWord (s : ActionItemStatus) (unused : Nat) : Nat :=
  s.completed.toNat + 2 * s.disabled.toNat + 4 * s.taskTag.toNat + 8 * unused

/-- The definition status bits, least significant first; bits 4, 5 and from 12 on are unused. -/
def definitionStatusWord (s : NoteTagPropertyStatus) (unused4 unused5 : Bool) (rest : Nat) : Nat :=
  s.hasLabel.toNat + 2 * s.hasFontColor.toNat + 4 * s.hasHighlightColor.toNat + 8 * s.hasIcon.toNat
    + 2 ^ 4 * unused4.toNat + 2 ^ 5 * unused5.toNat + 2 ^ 6 * s.dueToday.toNat
    + 2 ^ 7 * s.dueTomorrow.toNat
    + 2 ^ 8 * s.dueThisWeek.toNat + 2 ^ 9 * s.dueNextWeek.toNat + 2 ^ 10 * s.dueLater.toNat
    + 2 ^ 11 * s.dueCustom.toNat + 2 ^ 12 * rest

/-- The codes of the check boxes and follow-up flags that can be ticked. -/
def checkableCodes : List Nat :=
  [1, 2, 3, 4, 5, 6, 7, 8, 9, 10, 11, 12, 28, 30, 32, 48, 50, 52, 69, 71, 73,
    89, 90, 91, 92, 93, 94, 95, 96, 97, 98, 99]

end OneNote.Spec
