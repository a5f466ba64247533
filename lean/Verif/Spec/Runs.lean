/-
The runs of a text ([MS-ONE] 2.3.76): a paragraph is split at the given positions, and the parts have
one format each.
-/
import Verif.Spec.Shown
import Verif.Spec.Utf16

namespace OneNote.Spec

/-- A text with `length` positions can be split at these positions into parts for that many formats.
Without positions the formats are for the whole text. -/
def RunsFit (length : Nat) (positions : List Nat) (formats : Nat) : Prop :=
  positions.Pairwise (· ≤ ·) ∧ (∀ i ∈ positions, i ≤ length) ∧
    (positions ≠ [] → formats = positions.length + 1)

instance (l : Nat) (ps : List Nat) (f : Nat) : Decidable (RunsFit l ps f) :=
  inferInstanceAs (Decidable (_ ∧ _))

/-- The text appears in the section. -/
def TextOf (t : RichText) (s : Section) : Prop := ∃ p, Shown.PageOf p s ∧ Shown.ContentOn (.richText t) p

end OneNote.Spec
