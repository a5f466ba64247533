/-
Which run of a text a formula belongs to.
-/
import Verif.Spec.Document

namespace OneNote.Spec.FormulaRuns

open Fields Document

/-- The number of runs that are formulas. -/
def formulas (runs : List ParagraphStyling) : Nat := runs.countP (·.mathFormatting)

/-- The run number `i` is the `k`-th (counted from 0) that is a formula. -/
def NthFormula (runs : List ParagraphStyling) (k i : Nat) : Prop :=
  (∃ r, runs[i]? = some r ∧ r.mathFormatting = true) ∧ formulas (runs.take i) = k

/-- The data that is stored for the runs of a text. -/
def RunData (o : Object) (sets : List PropertySet) : Prop :=
  (o.props.properties.get Word.textRunData = none ∧ sets = []) ∨
  ∃ kind, o.props.properties.get Word.textRunData = some (.propertyValues kind sets)

/-- The part of a formula that is stored in a set of properties. -/
def FormulaIs (set : PropertySet) (m : MathInlineObject) : Prop :=
  ∃ o : Object, o.props.properties = set ∧ MathIs o m

/-- The drawings among the embedded objects. -/
def drawings (es : List EmbeddedObject) : List EmbeddedInkContainer :=
  es.filterMap fun
    | .ink c => some c
    | _ => none

end OneNote.Spec.FormulaRuns
