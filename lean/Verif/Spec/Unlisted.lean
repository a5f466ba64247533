/-
Files that are in the directories of a notebook, but do not belong to it.
-/
import Verif.Spec.Whole

namespace OneNote.Spec

/-- `l'` is the listing `l` of a directory with further names among it, which are `added`. -/
inductive WithOthers (added : Text → Prop) : List (Option Text) → List (Option Text) → Prop where
  | nil : WithOthers added [] []
  | same (x : Option Text) {l l' : List (Option Text)} : WithOthers added l l' →
      WithOthers added (x :: l) (x :: l')
  | other {name : Text} {l l' : List (Option Text)} : added name → WithOthers added l l' →
      WithOthers added l (some name :: l')

/-- The second file system is the first one with further files or directories at the paths that are
`added`. -/
structure AddsFiles (added : Path → Prop) (fs fs' : FileSystem) : Prop where
  pathExists : ∀ p, ¬ added p → fs.pathExists p = fs'.pathExists p
  isFile : ∀ p, ¬ added p → fs.isFile p = fs'.isFile p
  canonicalize : ∀ p, ¬ added p → fs.canonicalize p = fs'.canonicalize p
  read : ∀ p, ¬ added p → fs.read p = fs'.read p
  readDir : ∀ p, ¬ added p → (fs.readDir p = none ∧ fs'.readDir p = none) ∨
    ∃ l l', fs.readDir p = some l ∧ fs'.readDir p = some l' ∧
      WithOthers (fun name => added (p ++ [.normal name])) l l'

/-- The path to which a name in a table of contents in the directory `base` leads. -/
def LeadsTo (base : Path) (name : Text) (p : Path) : Prop :=
  ∃ pieces, Pieces name pieces ∧
    p = base ++ (pieces.filter fun n => decide (n ≠ [] ∧ n ≠ ['.'])).map .normal

/-- No table of contents, other than those that are `added` themselves, lists something that is `added`. -/
def Unlisted (env : Env) (added : Path → Prop) : Prop := ∀ path base names color, ¬ added path →
  Contents env path base names color → ∀ name ∈ names, ∀ p, LeadsTo base name p → ¬ added p

/-- In no directory something that is `added` is the first with the name of a table of contents. -/
def NotFirst (added : Path → Prop) (fs : FileSystem) : Prop := ∀ dir before toc after, ¬ added dir →
  fs.readDir dir = some (before ++ some toc :: after) → NoToc before → TocName toc →
  ¬ added (dir ++ [.normal toc])

end OneNote.Spec
