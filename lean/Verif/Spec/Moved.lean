/-
A copy of a directory at another place, on the same disk or on another one.
-/
import Verif.Spec.Entries

namespace OneNote.Spec

/-- Two listings of a directory: both fail, or they have the same entries in any order. -/
def SameListing : Option (List (Option Text)) → Option (List (Option Text)) → Prop
  | none, none => True
  | some l, some l' => ∀ x, x ∈ l ↔ x ∈ l'
  | _, _ => False

/-- The directory `a'` of the disk `fs'`, really at `k'`, is a copy of the directory `a` of the disk `fs`,
really at `k`: below them are the same files and directories, and what leads to a place inside of the
one leads to the same place inside of the other. -/
structure Copied (fs fs' : FileSystem) (a a' k k' : Path) : Prop where
  location : fs.canonicalize a = some k
  location' : fs'.canonicalize a' = some k'
  resolved : ∀ (names : List Text) (rest : Path), names ≠ [] →
    (fs.canonicalize (a ++ names.map .normal) = some (k ++ rest) ↔
      fs'.canonicalize (a' ++ names.map .normal) = some (k' ++ rest))
  pathExists : ∀ names : List Text, names ≠ [] →
    fs.pathExists (a ++ names.map .normal) = fs'.pathExists (a' ++ names.map .normal)
  isFile : ∀ names : List Text, names ≠ [] →
    fs.isFile (a ++ names.map .normal) = fs'.isFile (a' ++ names.map .normal)
  read : ∀ names : List Text, names ≠ [] →
    fs.read (a ++ names.map .normal) = fs'.read (a' ++ names.map .normal)
  readDir : ∀ names : List Text, names ≠ [] →
    SameListing (fs.readDir (a ++ names.map .normal)) (fs'.readDir (a' ++ names.map .normal))

/-- The directories are also listed in the same order. -/
def SameOrder (fs fs' : FileSystem) (a a' : Path) : Prop :=
  ∀ names : List Text, names ≠ [] →
    fs.readDir (a ++ names.map .normal) = fs'.readDir (a' ++ names.map .normal)

/-- Every directory below `a` that can be listed is listed completely, and has at most one table of
contents. -/
def OneToc (fs : FileSystem) (a : Path) : Prop :=
  ∀ (names : List Text) l, names ≠ [] → fs.readDir (a ++ names.map .normal) = some l →
    none ∉ l ∧ ∀ t t', some t ∈ l → some t' ∈ l → TocName t → TocName t' → t = t'

/-- How many entries each section group has. -/
def groupSizes (nb : Notebook) : List (Option Nat) :=
  nb.entries.map fun
    | .section _ => none
    | .sectionGroup g => some g.entries.length

end OneNote.Spec
