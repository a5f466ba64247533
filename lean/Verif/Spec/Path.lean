/-
Where the paths of a notebook's entries may lead.
-/
import Verif.Model.Path

namespace OneNote.Spec

/-- An ordinary file name: not empty, no slash, not `.` and not `..`. -/
def FileName (name : Text) : Prop :=
  name ≠ [] ∧ '/' ∉ name ∧ name ≠ ['.'] ∧ name ≠ ['.', '.']

/-- `p` is `base` followed by one or more ordinary file names. -/
def Below (base p : Path) : Prop :=
  ∃ names : List Text, names ≠ [] ∧ (∀ n ∈ names, FileName n) ∧ p = base ++ names.map .normal

/-- The resolved location of `p` (symbolic links followed) is that of `base` or below it. -/
def Inside (fs : FileSystem) (base p : Path) : Prop :=
  ∃ b c rest, fs.canonicalize base = some b ∧ fs.canonicalize p = some c ∧ c = b ++ rest

/-- `piece` stands between two slashes (or the ends) of `entry`. -/
def Piece (piece entry : Text) : Prop :=
  ∃ a b, entry = a ++ (piece ++ b) ∧ (a = [] ∨ ∃ a', a = a' ++ ['/']) ∧ (b = [] ∨ ∃ b', b = '/' :: b')

/-- `p` is a file with the extension `onetoc2` in a directory that lies inside `base`. -/
def TocInside (fs : FileSystem) (base p : Path) : Prop :=
  ∃ dir stem, stem ≠ [] ∧ p = dir ++ [.normal (stem ++ ".onetoc2".toList)] ∧ Below base dir ∧
    Inside fs base dir

/-- Two file systems that a program confined to `base` cannot tell apart: they agree on which paths
below `base` exist and where they lead, and have the same contents in the directories and files whose
resolved location is inside `base`. -/
structure SameInside (base : Path) (fs fs' : FileSystem) : Prop where
  pathExists : ∀ p, Below base p → fs.pathExists p = fs'.pathExists p
  isFile : ∀ p, Below base p → Inside fs base p → fs.isFile p = fs'.isFile p
  canonicalize : ∀ p, p = base ∨ Below base p → fs.canonicalize p = fs'.canonicalize p
  readDir : ∀ p, Below base p → Inside fs base p → fs.readDir p = fs'.readDir p
  read : ∀ p, Below base p → Inside fs base p → fs.read p = fs'.read p

/-- The two file systems also have the same contents in the `onetoc2` files of the directories
inside `base`, wherever these files lead. -/
def SameTocs (base : Path) (fs fs' : FileSystem) : Prop :=
  ∀ p, TocInside fs base p → fs.read p = fs'.read p

end OneNote.Spec
