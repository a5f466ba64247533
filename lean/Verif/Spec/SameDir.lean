/-
Two paths for the same directory.
-/
import Verif.Model.Path

namespace OneNote.Spec

/-- `a` and `b` name the same directory: they resolve to the same location, and every path below the
one finds the same thing as the corresponding path below the other. -/
structure SameDir (fs : FileSystem) (a b : Path) : Prop where
  location : fs.canonicalize a = fs.canonicalize b
  resolved : ∀ names : List Text, names ≠ [] →
    fs.canonicalize (a ++ names.map .normal) = fs.canonicalize (b ++ names.map .normal)
  pathExists : ∀ names : List Text, names ≠ [] →
    fs.pathExists (a ++ names.map .normal) = fs.pathExists (b ++ names.map .normal)
  isFile : ∀ names : List Text, names ≠ [] →
    fs.isFile (a ++ names.map .normal) = fs.isFile (b ++ names.map .normal)
  readDir : ∀ names : List Text, names ≠ [] →
    fs.readDir (a ++ names.map .normal) = fs.readDir (b ++ names.map .normal)
  read : ∀ names : List Text, names ≠ [] →
    fs.read (a ++ names.map .normal) = fs.read (b ++ names.map .normal)

/-- The same without the location of the directory itself: what every program sees that works with
paths below the directory only. -/
structure SameBelow (fs : FileSystem) (a b : Path) : Prop where
  resolved : ∀ names : List Text, names ≠ [] →
    fs.canonicalize (a ++ names.map .normal) = fs.canonicalize (b ++ names.map .normal)
  pathExists : ∀ names : List Text, names ≠ [] →
    fs.pathExists (a ++ names.map .normal) = fs.pathExists (b ++ names.map .normal)
  isFile : ∀ names : List Text, names ≠ [] →
    fs.isFile (a ++ names.map .normal) = fs.isFile (b ++ names.map .normal)
  readDir : ∀ names : List Text, names ≠ [] →
    fs.readDir (a ++ names.map .normal) = fs.readDir (b ++ names.map .normal)
  read : ∀ names : List Text, names ≠ [] →
    fs.read (a ++ names.map .normal) = fs.read (b ++ names.map .normal)

end OneNote.Spec
