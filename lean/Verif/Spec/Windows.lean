/-
Paths on Windows, and what it means that a Windows disk has the same notebook as a Unix one.
-/
import Verif.Model.Windows
import Verif.Spec.Whole

namespace OneNote.Spec.Windows

open OneNote.Windows

/-- An ordinary file name on Windows: not empty, not `.` or `..`, without separators and colons. -/
def WFileName (name : Text) : Prop :=
  name ≠ [] ∧ '/' ∉ name ∧ '\\' ∉ name ∧ ':' ∉ name ∧ name ≠ ['.'] ∧ name ≠ ['.', '.']

/-- `p` is `base` followed by one or more ordinary file names. -/
def WBelow (base p : WPath) : Prop :=
  ∃ names : List Text, names ≠ [] ∧ (∀ n ∈ names, WFileName n) ∧ p = base ++ names.map .normal

/-- The resolved location of `p` is that of `base` or below it. -/
def WInside (fs : WFileSystem) (base p : WPath) : Prop :=
  ∃ b c rest, fs.canonicalize base = some b ∧ fs.canonicalize p = some c ∧ c = b ++ rest

/-- The sanitiser leaves no colons in file names (the crate `sanitise_file_name` replaces them). -/
def NoColons (sanitise : Text → Text) : Prop := ∀ name, ':' ∈ name → sanitise name ≠ name

/-! ### The same notebook on both systems -/

/-- A name without characters that mean something in a path on Windows only. -/
def PortableName (name : Text) : Prop := '\\' ∉ name ∧ ':' ∉ name

/-- A path of such names. -/
def Portable (p : Path) : Prop := ∀ n, Component.normal n ∈ p → PortableName n

def onWindows : Component → WComponent
  | .rootDir => .rootDir
  | .curDir => .curDir
  | .parentDir => .parentDir
  | .normal n => .normal n

/-- The Windows path with the same components, on the drive `drive` (or the current one). -/
def placed (drive : Option Text) (p : Path) : WPath :=
  (drive.map WComponent.prefixed).toList ++ p.map onWindows

/-- The Windows disk `fsw` has the same files in the same places as `fs`, on the drive `drive`. Resolved
paths begin with `canon` there (such as `\\?\C:`). -/
structure Mirrors (drive canon : Option Text) (fs : FileSystem) (fsw : WFileSystem) : Prop where
  pathExists : ∀ p, Portable p → fsw.pathExists (placed drive p) = fs.pathExists p
  isFile : ∀ p, Portable p → fsw.isFile (placed drive p) = fs.isFile p
  canonicalize : ∀ p, Portable p →
    fsw.canonicalize (placed drive p) = (fs.canonicalize p).map (placed canon)
  readDir : ∀ p, Portable p → fsw.readDir (placed drive p) = fs.readDir p
  read : ∀ p, Portable p → fsw.read (placed drive p) = fs.read p

/-- No directory lists and no table of contents holds a name that means something else on Windows. -/
structure PortableNames (fs : FileSystem) : Prop where
  listed : ∀ p names, fs.readDir p = some names → ∀ n, some n ∈ names → PortableName n
  entries : ∀ p data names color, fs.read p = some data → TocFile data names color →
    ∀ n ∈ names, PortableName n

end OneNote.Spec.Windows
