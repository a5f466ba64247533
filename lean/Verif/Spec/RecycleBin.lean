/-
Recycle bins.
-/
import Verif.Spec.Entries

namespace OneNote.Spec

/-- `OneNote_RecycleBin`, the name of the directory into which OneNote moves deleted sections and pages. -/
def binName : Text :=
  ['O', 'n', 'e', 'N', 'o', 't', 'e', '_', 'R', 'e', 'c', 'y', 'c', 'l', 'e', 'B', 'i', 'n']

/-- The path leads to something in a recycle bin. -/
def InBin (p : Path) : Prop := Component.normal binName ∈ p.dropLast

/-- The file systems differ only in what is in recycle bins. -/
structure SameOutsideBins (fs fs' : FileSystem) : Prop where
  pathExists : ∀ p, ¬ InBin p → fs.pathExists p = fs'.pathExists p
  isFile : ∀ p, ¬ InBin p → fs.isFile p = fs'.isFile p
  canonicalize : ∀ p, ¬ InBin p → fs.canonicalize p = fs'.canonicalize p
  read : ∀ p, ¬ InBin p → fs.read p = fs'.read p
  /-- The directories other than the recycle bins have the same entries. -/
  readDir : ∀ p, Component.normal binName ∉ p → fs.readDir p = fs'.readDir p

/-- No name in a table of contents outside recycle bins contains `OneNote_RecycleBin/`. -/
def AvoidsBins (env : Env) : Prop := ∀ path base names color, ¬ InBin path →
  Contents env path base names color → ∀ name ∈ names, ¬ (binName ++ ['/']) <:+: name

end OneNote.Spec
