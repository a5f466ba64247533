/-
How many sections a notebook shows.
-/
import Verif.Spec.Located

namespace OneNote.Spec

mutual

/-- The sections of an entry of a notebook, at any depth. -/
def sectionsIn : SectionEntry → Nat
  | .section _ => 1
  | .sectionGroup ⟨_, es⟩ => sectionsOf es

/-- The sections of a list of entries, at any depth. -/
def sectionsOf : List SectionEntry → Nat
  | [] => 0
  | e :: es => sectionsIn e + sectionsOf es

end

/-- Every table of contents that can be opened lists ordinary file names, each once. -/
def ListsOnce (env : Env) : Prop := ∀ path base names color, Contents env path base names color →
  names.Nodup ∧ ∀ name ∈ names, FileName name

/-- No two paths below a directory lead to the same place. -/
def NoLinks (fs : FileSystem) (base : Path) : Prop := ∀ p q r, Below base p → Below base q →
  fs.canonicalize p = some r → fs.canonicalize q = some r → p = q

/-- The files below a directory are at these places. -/
def FilesAt (fs : FileSystem) (base : Path) (places : List Path) : Prop :=
  ∀ p data, Below base p → fs.read p = some data → ∃ q ∈ places, fs.canonicalize p = some q

end OneNote.Spec
