/-
Disks that change while a notebook is read.
-/
import Verif.Model.Timed
import Verif.Spec.Path
import Verif.Spec.Sections

namespace OneNote.Spec

/-- The section was read from a file as it was at one moment of the time from `t` up to `t'`. -/
def ReadAt (e : Timed) (t t' : Nat) (s : Section) : Prop :=
  ∃ τ p, t ≤ τ ∧ τ < t' ∧ parseSectionFile (e.moment τ) p = .ok s

/-- While the disk changes, no path appears, vanishes or comes to lead elsewhere. (The contents of files
and directories may change.) -/
structure Steady (w : Nat → FileSystem) : Prop where
  pathExists : ∀ t p, (w t).pathExists p = (w 0).pathExists p
  canonicalize : ∀ t p, (w t).canonicalize p = (w 0).canonicalize p

end OneNote.Spec
