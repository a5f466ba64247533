/-
Notebooks whose section files are replaced.
-/
import Verif.Spec.Located

namespace OneNote.Spec

namespace Located

mutual

/-- The entry with the new sections in the files for which there are any. -/
def revised (new : Path → Option Section) : Located → Located
  | .file p s => .file p ((new p).getD s)
  | .directory p name es => .directory p name (revise new es)

/-- The entries, at any depth, with the new sections. -/
def revise (new : Path → Option Section) : List Located → List Located
  | [] => []
  | e :: es => revised new e :: revise new es

end

/-- One of the entries, at any depth, is the section in the file `p`. -/
inductive HasFile (p : Path) : List Located → Prop where
  | here {s : Section} {es : List Located} : HasFile p (.file p s :: es)
  | inside {q : Path} {name : Text} {inner es : List Located} :
      HasFile p inner → HasFile p (.directory q name inner :: es)
  | later {e : Located} {es : List Located} : HasFile p es → HasFile p (e :: es)

end Located

/-- The disk with other contents of files. -/
def withFiles (env : Env) (files : Path → Option Bytes) : Env :=
  { env with fs := { env.fs with read := files } }

/-- Some section files are replaced by the section files of the sections `new`; all other files are
as before. -/
structure Replaced (env : Env) (files : Path → Option Bytes) (new : Path → Option Section) : Prop where
  same : ∀ p, new p = none → files p = env.fs.read p
  old : ∀ p s, new p = some s → ∃ s', parseSectionFile env p = .ok s'
  new : ∀ p s, new p = some s → parseSectionFile (withFiles env files) p = .ok s

end OneNote.Spec
