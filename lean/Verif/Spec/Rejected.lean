/-
What a user sees of a file that is rejected.
-/
import Verif.Model.Notebook

namespace OneNote.Spec

/-- Every function of the parser answers with this error: the bytes given as a section, and the bytes in
a file that is opened as a section or as a notebook. -/
structure Rejected (data : Bytes) (e : Err) : Prop where
  asBuffer : ∀ fuel ord name, parseSectionBuffer fuel ord data name = .error e
  asSection : ∀ env path, env.fs.read path = some data → parseSectionFile env path = .error e
  asNotebook : ∀ env n path, env.fs.read path = some data → parseNotebook env (n + 1) path = .error e

end OneNote.Spec
