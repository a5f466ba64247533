/-
The command line program.

Models /repo/src/bin/onenote-parse.rs. The printed text (`{:#?}` of the result) is not modelled: what
is printed is taken to be the result itself.
-/
import Verif.Model.Notebook

namespace OneNote

/-- `Result::unwrap`, onenote-parse.rs L12, L15: an error is a panic. The bounds of the model are no
errors of the code. -/
def unwrap {α : Type} : Res α → Res α
  | .ok a => .ok a
  | .error .fuel => .error .fuel
  | .error _ => .error .panic

/-- What the program shows. -/
inductive Output where
  | notebook (nb : Notebook)
  | section (s : Section)

/-- `main`, onenote-parse.rs L6-18, with the arguments of the program (the first is the name of the
program). Arguments that are not Unicode are not modelled. -/
def cliMain (env : Env) (depth : Nat) (args : List Text) : Res Output := do
  let path := componentsOf (← orErr .panic args[1]?)
  if path.extension = some tocExtension then
    Output.notebook <$> unwrap (parseNotebook env depth path)
  else
    Output.section <$> unwrap (parseSectionFile env path)

end OneNote
