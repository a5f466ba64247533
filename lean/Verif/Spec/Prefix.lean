/-
What it means that a parser only depends on the bytes it consumes.
-/
import Verif.Model.Basic

namespace OneNote.Spec

/-- `p` is *prefix determined*: whenever it accepts a byte string, it consumed
some prefix `c` of it such that

* with any other bytes behind `c` it returns the same value and leaves exactly
  those bytes, and
* on every proper prefix of `c` it reports an unexpected end of file. -/
def PrefixDetermined {α : Type} (p : P α) : Prop :=
  ∀ s v r, p s = .ok (v, r) →
    ∃ c, s = c ++ r ∧ (∀ t, p (c ++ t) = .ok (v, t)) ∧
      ∀ q u, c = q ++ u → u ≠ [] → p q = .error .eof

end OneNote.Spec
