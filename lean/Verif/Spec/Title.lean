/-
The title text of a page.
-/
import Verif.Model.Section

namespace OneNote.Spec

/-- An outline opens with the text `t`: its first item is an outline element, the first content of
that element is a paragraph, and the text of the paragraph is `t` and not empty. -/
def OpensWith (o : Outline) (t : Text) : Prop :=
  ∃ e items r contents, o.items = .element e :: items ∧ e.contents = .richText r :: contents ∧
    r.text = t ∧ t ≠ []

/-- The title field of the page opens with `t`. Only its first outline counts. -/
def TitleOpensWith (p : Page) (t : Text) : Prop :=
  ∃ title o rest, p.title = some title ∧ title.contents = o :: rest ∧ OpensWith o t

/-- `t` is the text of the first outline in the body of the page that opens with one. -/
def BodyOpensWith (p : Page) (t : Text) : Prop :=
  ∃ before o after, p.contents = before ++ .outline o :: after ∧ OpensWith o t ∧
    ∀ o', .outline o' ∈ before → ∀ t', ¬ OpensWith o' t'

/-- What the page is called: the text its title field opens with; if there is none, the text of the
body. -/
def CalledBy (p : Page) (t : Text) : Prop :=
  TitleOpensWith p t ∨ ((∀ t', ¬ TitleOpensWith p t') ∧ BodyOpensWith p t)

end OneNote.Spec
