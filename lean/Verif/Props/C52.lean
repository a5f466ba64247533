/-
C52: A page is called by the first text the reader sees.
-/
import Verif.Lemmas.Title

namespace OneNote

open Spec

/-- The title text of a page is what the page is called by its contents. -/
theorem C52_title_text (p : Page) (t : Text) : p.titleText = some t ↔ CalledBy p t :=
  TitleText.iff p t

/-- There is no title text exactly when neither the title nor any outline of the body opens with a
text. -/
theorem C52_no_title_text (p : Page) : p.titleText = none ↔
    (∀ t, ¬ TitleOpensWith p t) ∧ ∀ o, .outline o ∈ p.contents → ∀ t, ¬ OpensWith o t := by
  constructor
  · intro h
    have hn : ∀ t, ¬ CalledBy p t := fun t ht => by
      rw [← C52_title_text, h] at ht
      cases ht
    have h1 : ∀ t, ¬ TitleOpensWith p t := fun t ht => hn t (.inl ht)
    refine ⟨h1, fun o hm t ht => ?_⟩
    cases hf : TitleText.firstText p.contents with
    | some t' => exact hn t' (.inr ⟨h1, (TitleText.first_iff _ _).1 hf⟩)
    | none =>
      have : t ∈ (p.contents.filterMap PageContent.outline?).filterMap Outline.text :=
        List.mem_filterMap.2 ⟨o, List.mem_filterMap.2 ⟨_, hm, rfl⟩, (TitleText.text_iff o t).2 ht⟩
      rw [TitleText.firstText, List.head?_eq_none_iff] at hf
      rw [hf] at this
      cases this
  · rintro ⟨h1, h2⟩
    cases ht : p.titleText with
    | none => rfl
    | some t =>
      rcases (C52_title_text p t).1 ht with h | ⟨_, b, o, a, hp, ho, _⟩
      · exact absurd h (h1 t)
      · exact absurd ho (h2 o (by rw [hp]; simp) t)

/-- The title text is never empty. -/
theorem C52_never_empty (p : Page) : p.titleText ≠ some [] := by
  intro h
  rcases (C52_title_text p []).1 h with ⟨_, _, _, _, _, h⟩ | ⟨_, _, _, _, _, h, _⟩ <;>
  · obtain ⟨_, _, _, _, _, _, _, h⟩ := h
    exact h rfl

deriving instance Inhabited for Outline, OutlineElement, Title, Page

/-- A page without a title, whose second outline is the first to open with a text. -/
private def paragraph (t : Text) : Outline :=
  { (default : Outline) with
    items := [.element { (default : OutlineElement) with
      contents := [.richText { (default : RichText) with text := t }] }] }

private def sample : Page :=
  { (default : Page) with contents := [.outline (paragraph []), .outline (paragraph ['H', 'i']),
      .outline (paragraph ['X'])] }

example : CalledBy sample ['H', 'i'] := (C52_title_text _ _).1 (by decide +kernel)

example : CalledBy { sample with title := some { (default : Title) with
    contents := [paragraph ['T']] } } ['T'] := (C52_title_text _ _).1 (by decide +kernel)

example : Page.titleText { sample with contents := [.outline (paragraph [])] } = none := by
  decide +kernel

#print axioms C52_title_text
#print axioms C52_no_title_text
#print axioms C52_never_empty

end OneNote
