/-
The title text of a page.
-/
import Verif.Spec.Title

namespace OneNote.TitleText

open Spec

theorem text_iff (o : Outline) (t : Text) : o.text = some t ↔ OpensWith o t := by
  unfold Outline.text OpensWith
  cases hi : o.items with
  | nil => simp
  | cons i items =>
    cases i with
    | group g => simp [OutlineItem.element?]
    | element e =>
      cases hc : e.contents with
      | nil => simp [OutlineItem.element?, hc]
      | cons c contents =>
        cases c with
        | richText r =>
          have hs : (do
              let item ← (OutlineItem.element e :: items).head?
              let element ← item.element?
              let content ← element.contents.head?
              let text ← content.richText?
              if text.text.isEmpty then none else some text.text) = some t ↔
                r.text = t ∧ t ≠ [] := by
            simp only [List.head?_cons, Option.bind_eq_bind, Option.bind_some, OutlineItem.element?,
              hc, Content.richText?]
            cases h : r.text with
            | nil =>
              simp only [List.isEmpty_nil, if_true]
              exact ⟨nofun, fun ⟨a, b⟩ => absurd a.symm b⟩
            | cons x xs =>
              simp only [List.isEmpty_cons, Option.some.injEq]
              exact ⟨fun h => ⟨by simpa using h, by rintro rfl; simp at h⟩, fun h => by simp [h.1]⟩
          rw [hs]
          constructor
          · rintro ⟨h, ht⟩
            exact ⟨e, items, r, contents, rfl, hc, h, ht⟩
          · rintro ⟨_, _, _, _, h1, h2, h3, h4⟩
            cases h1
            rw [hc] at h2
            cases h2
            exact ⟨h3, h4⟩
        | _ =>
          constructor
          · intro h; simp [OutlineItem.element?, hc, Content.richText?] at h
          · rintro ⟨_, _, _, _, h1, h2, _, _⟩
            cases h1
            rw [hc] at h2
            cases h2

theorem none_iff (o : Outline) : o.text = none ↔ ∀ t, ¬ OpensWith o t := by
  constructor
  · intro h t ht
    rw [(text_iff o t).2 ht] at h
    cases h
  · intro h
    cases ht : o.text with
    | none => rfl
    | some t => exact absurd ((text_iff o t).1 ht) (h t)

theorem title_iff (p : Page) (t : Text) :
    (p.title.bind fun x => x.contents.head?.bind Outline.text) = some t ↔ TitleOpensWith p t := by
  unfold TitleOpensWith
  cases ht : p.title with
  | none => simp
  | some title =>
    cases hc : title.contents with
    | nil => simp [hc]
    | cons o rest =>
      simp only [Option.bind_some, hc, List.head?_cons, text_iff]
      constructor
      · intro h; exact ⟨title, o, rest, rfl, hc, h⟩
      · rintro ⟨_, _, _, h1, h2, h3⟩
        cases h1
        rw [hc] at h2
        cases h2
        exact h3

theorem title_none (p : Page) :
    (p.title.bind fun x => x.contents.head?.bind Outline.text) = none ↔
      ∀ t, ¬ TitleOpensWith p t := by
  simp only [← title_iff]
  constructor
  · intro h t; rw [h]; simp
  · intro h
    cases hx : (p.title.bind fun x => x.contents.head?.bind Outline.text) with
    | none => rfl
    | some t => exact absurd hx (h t)

/-- The first text in a list of contents. -/
def firstText (cs : List PageContent) : Option Text :=
  ((cs.filterMap PageContent.outline?).filterMap Outline.text).head?

theorem first_cons (c : PageContent) (cs : List PageContent) :
    firstText (c :: cs) = (c.outline?.bind Outline.text).or (firstText cs) := by
  unfold firstText
  cases hc : c.outline? with
  | none => simp [hc]
  | some o =>
    cases ho : o.text with
    | none => simp [hc, ho]
    | some t => simp [hc, ho]

theorem outline_iff (c : PageContent) (o : Outline) : c.outline? = some o ↔ c = .outline o := by
  cases c <;> simp [PageContent.outline?]

theorem first_iff (cs : List PageContent) (t : Text) : firstText cs = some t ↔
    ∃ before o after, cs = before ++ .outline o :: after ∧ OpensWith o t ∧
      ∀ o', .outline o' ∈ before → ∀ t', ¬ OpensWith o' t' := by
  induction cs with
  | nil =>
    constructor
    · intro h; cases h
    · rintro ⟨b, o, a, h, _⟩
      cases b <;> cases h
  | cons c cs ih =>
    rw [first_cons]
    constructor
    · intro h
      cases hc : c.outline?.bind Outline.text with
      | some t' =>
        rw [hc] at h
        cases h
        obtain ⟨o, ho, ht⟩ := Option.bind_eq_some_iff.1 hc
        rw [(outline_iff c o).1 ho]
        exact ⟨[], o, cs, rfl, (text_iff o _).1 ht, fun _ h => nomatch h⟩
      | none =>
        rw [hc] at h
        obtain ⟨b, o, a, rfl, ho, hb⟩ := ih.1 h
        refine ⟨c :: b, o, a, rfl, ho, fun o' hm => ?_⟩
        cases hm with
        | head =>
          exact (none_iff o').1 hc
        | tail _ hm => exact hb o' hm
    · rintro ⟨b, o, a, h, ho, hb⟩
      cases b with
      | nil =>
        cases h
        simp [PageContent.outline?, (text_iff o t).2 ho]
      | cons x b =>
        cases h
        have hx : c.outline?.bind Outline.text = none := by
          cases hc : c.outline? with
          | none => rfl
          | some o' =>
            have := (outline_iff c o').1 hc
            subst this
            exact (none_iff o').2 (hb o' (.head _))
        rw [hx, Option.none_or]
        exact ih.2 ⟨b, o, a, rfl, ho, fun o' hm => hb o' (.tail _ hm)⟩

theorem iff (p : Page) (t : Text) : p.titleText = some t ↔ CalledBy p t := by
  unfold Page.titleText CalledBy BodyOpensWith
  rw [← first_iff, ← title_none, ← title_iff]
  show Option.or _ (firstText p.contents) = some t ↔ _
  cases (p.title.bind fun x => x.contents.head?.bind Outline.text) <;> simp

end OneNote.TitleText
