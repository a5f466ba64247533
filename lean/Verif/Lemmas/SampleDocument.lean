/-
The section of Spec/SampleDocument can be stored.
-/
import Verif.Spec.SampleDocument
import Verif.Spec.Storable

namespace OneNote.SampleDocument

open Spec Spec.Storable Spec.SampleDocument

/-- Numbers and texts of samples. -/
macro "number" : tactic => `(tactic| first
  | (intro a h; cases h; done)
  | (intro a h; cases h; decide))

theorem definition_ok (label : Text) (h : Plain label) :
    DefinitionOk { (default : NoteTagDefinition) with label := label } :=
  ⟨h, by number, by number, fun n hn => by cases hn; decide⟩

theorem tags_ok : TagsOk [tag, ⟨none, ⟨false, false, true⟩, none⟩, otherTag] := by
  refine ⟨?_, ?_⟩
  · simp only [List.forall_mem_cons]
    exact ⟨by number, by number, by number, fun _ h => (nomatch h)⟩
  · simp only [List.forall_mem_cons]
    refine ⟨fun d hd => ?_, fun d hd => (nomatch hd), fun d hd => ?_, fun _ h => (nomatch h)⟩
    · cases hd
      exact definition_ok _ (by decide)
    · cases hd
      exact definition_ok _ (by decide)

theorem tag_ok : TagsOk [tag] :=
  ⟨fun t ht => tags_ok.completedAt t (by simp at ht; simp [ht]),
   fun t ht => tags_ok.definition t (by simp at ht; simp [ht])⟩

theorem no_tags : TagsOk [] :=
  ⟨fun _ h => (nomatch h), fun _ h => (nomatch h)⟩

theorem style_ok (s : ParagraphStyling) (h : s ∈ hello.textRunFormatting) : StyleOk s := by
  unfold hello at h
  simp only [List.mem_cons, List.not_mem_nil, or_false] at h
  rcases h with rfl | rfl | rfl <;>
    exact ⟨by number, by number, by number, by number, by number, by number, by number, by number,
      by number, by number⟩

theorem plain_style : StyleOk default := style_ok default (by unfold hello; simp)

theorem hello_ok : TextOk hello where
  text := by decide
  embedded := fun h => absurd rfl h
  styles := style_ok
  indices := by decide
  paragraphStyle := plain_style
  paragraphSpaceBefore := by decide
  paragraphSpaceAfter := by decide
  paragraphLineSpacingExact := by number
  noteTags := tags_ok
  embeddedObjects := fun _ h => (nomatch h)
  mathInlineObjects := by
    intro m hm
    cases List.mem_singleton.1 hm
    exact ⟨by decide, by number, by number, by number, by number, by number⟩
  runs := ⟨3, by decide, by decide, by decide⟩

theorem drawing_ok : InkOk drawing := by
  refine ⟨0x3F000000, by decide, ?_, ?_, by number, by number⟩
  · have : StrokeOk 0x3F000000 stroke := by
      refine ⟨?_, by decide, by number, by number, by decide, by decide, by number⟩
      intro p hp
      cases List.mem_singleton.1 hp
      exact ⟨4, -6, by decide, by decide, rfl⟩
    intro s hs
    simp only [drawing, List.mem_cons, List.not_mem_nil, or_false, or_self] at hs
    exact hs ▸ this
  · intro b hb
    exact ⟨1, 2, 30, 40, by decide, by decide, by decide, by decide, (Option.some.inj hb).symm⟩

theorem inText_ok : TextOk inText where
  text := fun h => by cases h
  embedded := fun _ => rfl
  styles := by
    intro s hs
    simp only [inText, List.mem_cons, List.not_mem_nil, or_false, or_self] at hs
    exact hs ▸ plain_style
  indices := by decide
  paragraphStyle := plain_style
  paragraphSpaceBefore := by decide
  paragraphSpaceAfter := by decide
  paragraphLineSpacingExact := by number
  noteTags := no_tags
  embeddedObjects := by
    unfold inText
    simp only [List.forall_mem_cons]
    refine ⟨⟨⟨by decide, fun _ h => (nomatch h), by number, by number, by number⟩, ?_⟩,
      ⟨by decide, by decide⟩, trivial, fun _ h => (nomatch h)⟩
    intro b hb
    exact ⟨1, 2, 3, 4, by decide, by decide, by decide, by decide, (Option.some.inj hb).symm⟩
  mathInlineObjects := fun _ h => (nomatch h)
  runs := ⟨3, by decide, by decide, by decide⟩

theorem picture_ok : ImageOk picture where
  extension := by number
  data := fun h => (nomatch h)
  layoutMaxWidth := by number
  layoutMaxHeight := by number
  altText := by number
  imageFilename := by number
  displayedPageNumber := by number
  text := by number
  textLanguageCode := by number
  pictureWidth := by number
  pictureHeight := by number
  hyperlinkUrl := by number
  offsetHorizontal := by number
  offsetVertical := by number
  noteTags := no_tags
  embeds := by
    intro f hf
    cases List.mem_singleton.1 hf
    exact ⟨by number, by decide⟩

theorem attachment_ok : FileOk attachment :=
  ⟨by decide, by number, by number, by number, by number, no_tags⟩

theorem element_ok {contents : List Content} {children : List OutlineItem}
    (h1 : ∀ c ∈ contents, ContentOk c) (h2 : ∀ i ∈ children, ItemOk i) :
    ElementOk (element contents children) := by
  refine .mk h1 ?_ (by number) (by decide) h2
  intro l hl
  cases List.mem_singleton.1 hl
  exact ⟨by number, by number, by number, by number, by number⟩

theorem table_ok : ContentOk table := by
  refine .table (by decide) (by decide) ?_ (by decide) tag_ok
  intro r hr
  cases List.mem_singleton.1 hr
  refine .mk ?_
  simp only [List.forall_mem_cons]
  refine ⟨.mk ?_ ?_ (by number) ⟨by decide, by decide⟩,
    .mk (fun _ h => (nomatch h)) (by number) (by number) ⟨by decide, by decide⟩, fun _ h => (nomatch h)⟩
  · intro e he
    cases List.mem_singleton.1 he
    exact element_ok (fun c hc => List.mem_singleton.1 hc ▸ .richText hello_ok) (fun _ h => (nomatch h))
  · intro c hc
    cases hc
    exact ⟨by decide, by decide, by decide, by decide⟩

theorem outline_ok : OutlineOk outline where
  childLevel := by decide
  listSpacing := by number
  indents := ⟨by decide, by decide⟩
  layoutMaxHeight := by number
  layoutMaxWidth := by number
  layoutReservedWidth := by number
  layoutMinimumOutlineWidth := by number
  offsetHorizontal := by number
  offsetVertical := by number
  items := by
    intro i hi
    cases List.mem_singleton.1 hi
    refine .element (element_ok ?_ ?_)
    · simp only [List.forall_mem_cons]
      exact ⟨.richText hello_ok, table_ok, .image picture_ok, .ink drawing_ok, fun _ h => (nomatch h)⟩
    · intro i hi
      cases List.mem_singleton.1 hi
      refine .group (by decide) fun i hi => ?_
      cases List.mem_singleton.1 hi
      refine .element (element_ok ?_ fun _ h => (nomatch h))
      simp only [List.forall_mem_cons]
      exact ⟨.richText inText_ok, .unknown, fun _ h => (nomatch h)⟩

theorem page_ok {p : Page} (ht : Opt TitleOk p.title) (hl : -2 ^ 31 ≤ p.level ∧ p.level < 2 ^ 31)
    (h : p = { page with title := p.title, level := p.level }) : PageOk p := by
  rw [h]
  refine ⟨ht, hl, by number, by number, ?_⟩
  simp only [page, List.forall_mem_cons]
  exact ⟨outline_ok, attachment_ok, picture_ok, drawing_ok, trivial, fun _ h => (nomatch h)⟩

theorem title_ok : Opt TitleOk page.title := by
  intro t ht
  cases ht
  exact ⟨fun o ho => List.mem_singleton.1 ho ▸ outline_ok, by decide, by decide⟩

theorem section_ok : SectionOk sect where
  pages := by
    have h1 : PageOk page := page_ok title_ok (by decide) rfl
    have h2 : PageOk { page with title := none, level := -1 } := page_ok (fun _ h => (nomatch h)) (by decide) rfl
    unfold sect
    simp only [List.forall_mem_cons]
    exact ⟨⟨h1, h2, fun _ h => (nomatch h)⟩, ⟨h1, fun _ h => (nomatch h)⟩, fun _ h => (nomatch h)⟩
  color := by
    intro c hc
    cases hc
    exact ⟨by decide, by decide, by decide, by decide⟩
  plain := by decide
  stripped := by
    rintro ⟨t, h⟩
    have := congrArg List.reverse h
    rw [List.reverse_append] at this
    cases this

end OneNote.SampleDocument
