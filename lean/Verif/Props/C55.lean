/-
C55: Contents of a type the library does not know are shown as unknown.
-/
import Verif.Lemmas.ReadBack

namespace OneNote

open Spec Spec.StoreContents Spec.Document Spec.Objects

/-- A section file with one page with one content, an object of the kind `kind` without properties. -/
def fileWithContent (kind : Nat) : Bytes :=
  sectionFile none [3001] [{ id := 3001, jcid := kind, refs := [], cells := [], props := propsW 0 0 [] }]

private def objects (kind : Nat) : List SampleObject :=
  pageObjects [3001] [{ id := 3001, jcid := kind, refs := [], cells := [], props := propsW 0 0 [] }]

private theorem file_eq (kind : Nat) : fileWithContent kind = Written.fileFor (objects kind) := rfl

private theorem nodup (kind : Nat) : ((objects kind).map (·.id)).Nodup := by
  show [2001, 2002, 2003, 3001].Nodup
  decide

private theorem good {kind : Nat} (h : kind < 2 ^ 32) : ∀ o ∈ objects kind, Written.Good o := by
  have h0 : ∀ o ∈ objects 0, Written.Good o := by decide +kernel
  intro o ho
  unfold objects pageObjects at ho h0
  rcases List.mem_append.1 ho with ho | ho
  · exact h0 o (List.mem_append_left _ ho)
  · obtain rfl := List.mem_singleton.1 ho
    obtain ⟨-, h1⟩ := h0 _ (List.mem_append_right _ (List.mem_singleton.2 rfl))
    exact ⟨h, h1⟩

private theorem fitting (kind : Nat) : ∀ o ∈ objects kind, Written.Fitting o := by
  have h0 : ∀ o ∈ objects 0, Written.Fitting o := by decide +kernel
  intro o ho
  unfold objects pageObjects at ho h0
  rcases List.mem_append.1 ho with ho | ho
  · exact h0 o (List.mem_append_left _ ho)
  · obtain rfl := List.mem_singleton.1 ho
    obtain ⟨h1, h2⟩ := h0 _ (List.mem_append_right _ (List.mem_singleton.2 rfl))
    exact ⟨h1, h2⟩

private theorem content_at (kind : Nat) :
    ∃ o, At (Written.spaceOf pageCell (sx 2002) (sx 2001) (objects kind)) (sx 3001) o ∧
      o.jcId = kind :=
  ⟨_, Written.get_space (nodup kind) (.tail _ (.tail _ (.tail _ (.head _)))), rfl⟩

private theorem content_kind {space : ObjectSpace} {id : ExGuid} {o : Object} {c : PageContent}
    (ho : At space id o) (h : PageContentIs space id c) : o.jcId ∈ kinds := by
  have key : ∀ {o'}, At space id o' → o'.jcId ∈ kinds → o.jcId ∈ kinds := by
    intro o' h' hk
    unfold At at ho h'
    rw [ho] at h'
    cases h'
    exact hk
  cases h with
  | image h =>
    obtain ⟨_, _, _, _, _, h1, h2, _⟩ := h
    exact key h1 (by rw [h2.kind]; decide)
  | file h =>
    obtain ⟨_, _, _, _, _, h1, h2, _⟩ := h
    exact key h1 (by rw [h2.kind]; decide)
  | outline h =>
    obtain ⟨_, _, _, h1, h2, _⟩ := h
    exact key h1 (by rw [h2.kind]; decide)
  | ink h =>
    obtain ⟨_, _, h1, h2, _⟩ := h
    exact key h1 (by rw [h2.kind]; decide)
  | unknown h1 h2 => exact key h1 h2

/-- **Refuted**: a section with a content of a kind that is not one of the thirty the library lists is
not shown at all, whichever kind it is. -/
theorem C55_unknown_kind_refuted (kind : Nat) (h32 : kind < 2 ^ 32) (hk : kind ∉ kinds)
    (fuel : Nat) (ord : Order) (name : Text) (s : Section) :
    parseSectionBuffer fuel ord (fileWithContent kind) name ≠ .ok s := by
  intro h
  have h := C47_section_sound fuel ord _ name s h
  rw [file_eq] at h
  obtain ⟨p, hp, -⟩ := Written.page_read (nodup kind) (good h32) (fitting kind) h
  obtain ⟨c, hc, -⟩ := Written.content_read (nodup kind) hp
  obtain ⟨o, ho, hj⟩ := content_at kind
  exact hk (hj ▸ content_kind ho hc)

/-- **What holds**: a content of a kind that the library lists but has no content for is shown as
unknown. -/
theorem C55_listed_kind_partial (kind : Nat) (hk : kind ∈ kinds) (h1 : kind ≠ 0x00060011)
    (h2 : kind ≠ 0x00060035) (h3 : kind ≠ 0x0006000C) (h4 : kind ≠ 0x00060014) (name : Text) :
    ∃ fuel s p, (∀ ord, parseSectionBuffer fuel ord (fileWithContent kind) name = .ok s) ∧
      s.pageSeries = [⟨[p]⟩] ∧ p.contents = [.unknown] := by
  have h32 : kind < 2 ^ 32 := by
    have : ∀ k ∈ kinds, k < 2 ^ 32 := by decide
    exact this kind hk
  obtain ⟨o, ho, rfl⟩ := content_at kind
  obtain ⟨p, hp, hc⟩ := Written.page_written (nodup o.jcId) (.unknown ho hk h1 h2 h3 h4)
  obtain ⟨hplain, s, hs, he⟩ := Written.section_written (nodup o.jcId) (good h32) (fitting o.jcId) hp
    name
  obtain ⟨fuel, hf⟩ := C47_section_complete _ name s hplain hs
  exact ⟨fuel, s, p, hf, he, hc⟩

/-- Which contents of a page are shown as unknown: the objects of a listed kind other than images,
attachments, outlines and drawings. -/
theorem C55_page_content (space : ObjectSpace) (id : ExGuid) :
    (∃ fuel, parsePageContent fuel space id = .ok .unknown) ↔
      ∃ o, At space id o ∧ o.jcId ∈ kinds ∧ o.jcId ≠ 0x00060011 ∧ o.jcId ≠ 0x00060035 ∧
        o.jcId ≠ 0x0006000C ∧ o.jcId ≠ 0x00060014 := by
  rw [pageContent_iff]
  constructor
  · rintro (_ | _ | _ | _ | ⟨h1, h2, h3, h4, h5, h6⟩)
    exact ⟨_, h1, h2, h3, h4, h5, h6⟩
  · rintro ⟨o, h1, h2, h3, h4, h5, h6⟩
    exact .unknown h1 h2 h3 h4 h5 h6

/-- Which contents of an outline element are: those other than images, attachments, texts, drawings
and tables. -/
theorem C55_element_content (space : ObjectSpace) (id : ExGuid) :
    (∃ fuel, parseContent (recAt space fuel) space id = .ok .unknown) ↔
      ∃ o, At space id o ∧ o.jcId ∈ kinds ∧ o.jcId ≠ 0x00060011 ∧ o.jcId ≠ 0x00060035 ∧
        o.jcId ≠ 0x0006000E ∧ o.jcId ≠ 0x00060014 ∧ o.jcId ≠ 0x00060022 := by
  constructor
  · rintro ⟨fuel, h⟩
    rcases sound_content (sound_rec space fuel) h with _ | _ | _ | _ | _ | ⟨h1, h2, h3, h4, h5, h6, h7⟩
    exact ⟨_, h1, h2, h3, h4, h5, h6, h7⟩
  · rintro ⟨o, h1, h2, h3, h4, h5, h6, h7⟩
    exact complete_content (complete_rec space _) (Nat.le_refl _) (.unknown h1 h2 h3 h4 h5 h6 h7)

/-- Both kinds of kinds exist: 0x00060036 is not listed, and that of a page title is. -/
example : 0x00060036 < 2 ^ 32 ∧ 0x00060036 ∉ kinds := by decide

example : 0x0006002C ∈ kinds ∧ 0x0006002C ≠ 0x00060011 ∧ 0x0006002C ≠ 0x00060035 ∧
    0x0006002C ≠ 0x0006000C ∧ 0x0006002C ≠ 0x00060014 := by decide

#print axioms C55_unknown_kind_refuted
#print axioms C55_listed_kind_partial
#print axioms C55_page_content
#print axioms C55_element_content

end OneNote
