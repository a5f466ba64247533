/-
C66: Attachments and images have plain file names. FALSE of the code: names are not checked.
-/
import Verif.Spec.FileNames
import Verif.Spec.Tags
import Verif.Spec.SampleFile
import Verif.Lemmas.Shown
import Verif.Lemmas.Terminates
import Verif.Lemmas.Utf16
import Verif.Props.C43

namespace OneNote

open Spec Spec.Document Spec.Fields Spec.Objects Spec.Shown Spec.Tags Spec.FileNames

/-! ### Refutation -/

private def objects (name : Text) : List SampleObject :=
  pageObjects [3001]
    [outlineW 3001 [3002], outlineElementW 3002 [] [3003] [],
     objectW 3003 .embeddedFileNode
      [(.lastModifiedTime, .u32 0), (.embeddedFileContainer, .objectId),
       (.embeddedFileName, stringW name)] [3004],
     objectW 3004 .embeddedFileContainer []]

/-- The page's object group, with file data for the last object. -/
private def group (name : Text) : Body :=
  match groupOf (objects name) with
  | .objectGroup ds os =>
    .objectGroup (ds ++ [.object (sx 3004) 2 0 0 0]) (os ++ [.blobReference [] [] (sx 700)])
  | b => b

/-- A section file with an attachment of the given name. -/
private def file (name : Text) : Bytes :=
  fileW (sx 3) sectionGuid ([⟨sx 4, manifestOf sectionGuid⟩, ⟨sx 700, .blob [1, 2, 3]⟩,
      ⟨sx 105, .cellManifest (sx 205)⟩,
      ⟨sx 205, .revisionManifest (sx 205) ExGuid.nil [.root contentRole (sx 2002),
        .root metadataRole (sx 2001), .group (sx 405)]⟩, ⟨sx 405, group name⟩] ++
    cellOf 1 [] (.objectGroup [.object (sx 900) 1 0 0 0] [.object [] [] headerProps]) ++
    cellOf 2 [.root contentRole (sx 1000), .root metadataRole (sx 1001)]
      (groupOf (sectionObjects none 1)) ++
    [⟨sx 3, .storageIndex [.cell headerCell (sx 101) ⟨sampleGuid, 1⟩,
      .cell dataCell (sx 102) ⟨sampleGuid, 2⟩, .cell pageCell (sx 105) ⟨sampleGuid, 5⟩]⟩])

private def attachments (s : Section) : List EmbeddedFile :=
  s.pageSeries.flatMap fun series => series.pages.flatMap fun p => p.contents.flatMap fun
    | .outline o => o.items.flatMap fun
      | .element e => e.contents.filterMap fun
        | .embeddedFile f => some f
        | _ => none
      | _ => []
    | _ => []

private theorem attachments_shown {s : Section} {f : EmbeddedFile} (h : f ∈ attachments s) :
    ∃ p, PageOf p s ∧ FileOn f p := by
  obtain ⟨series, hs, h⟩ := List.mem_flatMap.1 h
  obtain ⟨p, hp, h⟩ := List.mem_flatMap.1 h
  obtain ⟨c, hc, h⟩ := List.mem_flatMap.1 h
  refine ⟨p, ⟨series, hs, hp⟩, ?_⟩
  cases c with
  | outline o =>
    obtain ⟨i, hi, h⟩ := List.mem_flatMap.1 h
    cases i with
    | group g => cases h
    | element e =>
      obtain ⟨x, hx, h⟩ := List.mem_filterMap.1 h
      cases x with
      | embeddedFile f =>
        cases h
        exact .inr ⟨o, .inl hc, _, hi, .element (.here hx)⟩
      | _ => cases h
  | _ => cases h

private theorem facts {name : Text}
    (h : (parseSectionBuffer 3 Order.id (file name) []).toOption.map
      (fun s => (attachments s).map (·.filename)) = some [name]) :
    ∃ s p f, parseSectionBuffer 3 Order.id (file name) [] = .ok s ∧ PageOf p s ∧ FileOn f p ∧
      f.filename = name := by
  obtain ⟨s, hs, h⟩ := Option.map_eq_some_iff.1 h
  cases ha : attachments s with
  | nil => rw [ha] at h; cases h
  | cons f fs =>
    rw [ha] at h
    injection h with h
    obtain ⟨p, h1, h2⟩ := attachments_shown (s := s) (f := f) (by rw [ha]; exact .head _)
    exact ⟨s, p, f, toOption_some hs, h1, h2, h⟩

/-- **Refuted**: an attachment is shown with the name `../x`. Whoever saves it under this name in a
directory writes to the directory above. -/
theorem C66_refuted : ∃ data s p f, parseSectionBuffer 3 Order.id data [] = .ok s ∧ PageOf p s ∧
    FileOn f p ∧ f.filename = ['.', '.', '/', 'x'] ∧ ¬ PlainName f.filename := by
  obtain ⟨s, p, f, h1, h2, h3, h4⟩ := facts (name := ['.', '.', '/', 'x']) (by decide +kernel)
  exact ⟨_, s, p, f, h1, h2, h3, h4, by rw [h4]; decide⟩

/-! ### What holds -/

/-- **What holds**: the name of every attachment is exactly the stored one, and never contains the
character that ends a path. So it is plain exactly if the stored name is. -/
theorem C66_file_partial (fuel : Nat) (ord : Order) (data : Bytes) (name : Text) (s : Section)
    (h : parseSectionBuffer fuel ord data name = .ok s) (p : Page) (hp : PageOf p s)
    (f : EmbeddedFile) (hf : FileOn f p) :
    ∃ store space id o, readStore ord data = .ok store ∧ StoredIn store space id o ∧
      FileIs space id f ∧ Required o.props.properties Word.embeddedFileName Value.text f.filename ∧
      Char.ofNat 0 ∉ f.filename := by
  obtain ⟨store, hr, -, hs⟩ := (C43_buffer ord data name s).1 ⟨fuel, h⟩
  obtain ⟨cell, space, hsp, hpage⟩ := page_space hs hp
  obtain ⟨id, hi⟩ := file_object hpage hf
  obtain ⟨o, n, c, d, tags, h1, h2, -, -, -, rfl⟩ := _root_.id hi
  have hn := h2.embeddedFileName
  refine ⟨store, space, id, o, hr, ⟨⟨cell, hsp⟩, h1⟩, hi, hn, ?_⟩
  obtain ⟨v, -, t, -, h0, -⟩ := hn
  exact h0

/-- The same for the names of images, if they have one. -/
theorem C66_image_partial (fuel : Nat) (ord : Order) (data : Bytes) (name : Text) (s : Section)
    (h : parseSectionBuffer fuel ord data name = .ok s) (p : Page) (hp : PageOf p s)
    (i : Image) (hi : ImageOn i p) (t : Text) (ht : i.imageFilename = some t) :
    ∃ store space id o, readStore ord data = .ok store ∧ StoredIn store space id o ∧
      ImageIs space id i ∧ Required o.props.properties Word.imageFilename Value.text t ∧
      Char.ofNat 0 ∉ t := by
  obtain ⟨store, hr, -, hs⟩ := (C43_buffer ord data name s).1 ⟨fuel, h⟩
  obtain ⟨cell, space, hsp, hpage⟩ := page_space hs hp
  obtain ⟨id, hi⟩ := image_object hpage hi
  obtain ⟨o, n, c, d, tags, h1, h2, -, -, -, rfl⟩ := _root_.id hi
  have hn : Required o.props.properties Word.imageFilename Value.text t := by
    rcases h2.imageFilename with ⟨-, h0⟩ | ⟨v, a, hv, ha, h0⟩
    · cases ht.symm.trans h0
    · cases ht.symm.trans h0
      exact ⟨v, hv, ha⟩
  refine ⟨store, space, id, o, hr, ⟨⟨cell, hsp⟩, h1⟩, hi, hn, ?_⟩
  obtain ⟨v, -, t, -, h0, -⟩ := hn
  exact h0

/-- An attachment with a plain name. -/
example : ∃ data s p f, parseSectionBuffer 3 Order.id data [] = .ok s ∧ PageOf p s ∧
    FileOn f p ∧ f.filename = ['a', '.', 'b'] ∧ PlainName f.filename := by
  obtain ⟨s, p, f, h1, h2, h3, h4⟩ := facts (name := ['a', '.', 'b']) (by decide +kernel)
  exact ⟨_, s, p, f, h1, h2, h3, h4, by rw [h4]; decide⟩

#print axioms C66_refuted
#print axioms C66_file_partial
#print axioms C66_image_partial

end OneNote
