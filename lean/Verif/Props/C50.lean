/-
C50: The bytes of attachments and images are those in the file.
-/
import Verif.Lemmas.Shown
import Verif.Props.C47
import Verif.Props.C48

namespace OneNote

open Spec Spec.StoreContents Spec.Document Spec.Shown

/-- **Attachments and images byte for byte.** In every section that is read from a file, the contents
of every attachment and of every image, however deep in outlines and tables, are an uninterrupted
part of the bytes of the file. -/
theorem C50_section (fuel : Nat) (ord : Order) (data : Bytes) (name : Text) (s : Section)
    (h : parseSectionBuffer fuel ord data name = .ok s) (d : Bytes) (hd : BytesOf s d) :
    d <:+: data :=
  section_infix (C47_section_sound fuel ord data name s h) hd

/-- In particular they are not longer than the file. -/
theorem C50_length (fuel : Nat) (ord : Order) (data : Bytes) (name : Text) (s : Section)
    (h : parseSectionBuffer fuel ord data name = .ok s) (d : Bytes) (hd : BytesOf s d) :
    d.length ≤ data.length :=
  (C50_section fuel ord data name s h d hd).length_le

theorem section_file {fs : FileSystem} {sanitise : Text → Text} {s : Section}
    {es : List SectionEntry} (h : SectionOf s es) : ∀ {path : Path} {nb : Notebook}, nb.entries = es →
    NotebookIs fs sanitise path nb → ∃ p, fs.isFile p = true ∧ SectionAt fs p s := by
  induction h with
  | here hm =>
    intro path nb he hn
    cases hn with
    | mk _ _ _ _ hes =>
      subst he
      obtain ⟨p, _, hx⟩ := each_mem hes hm
      cases hx with
      | file h1 h2 => exact ⟨p, h1, h2⟩
  | group hm _ ih =>
    intro path nb he hn
    cases hn with
    | mk _ _ _ _ hes =>
      subst he
      obtain ⟨p, _, hx⟩ := each_mem hes hm
      cases hx with
      | directory _ _ _ _ hn => exact ih rfl hn

/-- The same for notebooks: the contents of every attachment and every image of every section, however
deep in section groups, are a part of a file. -/
theorem C50_notebook (env : Env) (n : Nat) (path : Path) (nb : Notebook)
    (h : parseNotebook env n path = .ok nb) (s : Section) (hs : SectionOf s nb.entries) (d : Bytes)
    (hd : BytesOf s d) :
    ∃ p data, env.fs.isFile p = true ∧ env.fs.read p = some data ∧ d <:+: data := by
  obtain ⟨p, hp, data, name, hr, -, hf⟩ := section_file hs rfl (C48_notebook_sound env n path nb h)
  exact ⟨p, data, hp, hr, section_infix hf hd⟩

/-! ### A section with an attachment -/

private def objects : List SampleObject :=
  pageObjects [3001]
    [outlineW 3001 [3002], outlineElementW 3002 [] [3003] [],
     objectW 3003 .embeddedFileNode
      [(.lastModifiedTime, .u32 0), (.embeddedFileContainer, .objectId),
       (.embeddedFileName, stringW ['f'])] [3004],
     objectW 3004 .embeddedFileContainer []]

/-- The page's object group, with file data for the last object. -/
private def group : Body :=
  match groupOf objects with
  | .objectGroup ds os =>
    .objectGroup (ds ++ [.object (sx 3004) 2 0 0 0]) (os ++ [.blobReference [] [] (sx 700)])
  | b => b

private def file : Bytes :=
  fileW (sx 3) sectionGuid ([⟨sx 4, manifestOf sectionGuid⟩, ⟨sx 700, .blob [1, 2, 3]⟩,
      ⟨sx 105, .cellManifest (sx 205)⟩,
      ⟨sx 205, .revisionManifest (sx 205) ExGuid.nil [.root contentRole (sx 2002),
        .root metadataRole (sx 2001), .group (sx 405)]⟩, ⟨sx 405, group⟩] ++
    cellOf 1 [] (.objectGroup [.object (sx 900) 1 0 0 0] [.object [] [] headerProps]) ++
    cellOf 2 [.root contentRole (sx 1000), .root metadataRole (sx 1001)]
      (groupOf (sectionObjects none 1)) ++
    [⟨sx 3, .storageIndex [.cell headerCell (sx 101) ⟨sampleGuid, 1⟩,
      .cell dataCell (sx 102) ⟨sampleGuid, 2⟩, .cell pageCell (sx 105) ⟨sampleGuid, 5⟩]⟩])

private def attachments (s : Section) : List Bytes :=
  s.pageSeries.flatMap fun series => series.pages.flatMap fun p => p.contents.flatMap fun
    | .outline o => o.items.flatMap fun
      | .element e => e.contents.filterMap fun
        | .embeddedFile f => some f.data
        | _ => none
      | _ => []
    | _ => []

private theorem attachments_shown {s : Section} {d : Bytes} (h : d ∈ attachments s) : BytesOf s d := by
  obtain ⟨series, hs, h⟩ := List.mem_flatMap.1 h
  obtain ⟨p, hp, h⟩ := List.mem_flatMap.1 h
  obtain ⟨c, hc, h⟩ := List.mem_flatMap.1 h
  cases c with
  | outline o =>
    obtain ⟨i, hi, h⟩ := List.mem_flatMap.1 h
    cases i with
    | group g => cases h
    | element e =>
      obtain ⟨x, hx, h⟩ := List.mem_filterMap.1 h
      cases x with
      | embeddedFile f =>
        cases h
        exact .file ⟨series, hs, hp⟩ (.inr ⟨o, .inl hc, _, hi, .element (.here hx)⟩)
      | _ => cases h
  | _ => cases h

/-- A file that is read as a section with an attachment of three bytes. -/
example : ∃ data s, parseSectionBuffer 3 Order.id data [] = .ok s ∧ BytesOf s [1, 2, 3] := by
  have h : (parseSectionBuffer 3 Order.id file []).toOption.map attachments = some [[1, 2, 3]] := by
    decide +kernel
  obtain ⟨s, hs, he⟩ := Option.map_eq_some_iff.1 h
  exact ⟨_, s, toOption_some hs, attachments_shown (by rw [he]; exact List.mem_singleton.2 rfl)⟩

#print axioms C50_section
#print axioms C50_length
#print axioms C50_notebook

end OneNote
