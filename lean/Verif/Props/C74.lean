/-
C74: The identifiers in a file do not matter.
-/
import Verif.Lemmas.RenameDocument
import Verif.Props.C48
import Verif.Spec.SampleFile

namespace OneNote

open Spec Spec.StoreContents Spec.Document

/-- The two files have the same data elements up to a renaming of the identifiers. -/
def SameButIds (data data' : Bytes) : Prop :=
  ∃ (r : Renaming) (si : ExGuid) (es : List LaxElement),
    HoldsElements data si es ∧ HoldsElements data' (r.new si) (es.map r.element)

theorem sameButIds_symm {data data' : Bytes} (h : SameButIds data data') : SameButIds data' data := by
  obtain ⟨r, si, es, h1, h2⟩ := h
  refine ⟨Rename.undo r, _, _, h2, ?_⟩
  rw [Rename.undo_elements]
  have e : (Rename.undo r).new (r.new si) = si := r.old_new si
  rw [e]
  exact h1

theorem plain_renamed {data data' : Bytes} (h : SameButIds data data') (hu : PlainFile data) :
    PlainFile data' := by
  obtain ⟨r, si, es, h1, h2⟩ := h
  exact (Rename.files r h1 h2).1 hu

/-- **The identifiers in a section file do not matter**: if they are replaced one for one by others
(except those with a meaning of their own, `reservedIds`), the file shows the same section, whatever
order its hash maps are visited in. `hu` is the hypothesis of `C24`. -/
theorem C74_section (data data' : Bytes) (h : SameButIds data data') (hu : PlainFile data)
    (ord ord' : Order) (name : Text) (s : Section) :
    (∃ fuel, parseSectionBuffer fuel ord data name = .ok s) ↔
      ∃ fuel, parseSectionBuffer fuel ord' data' name = .ok s := by
  rw [C47_section_exactly data name s hu ord,
    C47_section_exactly data' name s (plain_renamed h hu) ord']
  constructor
  · obtain ⟨r, si, es, h1, h2⟩ := h
    exact Rename.section_file r h1 h2
  · obtain ⟨r, si, es, h1, h2⟩ := sameButIds_symm h
    exact Rename.section_file r h1 h2

/-- **Nor do those in the files of a notebook**, each of which may have its own renaming. -/
theorem C74_notebook (fs : FileSystem) (files : Path → Option Bytes) (sanitise : Text → Text)
    (path : Path) (hu : PlainFiles fs)
    (hf : ∀ p, (fs.read p).isSome = (files p).isSome ∧ ∀ d d', fs.read p = some d →
      files p = some d' → SameButIds d d')
    (ord ord' : Order) (nb : Notebook) :
    (∃ n fuel, parseNotebook ⟨fs, sanitise, ord, fuel⟩ n path = .ok nb) ↔
      ∃ n fuel, parseNotebook ⟨{ fs with read := files }, sanitise, ord', fuel⟩ n path = .ok nb := by
  have there : ∀ p d, fs.read p = some d → ∃ d', files p = some d' ∧ SameButIds d d' := by
    intro p d hd
    obtain ⟨d', hd'⟩ := Option.isSome_iff_exists.1 ((hf p).1 ▸ Option.isSome_iff_exists.2 ⟨d, hd⟩)
    exact ⟨d', hd', (hf p).2 d d' hd hd'⟩
  have back : ∀ p d', files p = some d' → ∃ d, fs.read p = some d ∧ SameButIds d d' := by
    intro p d' hd'
    obtain ⟨d, hd⟩ := Option.isSome_iff_exists.1
      ((hf p).1.symm ▸ Option.isSome_iff_exists.2 ⟨d', hd'⟩)
    exact ⟨d, hd, (hf p).2 d d' hd hd'⟩
  have hu' : PlainFiles { fs with read := files } := by
    intro p d' hd'
    obtain ⟨d, hd, h⟩ := back p d' hd'
    exact plain_renamed h (hu p d hd)
  have sections : ∀ {d d'}, SameButIds d d' → ∀ name x, SectionFile d name x → SectionFile d' name x := by
    rintro d d' ⟨r, si, es, h1, h2⟩ name x
    exact Rename.section_file r h1 h2
  have tocs : ∀ {d d'}, SameButIds d d' → ∀ names color, TocFile d names color →
      TocFile d' names color := by
    rintro d d' ⟨r, si, es, h1, h2⟩ names color
    exact Rename.toc_file r h1 h2
  rw [C48_notebook_exactly fs sanitise path nb hu ord,
    C48_notebook_exactly { fs with read := files } sanitise path nb hu' ord']
  obtain ⟨entries, color⟩ := nb
  constructor
  · refine Rename.notebook_is (fun p d hd => ?_) (fun p d hd => ?_) entries
    · obtain ⟨d', hd', h⟩ := there p d hd
      exact ⟨d', hd', sections h⟩
    · obtain ⟨d', hd', h⟩ := there p d hd
      exact ⟨d', hd', tocs h⟩
  · refine Rename.notebook_is (fs := { fs with read := files }) (files := fs.read)
      (fun p d' hd' => ?_) (fun p d' hd' => ?_) entries
    · obtain ⟨d, hd, h⟩ := back p d' hd'
      exact ⟨d, hd, sections (sameButIds_symm h)⟩
    · obtain ⟨d, hd, h⟩ := back p d' hd'
      exact ⟨d, hd, tocs (sameButIds_symm h)⟩

/-! ### A renamed notebook -/

/-- Another GUID. -/
private def otherGuid : Guid := ⟨1, 2, 3, 4, 5, 6, 7, 8, 9, 10, 11, 12, 13, 14, 15, 16⟩

private def swap (g : Guid) : Guid :=
  if g = sampleGuid then otherGuid else if g = otherGuid then sampleGuid else g

private theorem swap_swap (g : Guid) : swap (swap g) = g := by
  have h : otherGuid ≠ sampleGuid := by decide
  unfold swap
  by_cases h1 : g = sampleGuid
  · rw [if_pos h1, if_neg h, if_pos rfl, h1]
  · rw [if_neg h1]
    by_cases h2 : g = otherGuid
    · rw [if_pos h2, if_pos rfl, h2]
    · rw [if_neg h2, if_neg h1, if_neg h2]

/-- All identifiers get another GUID and another number. -/
private def renumber : Renaming where
  new i := ⟨swap i.guid, if i.guid = sampleGuid ∨ i.guid = otherGuid then
    (if i.value % 2 = 0 then i.value + 1 else i.value - 1) else i.value⟩
  old i := ⟨swap i.guid, if i.guid = sampleGuid ∨ i.guid = otherGuid then
    (if i.value % 2 = 0 then i.value + 1 else i.value - 1) else i.value⟩
  old_new := back
  new_old := back
  reserved := by decide +kernel
where
  back (i : ExGuid) : (⟨swap (swap i.guid), _⟩ : ExGuid) = i := by
    obtain ⟨g, n⟩ := i
    have hg : (swap g = sampleGuid ∨ swap g = otherGuid) ↔ (g = sampleGuid ∨ g = otherGuid) := by
      have h : ∀ g, (g = sampleGuid ∨ g = otherGuid) → (swap g = sampleGuid ∨ swap g = otherGuid) := by
        rintro g (rfl | rfl)
        · exact .inr (by decide)
        · exact .inl (by decide)
      exact ⟨fun x => by have := h _ x; rwa [swap_swap] at this, h g⟩
    simp only [swap_swap, ExGuid.mk.injEq, true_and, hg]
    split
    · split <;> split <;> omega
    · rfl

private def renamed (es : List Element) : List Element :=
  es.map fun e => ⟨renumber.new e.id, renumber.body e.body⟩

private def elements : List Element :=
  ⟨sx 4, manifestOf sectionGuid⟩ ::
    storeElements [.root contentRole (sx 1000), .root metadataRole (sx 1001)]
      (sectionObjects (some ['N']) 0)

/-- A table of contents with the section `s`. -/
private def contents : List Element :=
  ⟨sx 4, manifestOf tocGuid⟩ :: storeElements [.root contentRole (sx 1000)]
    [objectW 1000 .tocContainer [(.tocChildren, .objectIds 1)] [4000],
      objectW 4000 .tocContainer
        [(.folderChildFilename, stringW ['s']), (.notebookElementOrderingId, .u32 1)]]

private def filesOf (si : ExGuid) (toc sec : List Element) (p : Path) : Option Bytes :=
  if p = [.rootDir, .normal ['t']] then some (fileW si tocGuid toc)
  else if p = [.rootDir, .normal ['s']] then some (fileW si sectionGuid sec)
  else none

private def disk (si : ExGuid) (toc sec : List Element) : FileSystem where
  pathExists _ := true
  isFile _ := true
  canonicalize := some
  readDir _ := none
  read := filesOf si toc sec

private def packaged (schema : Guid) (es : List Element) : Packaging :=
  ⟨schema, Guid.nil, Guid.nil, packageStore, sx 3, schema, packageOf es⟩

private theorem unambiguous_of {p : Packaging}
    (h1 : (p.package.storageIndexes.get? p.storageIndex).isSome = true)
    (h2 : p.package.storageManifests.length ≤ 1)
    (h : ∀ e ∈ p.package.storageIndexes, ∀ e' ∈ e.2.cellMappings,
      (p.package.resolveCellRevisionManifestId e.2 e'.2.id).isSome = true) : Unambiguous p where
  index := .inl (Option.isSome_iff_exists.mp h1)
  manifest := h2
  cells := fun _ _ _ _ hi hm => .inr (.inl ((leads_iff _ _ _).mpr
      (Option.isSome_iff_exists.mp (h _ hi _ hm))))

private theorem plain_of_parse {data rest : Bytes} {p : Packaging}
    (h : Packaging.parse data = .ok (p, rest)) (hu : Unambiguous p) : PlainFile data := by
  intro q hq
  have hq := holds_iff.1 hq
  unfold P.run at hq
  rw [h] at hq
  cases hq
  exact hu

private theorem disk_plain {toc sec : List Element} (ht : ∀ e ∈ toc, ElementFits e)
    (hs : ∀ e ∈ sec, ElementFits e) (ut : Unambiguous (packaged tocGuid toc))
    (us : Unambiguous (packaged sectionGuid sec)) : PlainFiles (disk (sx 3) toc sec) := by
  intro p d h
  unfold disk filesOf at h
  dsimp only at h
  split at h
  · cases h; exact plain_of_parse (fileW_parse (by decide) ht) ut
  split at h
  · cases h; exact plain_of_parse (fileW_parse (by decide) hs) us
  · cases h

private theorem sameButIds_of {schema : Guid} {es : List Element} (hf : ∀ e ∈ es, ElementFits e)
    (hf' : ∀ e ∈ renamed es, ElementFits e) :
    SameButIds (fileW (sx 3) schema es) (fileW (renumber.new (sx 3)) schema (renamed es)) := by
  refine ⟨renumber, sx 3, es.map ordinary, fileW_holds (by decide) hf, ?_⟩
  have : (es.map ordinary).map renumber.element = (renamed es).map ordinary := by
    rw [renamed, List.map_map, List.map_map]
    rfl
  rw [this]
  exact fileW_holds (by decide) hf'

/-- A notebook with one section; on the other disk all identifiers of both files are different. -/
example : ∃ (fs : FileSystem) (files : Path → Option Bytes) (path : Path) (nb : Notebook),
    PlainFiles fs ∧
    (∀ p, (fs.read p).isSome = (files p).isSome ∧ ∀ d d', fs.read p = some d →
      files p = some d' → SameButIds d d') ∧
    (∃ p d d', fs.read p = some d ∧ files p = some d' ∧ d ≠ d') ∧
    parseNotebook ⟨fs, fun x => x, Order.id, 3⟩ 3 path = .ok nb ∧ nb.entries.length = 1 := by
  have ht : ∀ e ∈ contents, ElementFits e := by decide +kernel
  have ht' : ∀ e ∈ renamed contents, ElementFits e := by decide +kernel
  have hs : ∀ e ∈ elements, ElementFits e := by decide +kernel
  have hs' : ∀ e ∈ renamed elements, ElementFits e := by decide +kernel
  have hn : (parseNotebook ⟨disk (sx 3) contents elements, fun x => x, Order.id, 3⟩ 3
      [.rootDir, .normal ['t']]).toOption.map (fun nb => nb.entries.length) = some 1 := by
    decide +kernel
  obtain ⟨nb, hn, hl⟩ := Option.map_eq_some_iff.1 hn
  refine ⟨disk (sx 3) contents elements,
    filesOf (renumber.new (sx 3)) (renamed contents) (renamed elements), [.rootDir, .normal ['t']], nb,
    ?_, ?_, ⟨[.rootDir, .normal ['s']], _, _, rfl, rfl, by decide +kernel⟩, toOption_some hn, hl⟩
  · exact disk_plain ht hs
      (unambiguous_of (by decide +kernel) (by decide +kernel) (by decide +kernel))
      (unambiguous_of (by decide +kernel) (by decide +kernel) (by decide +kernel))
  · intro p
    show (filesOf _ _ _ p).isSome = (filesOf _ _ _ p).isSome ∧
      ∀ d d', filesOf _ _ _ p = some d → filesOf _ _ _ p = some d' → _
    unfold filesOf
    by_cases h1 : p = [.rootDir, .normal ['t']]
    · simp only [if_pos h1]
      refine ⟨rfl, fun d d' hd hd' => ?_⟩
      cases hd
      cases hd'
      exact sameButIds_of ht ht'
    by_cases h2 : p = [.rootDir, .normal ['s']]
    · simp only [if_neg h1, if_pos h2]
      refine ⟨rfl, fun d d' hd hd' => ?_⟩
      cases hd
      cases hd'
      exact sameButIds_of hs hs'
    · simp only [if_neg h1, if_neg h2]
      exact ⟨trivial, fun d d' hd => (nomatch hd)⟩

#print axioms C74_section
#print axioms C74_notebook

end OneNote
