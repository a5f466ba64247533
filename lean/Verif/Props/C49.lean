/-
C49: How the data elements of a file are arranged and encoded does not matter.
-/
import Verif.Lemmas.Arrange
import Verif.Lemmas.SameFiles
import Verif.Props.C47
import Verif.Spec.SampleFile

namespace OneNote

open Spec Spec.StoreContents Spec.Document

/-- **How the elements are encoded does not matter.** Two files with the same data elements and the
same storage index are read alike, whichever widths the numbers have, whether the container is a file
of its own or embedded in a revision store, whatever its other fields are and whatever follows. -/
theorem C49_encoding (fuel : Nat) (ord : Order) (data data' : Bytes) (name : Text) (si : ExGuid)
    (es : List LaxElement) (h : HoldsElements data si es) (h' : HoldsElements data' si es) :
    parseSectionBuffer fuel ord data name = parseSectionBuffer fuel ord data' name := by
  obtain ⟨a, b, c, d, schema, bs, rest, hl, hd⟩ := h
  obtain ⟨a', b', c', d', schema', bs', rest', hl', hd'⟩ := h'
  have e := holds_iff.1 ⟨a, b, c, d, si, schema, es, bs, rest, hl, hd, rfl⟩
  have e' := holds_iff.1 ⟨a', b', c', d', si, schema', es, bs', rest', hl', hd', rfl⟩
  have : readStore ord data = readStore ord data' := by
    unfold readStore
    rw [e, e']
    rfl
  unfold parseSectionBuffer
  rw [this]

theorem alike {data data' : Bytes} (h : PlainFile data ↔ PlainFile data')
    (h' : ∀ s, FileStore data s ↔ FileStore data' s) (hu : PlainFile data) (ord ord' : Order)
    (name : Text) (s : Section) :
    (∃ fuel, parseSectionBuffer fuel ord data name = .ok s) ↔
      ∃ fuel, parseSectionBuffer fuel ord' data' name = .ok s := by
  rw [C47_section_exactly data name s hu ord, C47_section_exactly data' name s (h.1 hu) ord']
  simp only [SectionFile, h']

/-- **The order of the elements does not matter** if their identifiers are distinct: a file with the
same elements in any other order shows the same section. `hu` is the hypothesis of `C24`. -/
theorem C49_order (data data' : Bytes) (si : ExGuid) (es es' : List LaxElement)
    (h : HoldsElements data si es) (h' : HoldsElements data' si es') (hd : Distinct es)
    (hp : es.Perm es') (hu : PlainFile data) (ord ord' : Order) (name : Text) (s : Section) :
    (∃ fuel, parseSectionBuffer fuel ord data name = .ok s) ↔
      ∃ fuel, parseSectionBuffer fuel ord' data' name = .ok s := by
  obtain ⟨h1, h2⟩ := agree_files h h' (agree_perm hd hp)
  exact alike h1 h2 hu ord ord' name s

/-- **Elements that nothing refers to do not matter.** Let some elements of a file be left out, none
of which is a storage index or a storage manifest. If no element that stays refers to one that is left
out, then both files show the same section. -/
theorem C49_unreferenced (data data' : Bytes) (si : ExGuid) (es : List LaxElement)
    (keep : LaxElement → Bool) (h : HoldsElements data si es)
    (h' : HoldsElements data' si (es.filter keep))
    (hk : ∀ e ∈ es, keep e = false → ¬ IsStart e.piece ∧
      ∀ e' ∈ es, keep e' = true → ¬ Refers e'.piece e.id)
    (hu : PlainFile data) (ord ord' : Order) (name : Text) (s : Section) :
    (∃ fuel, parseSectionBuffer fuel ord data name = .ok s) ↔
      ∃ fuel, parseSectionBuffer fuel ord' data' name = .ok s := by
  obtain ⟨h1, h2⟩ := agree_files h' h (agree_filter hk)
  exact (alike h1 h2 (h1.2 hu) ord' ord name s).symm

/-- The same holds for the stores, and so for tables of contents. -/
theorem C49_store (data data' : Bytes) (si : ExGuid) (es es' : List LaxElement)
    (keep : LaxElement → Bool) (h : HoldsElements data si es) (h' : HoldsElements data' si es')
    (hd : Distinct es') (hp : (es.filter keep).Perm es')
    (hk : ∀ e ∈ es, keep e = false → ¬ IsStart e.piece ∧
      ∀ e' ∈ es, keep e' = true → ¬ Refers e'.piece e.id)
    (s : Store) : FileStore data s ↔ FileStore data' s := by
  have a := agree_filter hk
  have b := agree_perm hd hp.symm
  obtain ⟨x, y, z, w, schema, bs, rest, hl, hb⟩ := h
  obtain ⟨x', y', z', w', schema', bs', rest', hl', hb'⟩ := h'
  have hc : Contains data ⟨x, y, z, w, si, schema, laxPackageOf es⟩ :=
    ⟨x, y, z, w, si, schema, es, bs, rest, hl, hb, rfl⟩
  have hc' : Contains data' ⟨x', y', z', w', si, schema', laxPackageOf es'⟩ :=
    ⟨x', y', z', w', si, schema', es', bs', rest', hl', hb', rfl⟩
  have u : ∀ p, Contains data p ↔ p = ⟨x, y, z, w, si, schema, laxPackageOf es⟩ := by
    intro p
    rw [holds_iff, holds_iff.1 hc, Except.ok.injEq, eq_comm]
  have u' : ∀ p, Contains data' p ↔ p = ⟨x', y', z', w', si, schema', laxPackageOf es'⟩ := by
    intro p
    rw [holds_iff, holds_iff.1 hc', Except.ok.injEq, eq_comm]
  simp only [FileStore, u, u', exists_eq_left]
  rw [← agree_store (p := ⟨x, y, z, w, si, schema, laxPackageOf (es.filter keep)⟩)
      (p' := ⟨x, y, z, w, si, schema, laxPackageOf es⟩) a rfl,
    agree_store (p := ⟨x', y', z', w', si, schema', laxPackageOf es'⟩)
      (p' := ⟨x, y, z, w, si, schema, laxPackageOf (es.filter keep)⟩) b rfl]

/-- The files on two disks hold the same elements, up to their order and up to elements that nothing
refers to. -/
def Rearranged (data data' : Bytes) : Prop :=
  ∃ si es es' keep, HoldsElements data si es ∧ HoldsElements data' si es' ∧ Distinct es' ∧
    (es.filter keep).Perm es' ∧ ∀ e ∈ es, keep e = false → ¬ IsStart e.piece ∧
      ∀ e' ∈ es, keep e' = true → ¬ Refers e'.piece e.id

theorem readsAs_alike {data data' : Bytes} (h : ∀ s, FileStore data s ↔ FileStore data' s)
    (hu : PlainFile data') (bad : Err → Prop) (ord ord' : Order) : ReadsAs bad ord ord' data data' :=
  fun s hs => .inl (readStore_complete hu ((h s).1 (readStore_sound hs)) ord')

/-- **The same for notebooks**: if every file on a disk is replaced by one with the same elements, in
another order or encoding or without elements that nothing refers to, or the other way round, then the
same notebook is shown. -/
theorem C49_notebook (fs : FileSystem) (files : Path → Option Bytes) (sanitise : Text → Text)
    (fuel n : Nat) (path : Path) (hu : PlainFiles fs) (hu' : PlainFiles { fs with read := files })
    (hf : ∀ p, (fs.read p).isSome = (files p).isSome ∧ ∀ d d', fs.read p = some d →
      files p = some d' → Rearranged d d' ∨ Rearranged d' d)
    (ord ord' : Order) (nb : Notebook) :
    parseNotebook ⟨fs, sanitise, ord, fuel⟩ n path = .ok nb ↔
      parseNotebook ⟨{ fs with read := files }, sanitise, ord', fuel⟩ n path = .ok nb := by
  have same : ∀ p d d', fs.read p = some d → files p = some d' →
      ∀ s, FileStore d s ↔ FileStore d' s := by
    intro p d d' h1 h2 s
    rcases (hf p).2 d d' h1 h2 with ⟨si, es, es', keep, a1, a2, a3, a4, a5⟩ |
      ⟨si, es, es', keep, a1, a2, a3, a4, a5⟩
    · exact C49_store d d' si es es' keep a1 a2 a3 a4 a5 s
    · exact (C49_store d' d si es es' keep a1 a2 a3 a4 a5 s).symm
  constructor
  · intro h
    have hc : Covers (fun _ => False) ⟨fs, sanitise, ord, fuel⟩
        ⟨{ fs with read := files }, sanitise, ord', fuel⟩ := by
      refine ⟨rfl, rfl, rfl, rfl, rfl, rfl, fun p d hd => ?_⟩
      obtain ⟨d', hd'⟩ := Option.isSome_iff_exists.1 ((hf p).1 ▸ Option.isSome_iff_exists.2 ⟨d, hd⟩)
      exact ⟨d', hd', readsAs_alike (same p d d' hd hd') (hu' p d' hd') _ ord ord'⟩
    rcases notebook_covers hc n h with h | ⟨e, he, -⟩
    · exact h
    · exact he.elim
  · intro h
    have hc : Covers (fun _ => False) ⟨{ fs with read := files }, sanitise, ord', fuel⟩
        ⟨fs, sanitise, ord, fuel⟩ := by
      refine ⟨rfl, rfl, rfl, rfl, rfl, rfl, fun p d' hd' => ?_⟩
      obtain ⟨d, hd⟩ := Option.isSome_iff_exists.1
        ((hf p).1.symm ▸ Option.isSome_iff_exists.2 ⟨d', hd'⟩)
      exact ⟨d, hd, readsAs_alike (fun s => (same p d d' hd hd' s).symm) (hu p d hd) _ ord' ord⟩
    rcases notebook_covers hc n h with h | ⟨e, he, -⟩
    · exact h
    · exact he.elim

/-! ### The hypotheses can be met, and they are needed -/

private def elements (extra : List Element) (name : Option Text) : List Element :=
  extra ++ ⟨sx 4, manifestOf sectionGuid⟩ ::
    storeElements [.root contentRole (sx 1000), .root metadataRole (sx 1001)] (sectionObjects name 0)

private def package (es : List Element) : Packaging :=
  ⟨sectionGuid, Guid.nil, Guid.nil, packageStore, sx 3, sectionGuid, packageOf es⟩

private theorem unambiguous_of {p : Packaging}
    (h1 : (p.package.storageIndexes.get? p.storageIndex).isSome = true)
    (h2 : p.package.storageManifests.length ≤ 1)
    (h : ∀ e ∈ p.package.storageIndexes, ∀ e' ∈ e.2.cellMappings,
      (p.package.resolveCellRevisionManifestId e.2 e'.2.id).isSome = true) : Unambiguous p where
  index := .inl (Option.isSome_iff_exists.mp h1)
  manifest := h2
  cells := fun _ _ _ _ hi hm => .inr (.inl ((leads_iff _ _ _).mpr
      (Option.isSome_iff_exists.mp (h _ hi _ hm))))

private theorem plain_of_parse {data rest : Bytes} {p : Packaging}
    (h : Packaging.parse data = .ok (p, rest)) (hu : Unambiguous p) : PlainFile data := by
  intro q hq
  have hq := holds_iff.1 hq
  unfold P.run at hq
  rw [h] at hq
  cases hq
  exact hu

private theorem plain_of {es : List Element} (hf : ∀ e ∈ es, ElementFits e)
    (hu : Unambiguous (package es)) : PlainFile (fileW (sx 3) sectionGuid es) :=
  plain_of_parse (fileW_parse (by decide) hf) hu

/-- An unreferenced object group, and unreferenced file data it refers to. -/
private def junk : List Element :=
  [⟨sx 998, .objectGroup [] [.blobReference [] [] (sx 999)]⟩, ⟨sx 999, .blob [1, 2, 3]⟩]

private def kept (e : LaxElement) : Bool := e.id ≠ sx 998 && e.id ≠ sx 999

/-- A file with two unreferenced elements, in any order. -/
example : ∃ data data' si es, HoldsElements data si es ∧ HoldsElements data' si es.reverse ∧
    Distinct es ∧ PlainFile data ∧ es.length = 10 ∧
    (∀ e ∈ es, kept e = false → ¬ IsStart e.piece ∧
      ∀ e' ∈ es, kept e' = true → ¬ Refers e'.piece e.id) ∧
    (es.filter kept).length = 8 := by
  have hf : ∀ e ∈ elements junk (some ['N']), ElementFits e := by decide +kernel
  have hf' : ∀ e ∈ (elements junk (some ['N'])).reverse, ElementFits e :=
    fun e he => hf e (List.mem_reverse.1 he)
  refine ⟨_, fileW (sx 3) sectionGuid (elements junk (some ['N'])).reverse, _, _,
    fileW_holds (schema := sectionGuid) (by decide) hf, ?_, ?_, plain_of hf ?_, ?_, ?_, ?_⟩
  · rw [← List.map_reverse]
    exact fileW_holds (by decide) hf'
  · unfold Distinct
    decide +kernel
  · exact unambiguous_of (by decide +kernel) (by decide +kernel) (by decide +kernel)
  · decide +kernel
  · have h : ∀ e ∈ (elements junk (some ['N'])).map ordinary, kept e = false → ¬ IsStart e.piece ∧
        ∀ e' ∈ (elements junk (some ['N'])).map ordinary, kept e' = true →
          e.id ∉ refersList e'.piece := by
      decide +kernel
    exact fun e he hk => ⟨(h e he hk).1, fun e' he' hk' hr => (h e he hk).2 e' he' hk' (refers_list hr)⟩
  · decide +kernel

/-- A table of contents with the section `s`. -/
private def contents : List Element :=
  ⟨sx 4, manifestOf tocGuid⟩ :: storeElements [.root contentRole (sx 1000)]
    [objectW 1000 .tocContainer [(.tocChildren, .objectIds 1)] [4000],
      objectW 4000 .tocContainer
        [(.folderChildFilename, stringW ['s']), (.notebookElementOrderingId, .u32 1)]]

/-- The files of a notebook with a table of contents `t` and a section `s`. -/
private def filesOf (toc sec : List Element) (p : Path) : Option Bytes :=
  if p = [.rootDir, .normal ['t']] then some (fileW (sx 3) tocGuid toc)
  else if p = [.rootDir, .normal ['s']] then some (fileW (sx 3) sectionGuid sec)
  else none

private def disk (toc sec : List Element) : FileSystem where
  pathExists _ := true
  isFile _ := true
  canonicalize := some
  readDir _ := none
  read := filesOf toc sec

private def packaged (schema : Guid) (es : List Element) : Packaging :=
  ⟨schema, Guid.nil, Guid.nil, packageStore, sx 3, schema, packageOf es⟩

private theorem disk_plain {toc sec : List Element} (ht : ∀ e ∈ toc, ElementFits e)
    (hs : ∀ e ∈ sec, ElementFits e) (ut : Unambiguous (packaged tocGuid toc))
    (us : Unambiguous (packaged sectionGuid sec)) : PlainFiles (disk toc sec) := by
  intro p d h
  unfold disk filesOf at h
  dsimp only at h
  split at h
  · cases h; exact plain_of_parse (fileW_parse (by decide) ht) ut
  split at h
  · cases h; exact plain_of_parse (fileW_parse (by decide) hs) us
  · cases h

/-- A notebook; on the other disk the elements of the table of contents are in reverse order, and the
section has lost its unreferenced elements. -/
example : ∃ fs files path nb, PlainFiles fs ∧ PlainFiles { fs with read := files } ∧
    (∀ p, (fs.read p).isSome = (files p).isSome ∧ ∀ d d', fs.read p = some d →
      files p = some d' → Rearranged d d' ∨ Rearranged d' d) ∧
    (∃ p d d', fs.read p = some d ∧ files p = some d' ∧ d.length > d'.length) ∧
    parseNotebook ⟨fs, fun x => x, Order.id, 3⟩ 3 path = .ok nb ∧ nb.entries.length = 1 := by
  have ht : ∀ e ∈ contents, ElementFits e := by decide +kernel
  have ht' : ∀ e ∈ contents.reverse, ElementFits e := fun e he => ht e (List.mem_reverse.1 he)
  have hj : ∀ e ∈ elements junk (some ['N']), ElementFits e := by decide +kernel
  have hs : ∀ e ∈ elements [] (some ['N']), ElementFits e := by decide +kernel
  have hn : (parseNotebook ⟨disk contents (elements junk (some ['N'])), fun x => x, Order.id, 3⟩ 3
      [.rootDir, .normal ['t']]).toOption.map (fun nb => nb.entries.length) = some 1 := by
    decide +kernel
  obtain ⟨nb, hn, hl⟩ := Option.map_eq_some_iff.1 hn
  refine ⟨disk contents (elements junk (some ['N'])),
    filesOf contents.reverse (elements [] (some ['N'])), [.rootDir, .normal ['t']], nb,
    disk_plain ht hj
      (unambiguous_of (by decide +kernel) (by decide +kernel) (by decide +kernel))
      (unambiguous_of (by decide +kernel) (by decide +kernel) (by decide +kernel)),
    disk_plain ht' hs
      (unambiguous_of (by decide +kernel) (by decide +kernel) (by decide +kernel))
      (unambiguous_of (by decide +kernel) (by decide +kernel) (by decide +kernel)),
    fun p => ?_, ⟨[.rootDir, .normal ['s']], _, _, rfl, rfl, by decide +kernel⟩, toOption_some hn, hl⟩
  by_cases h1 : p = [.rootDir, .normal ['t']]
  · subst h1
    refine ⟨rfl, fun d d' hd hd' => .inl ?_⟩
    cases hd
    cases hd'
    refine ⟨sx 3, contents.map ordinary, contents.reverse.map ordinary, fun _ => true,
      fileW_holds (by decide) ht, fileW_holds (by decide) ht', ?_, ?_, fun _ _ h => (nomatch h)⟩
    · unfold Distinct
      decide +kernel
    · rw [List.filter_eq_self.2 (fun _ _ => rfl)]
      exact (List.reverse_perm _).symm.map _
  by_cases h2 : p = [.rootDir, .normal ['s']]
  · subst h2
    refine ⟨rfl, fun d d' hd hd' => .inl ?_⟩
    cases hd
    cases hd'
    refine ⟨sx 3, (elements junk (some ['N'])).map ordinary, (elements [] (some ['N'])).map ordinary,
      kept, fileW_holds (by decide) hj, fileW_holds (by decide) hs, ?_, ?_, ?_⟩
    · unfold Distinct
      decide +kernel
    · have h1 : (junk.map ordinary).filter kept = [] := rfl
      have h2 : ∀ e ∈ (elements [] (some ['N'])).map ordinary, kept e = true := by decide +kernel
      have h3 : elements junk (some ['N']) = junk ++ elements [] (some ['N']) := rfl
      rw [h3, List.map_append, List.filter_append, h1, List.filter_eq_self.2 h2]
      exact List.Perm.refl _
    · have h : ∀ e ∈ (elements junk (some ['N'])).map ordinary, kept e = false →
          ¬ IsStart e.piece ∧ ∀ e' ∈ (elements junk (some ['N'])).map ordinary, kept e' = true →
            e.id ∉ refersList e'.piece := by
        decide +kernel
      exact fun e he hk =>
        ⟨(h e he hk).1, fun e' he' hk' hr => (h e he hk).2 e' he' hk' (refers_list hr)⟩
  · have : ∀ toc sec, filesOf toc sec p = none := by
      intro toc sec
      unfold filesOf
      rw [if_neg h1, if_neg h2]
    refine ⟨?_, fun d d' hd => ?_⟩
    · show (filesOf _ _ p).isSome = (filesOf _ _ p).isSome
      rw [this, this]
    · have hd : filesOf _ _ p = some d := hd
      rw [this] at hd
      cases hd

/-- A second object group with the identifier of the first. -/
private def twin (name : Text) : Element := ⟨sx 402, groupOf (sectionObjects (some name) 0)⟩

/-- **Without distinct identifiers the order matters**: two files with the same elements in different
order and different sections. The last element with an identifier is the one that counts. -/
theorem C49_duplicates : ∃ data data' si es es' s s',
    HoldsElements data si es ∧ HoldsElements data' si es' ∧ es.Perm es' ∧ PlainFile data ∧
    parseSectionBuffer 1 Order.id data [] = .ok s ∧ parseSectionBuffer 1 Order.id data' [] = .ok s' ∧
    s.displayName ≠ s'.displayName := by
  have hf : ∀ e ∈ elements [twin ['M']] (some ['N']), ElementFits e := by decide +kernel
  have hf' : ∀ e ∈ (elements [twin ['M']] (some ['N'])).reverse, ElementFits e :=
    fun e he => hf e (List.mem_reverse.1 he)
  have h1 : (parseSectionBuffer 1 Order.id
      (fileW (sx 3) sectionGuid (elements [twin ['M']] (some ['N']))) []).toOption.map
      (fun s => s.displayName) = some ['N'] := by decide +kernel
  have h2 : (parseSectionBuffer 1 Order.id
      (fileW (sx 3) sectionGuid (elements [twin ['M']] (some ['N'])).reverse) []).toOption.map
      (fun s => s.displayName) = some ['M'] := by decide +kernel
  obtain ⟨s, hs, hn⟩ := Option.map_eq_some_iff.1 h1
  obtain ⟨s', hs', hn'⟩ := Option.map_eq_some_iff.1 h2
  refine ⟨_, _, _, _, _, s, s', fileW_holds (by decide) hf, fileW_holds (by decide) hf',
    ?_, plain_of hf ?_, toOption_some hs, toOption_some hs', ?_⟩
  · exact (List.reverse_perm _).symm.map _
  · exact unambiguous_of (by decide +kernel) (by decide +kernel) (by decide +kernel)
  · rw [hn, hn']
    decide

#print axioms C49_encoding
#print axioms C49_order
#print axioms C49_unreferenced
#print axioms C49_store
#print axioms C49_notebook
#print axioms C49_duplicates

end OneNote
