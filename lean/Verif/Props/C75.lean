/-
C75: Properties that are not read, and the order of those that are, do not matter.
-/
import Verif.Lemmas.SameDocument
import Verif.Props.C48
import Verif.Spec.SampleFile

namespace OneNote

open Spec Spec.StoreContents Spec.Document

/-- The two files have the same data elements, except that the stored properties of objects may be in
another order and that there may be other properties among them that the library does not read. -/
def SaysTheSame (data data' : Bytes) : Prop :=
  ∃ (si : ExGuid) (es es' : List LaxElement),
    HoldsElements data si es ∧ HoldsElements data' si es' ∧ Each SameElement es es'

theorem saysTheSame_symm {data data' : Bytes} (h : SaysTheSame data data') :
    SaysTheSame data' data := by
  obtain ⟨si, es, es', h1, h2, h3⟩ := h
  exact ⟨si, es', es, h2, h1, Same.elements_symm h3⟩

theorem plain_same {data data' : Bytes} (h : SaysTheSame data data') (hu : PlainFile data) :
    PlainFile data' := by
  obtain ⟨si, es, es', h1, h2, h3⟩ := h
  exact (Same.files h1 h2 h3).1 hu

/-- **Properties that are not read and the order of the others do not matter**: a file in which the
properties of objects are stored in another order (those that take references keep their order among
each other), with further properties added or left out that are not among the 162 that are read
(`readKeys`) and take no references, shows the same section, or no section, whatever order its hash
maps are visited in. `hu` is the hypothesis of `C24`. -/
theorem C75_section (data data' : Bytes) (h : SaysTheSame data data') (hu : PlainFile data)
    (ord ord' : Order) (name : Text) (s : Section) :
    (∃ fuel, parseSectionBuffer fuel ord data name = .ok s) ↔
      ∃ fuel, parseSectionBuffer fuel ord' data' name = .ok s := by
  rw [C47_section_exactly data name s hu ord,
    C47_section_exactly data' name s (plain_same h hu) ord']
  constructor
  · obtain ⟨si, es, es', h1, h2, h3⟩ := h
    exact Same.section_file h1 h2 h3
  · obtain ⟨si, es, es', h1, h2, h3⟩ := saysTheSame_symm h
    exact Same.section_file h1 h2 h3

/-- **Nor do they in the files of a notebook.** -/
theorem C75_notebook (fs : FileSystem) (files : Path → Option Bytes) (sanitise : Text → Text)
    (path : Path) (hu : PlainFiles fs)
    (hf : ∀ p, (fs.read p).isSome = (files p).isSome ∧ ∀ d d', fs.read p = some d →
      files p = some d' → d = d' ∨ SaysTheSame d d')
    (ord ord' : Order) (nb : Notebook) :
    (∃ n fuel, parseNotebook ⟨fs, sanitise, ord, fuel⟩ n path = .ok nb) ↔
      ∃ n fuel, parseNotebook ⟨{ fs with read := files }, sanitise, ord', fuel⟩ n path = .ok nb := by
  have there : ∀ p d, fs.read p = some d → ∃ d', files p = some d' ∧ (d = d' ∨ SaysTheSame d d') := by
    intro p d hd
    obtain ⟨d', hd'⟩ := Option.isSome_iff_exists.1 ((hf p).1 ▸ Option.isSome_iff_exists.2 ⟨d, hd⟩)
    exact ⟨d', hd', (hf p).2 d d' hd hd'⟩
  have back : ∀ p d', files p = some d' → ∃ d, fs.read p = some d ∧ (d = d' ∨ SaysTheSame d d') := by
    intro p d' hd'
    obtain ⟨d, hd⟩ := Option.isSome_iff_exists.1
      ((hf p).1.symm ▸ Option.isSome_iff_exists.2 ⟨d', hd'⟩)
    exact ⟨d, hd, (hf p).2 d d' hd hd'⟩
  have hu' : PlainFiles { fs with read := files } := by
    intro p d' hd'
    obtain ⟨d, hd, h⟩ := back p d' hd'
    rcases h with rfl | h
    · exact hu p d hd
    · exact plain_same h (hu p d hd)
  have sections : ∀ {d d'}, d = d' ∨ SaysTheSame d d' → ∀ name x, SectionFile d name x → SectionFile d' name x := by
    rintro d d' (rfl | ⟨si, es, es', h1, h2, h3⟩) name x
    · exact id
    exact Same.section_file h1 h2 h3
  have tocs : ∀ {d d'}, d = d' ∨ SaysTheSame d d' → ∀ names color, TocFile d names color →
      TocFile d' names color := by
    rintro d d' (rfl | ⟨si, es, es', h1, h2, h3⟩) names color
    · exact id
    exact Same.toc_file h1 h2 h3
  rw [C48_notebook_exactly fs sanitise path nb hu ord,
    C48_notebook_exactly { fs with read := files } sanitise path nb hu' ord']
  obtain ⟨entries, color⟩ := nb
  constructor
  · refine Rename.notebook_is (fun p d hd => ?_) (fun p d hd => ?_) entries
    · obtain ⟨d', hd', h⟩ := there p d hd
      exact ⟨d', hd', sections h⟩
    · obtain ⟨d', hd', h⟩ := there p d hd
      exact ⟨d', hd', tocs h⟩
  · refine Rename.notebook_is (fs := { fs with read := files }) (files := fs.read)
      (fun p d' hd' => ?_) (fun p d' hd' => ?_) entries
    · obtain ⟨d, hd, h⟩ := back p d' hd'
      exact ⟨d, hd, sections (h.imp Eq.symm saysTheSame_symm)⟩
    · obtain ⟨d, hd, h⟩ := back p d' hd'
      exact ⟨d, hd, tocs (h.imp Eq.symm saysTheSame_symm)⟩

/-! ### A file with a property from the future -/

/-- The properties of the section object of the sample file. -/
private def before : List (Nat × PropertyValue) :=
  [(Word.notebookManagementEntityGuid % 2 ^ 26, .vec (guid sampleGuid)),
   (Word.elementChildNodes % 2 ^ 26, .objectIds 1), (Word.topologyCreationTimeStamp % 2 ^ 26, .u64 0)]

/-- In another order, with two properties that the library does not know. -/
private def after : List (Nat × PropertyValue) :=
  [(0x3ABCDEF, .bool true), (Word.topologyCreationTimeStamp % 2 ^ 26, .u64 0),
   (Word.elementChildNodes % 2 ^ 26, .objectIds 1), (0x3ABCDEE, .vec [1, 2, 3]),
   (Word.notebookManagementEntityGuid % 2 ^ 26, .vec (guid sampleGuid))]

private def beforeBytes : Bytes :=
  propsW 1 0 [(.notebookManagementEntityGuid, .vec (guid sampleGuid)),
    (.elementChildNodes, .objectIds 1), (.topologyCreationTimeStamp, .u64 0)]

private def afterBytes : Bytes :=
  streamHeader 1 0 false true ++ (compactIds [⟨0, 0⟩] ++ (leBytes 2 5 ++
    (((leBytes 4 (idWord 0x3ABCDEF 2 true) ++
      (leBytes 4 (Word.topologyCreationTimeStamp) ++ (leBytes 4 (Word.elementChildNodes) ++
      (leBytes 4 (idWord 0x3ABCDEE 7 false) ++ (leBytes 4 Word.notebookManagementEntityGuid ++ []))))) ++
    ([] ++ (leBytes 8 0 ++ (leBytes 4 1 ++ ((leBytes 4 3 ++ [1, 2, 3]) ++
      ((leBytes 4 (guid sampleGuid).length ++ guid sampleGuid) ++ [])))))))))

private theorem before_enc : ObjectPropSetEnc [⟨0, 0⟩] [] [] before beforeBytes := by
  have h := ObjectPropSetEnc.oids (oids := [⟨0, 0⟩]) 0 false before _ (by decide)
    (.mk _ _ _ (by decide) (.cons _ 7 false _ _ _ _ _ (by decide) (.vec _ _ (by decide))
      (.cons _ 9 false _ _ _ _ _ (by decide) (.objectIds _ 1 (by decide))
      (.cons _ 6 false _ _ _ _ _ (by decide) (.u64 _ 0 (by decide)) .nil))))
  refine cast (congrArg _ ?_) h
  decide +kernel

private theorem after_enc : ObjectPropSetEnc [⟨0, 0⟩] [] [] after afterBytes := by
  have h := ObjectPropSetEnc.oids (oids := [⟨0, 0⟩]) 0 false after _ (by decide)
    (.mk _ _ _ (by decide) (.cons _ 2 true _ _ _ _ _ (by decide) (.bool _)
      (.cons _ 6 false _ _ _ _ _ (by decide) (.u64 _ 0 (by decide))
      (.cons _ 9 false _ _ _ _ _ (by decide) (.objectIds _ 1 (by decide))
      (.cons _ 7 false _ _ _ _ _ (by decide) (.vec _ _ (by decide))
      (.cons _ 7 false _ _ _ _ _ (by decide) (.vec _ _ (by decide)) .nil))))))
  refine cast (congrArg _ ?_) h
  decide +kernel

private theorem same_lists : SayTheSame SameValue before after where
  once := by unfold DistinctIds; decide +kernel
  once' := by unfold DistinctIds; decide +kernel
  taking := .cons ⟨rfl, .inl rfl⟩ .nil
  there := by
    intro k hk v hv ht
    refine ⟨v, ?_, .inl rfl⟩
    simp only [before, List.mem_cons, List.not_mem_nil, or_false] at hv
    rcases hv with hv | hv | hv <;> rw [hv] <;> simp [after]
  back := by
    intro k hk v hv ht
    refine ⟨v, ?_, .inl rfl⟩
    simp only [after, List.mem_cons, List.not_mem_nil, or_false] at hv
    rcases hv with hv | hv | hv | hv | hv
    · exact absurd ((Prod.mk.injEq .. ▸ hv).1 ▸ hk) (by decide +kernel)
    · rw [hv]; simp [before]
    · rw [hv]; simp [before]
    · exact absurd ((Prod.mk.injEq .. ▸ hv).1 ▸ hk) (by decide +kernel)
    · rw [hv]; simp [before]

private theorem same_properties : SameProperties beforeBytes afterBytes := by
  have fits : StreamFits [] := ⟨by decide, by simp⟩
  exact ⟨[⟨0, 0⟩], [], [], before, after, _, _, [], [], before_enc, after_enc,
    ⟨by decide, by simp [CompactIdOk]⟩, fits, fits, same_lists, (List.append_nil _).symm,
    (List.append_nil _).symm⟩

/-- The objects of the sample file, with these properties for the section object. -/
private def objects (props : Bytes) : List SampleObject :=
  [sectionMetadataW (some ['N']),
   ⟨1000, PropertySetId.sectionNode.asJcid, [sx 1002], [], props⟩,
   objectW 1002 .pageSeriesNode
     [(.notebookManagementEntityGuid, .vec (guid sampleGuid)),
      (.childGraphSpaceElementNodes, .objectSpaceIds 0)]]

private def elements (props : Bytes) : List Element :=
  ⟨sx 4, manifestOf sectionGuid⟩ ::
    storeElements [.root contentRole (sx 1000), .root metadataRole (sx 1001)] (objects props)

private def packaged (schema : Guid) (es : List Element) : Packaging :=
  ⟨schema, Guid.nil, Guid.nil, packageStore, sx 3, schema, packageOf es⟩

private theorem unambiguous_of {p : Packaging}
    (h1 : (p.package.storageIndexes.get? p.storageIndex).isSome = true)
    (h2 : p.package.storageManifests.length ≤ 1)
    (h : ∀ e ∈ p.package.storageIndexes, ∀ e' ∈ e.2.cellMappings,
      (p.package.resolveCellRevisionManifestId e.2 e'.2.id).isSome = true) : Unambiguous p where
  index := .inl (Option.isSome_iff_exists.mp h1)
  manifest := h2
  cells := fun _ _ _ _ hi hm => .inr (.inl ((leads_iff _ _ _).mpr
      (Option.isSome_iff_exists.mp (h _ hi _ hm))))

private theorem plain_of_parse {data rest : Bytes} {p : Packaging}
    (h : Packaging.parse data = .ok (p, rest)) (hu : Unambiguous p) : PlainFile data := by
  intro q hq
  have hq := holds_iff.1 hq
  unfold P.run at hq
  rw [h] at hq
  cases hq
  exact hu

private theorem same_group {b b' : Bytes} (h : SameProperties b b') (e1 e3 : SampleObject) :
    ∃ ds os ds' os', groupOf [e1, ⟨1000, PropertySetId.sectionNode.asJcid, [sx 1002], [], b⟩, e3] =
        .objectGroup ds os ∧
      groupOf [e1, ⟨1000, PropertySetId.sectionNode.asJcid, [sx 1002], [], b'⟩, e3] =
        .objectGroup ds' os' ∧ SameGroup ds os ds' os' :=
  ⟨_, _, _, _, rfl, rfl, rfl, rfl, .cons ⟨rfl, .inl rfl⟩ (.cons ⟨rfl, .inl rfl⟩ (.cons ⟨rfl, .inl rfl⟩
    (.cons ⟨rfl, .inr ⟨rfl, .inl ⟨_, _, _, _, rfl, rfl, h⟩⟩⟩ (.cons ⟨rfl, .inl rfl⟩
    (.cons ⟨rfl, .inl rfl⟩ .nil)))))⟩

private theorem same_elements {b b' : Bytes} (h : SameProperties b b') :
    Each SameElement ((elements b).map ordinary) ((elements b').map ordinary) := by
  obtain ⟨ds, os, ds', os', h1, h2, h3⟩ := same_group h (sectionMetadataW (some ['N']))
    (objectW 1002 .pageSeriesNode [(.notebookManagementEntityGuid, .vec (guid sampleGuid)),
      (.childGraphSpaceElementNodes, .objectSpaceIds 0)])
  unfold elements storeElements objects
  rw [h1, h2]
  refine .cons (.inl rfl) (.cons (.inl rfl) (.cons (.inl rfl) (.cons (.inl rfl) (.cons (.inl rfl)
    (.cons (.inl rfl) (.cons (.inl rfl) (.cons (.inr ⟨ds, os, ds', os', rfl, rfl, h3⟩) .nil)))))))

/-- A section file and the same file as a later program might write it. -/
example : ∃ data data' s, PlainFile data ∧ SaysTheSame data data' ∧ data ≠ data' ∧
    parseSectionBuffer 3 Order.id data ['f'] = .ok s ∧ s.displayName = ['N'] := by
  have hf : ∀ e ∈ elements beforeBytes, ElementFits e := by decide +kernel
  have hf' : ∀ e ∈ elements afterBytes, ElementFits e := by decide +kernel
  have hn : (parseSectionBuffer 3 Order.id (fileW (sx 3) sectionGuid (elements beforeBytes))
      ['f']).toOption.map (·.displayName) = some ['N'] := by decide +kernel
  obtain ⟨s, hs, hl⟩ := Option.map_eq_some_iff.1 hn
  refine ⟨fileW (sx 3) sectionGuid (elements beforeBytes), fileW (sx 3) sectionGuid (elements afterBytes),
    s, ?_, ?_, by decide +kernel, toOption_some hs, hl⟩
  · exact plain_of_parse (fileW_parse (by decide) hf)
      (show Unambiguous (packaged sectionGuid (elements beforeBytes)) from
        unambiguous_of (by decide +kernel) (by decide +kernel) (by decide +kernel))
  · exact ⟨sx 3, _, _, fileW_holds (by decide) hf, fileW_holds (by decide) hf',
      same_elements same_properties⟩

#print axioms C75_section
#print axioms C75_notebook

end OneNote
