/-
C61: Overwritten versions are not shown. FALSE of the code for roots, which are taken from the oldest
revision; true for objects.
-/
import Verif.Lemmas.History
import Verif.Spec.Shown
import Verif.Spec.SampleFile
import Verif.Lemmas.Terminates
import Verif.Props.C49

namespace OneNote

open Spec Spec.StoreContents Spec.Document Spec.History Spec.Shown

/-- **Overwritten objects do not matter.** Let two files differ only in the contents of some object
groups, and let everything that these groups declare be declared by newer groups too, in either file.
Then both files show the same section: whatever earlier versions of an object the file still holds,
they neither change what is shown nor make a difference to whether the file is accepted.
Missing for the full property: roots that a newer revision replaces (refuted below). -/
theorem C61_objects_partial (data data' : Bytes) (si : ExGuid) (es es' : List LaxElement)
    (old : ExGuid → Prop) (h : HoldsElements data si es) (h' : HoldsElements data' si es')
    (hb : SameBut old es es') (ho : Overwritten (laxPackageOf es) old)
    (ho' : Overwritten (laxPackageOf es') old) (hu : PlainFile data) (ord ord' : Order) (name : Text)
    (s : Section) :
    (∃ fuel, parseSectionBuffer fuel ord data name = .ok s) ↔
      ∃ fuel, parseSectionBuffer fuel ord' data' name = .ok s := by
  obtain ⟨h1, h2⟩ := alike_files h h' hb ho ho'
  exact alike h1 h2 hu ord ord' name s

/-- The same for the store, and so for tables of contents. -/
theorem C61_store_partial (data data' : Bytes) (si : ExGuid) (es es' : List LaxElement)
    (old : ExGuid → Prop) (h : HoldsElements data si es) (h' : HoldsElements data' si es')
    (hb : SameBut old es es') (ho : Overwritten (laxPackageOf es) old)
    (ho' : Overwritten (laxPackageOf es') old) (s : Store) : FileStore data s ↔ FileStore data' s :=
  (alike_files h h' hb ho ho').2 s

/-- The same for notebooks: if in every file on a disk the contents of such object groups are replaced,
then the same notebook is shown. -/
theorem C61_notebook_partial (fs : FileSystem) (files : Path → Option Bytes) (sanitise : Text → Text)
    (fuel n : Nat) (path : Path) (hu' : PlainFiles { fs with read := files })
    (hf : ∀ p d, fs.read p = some d → ∃ d' si es es' old, files p = some d' ∧ HoldsElements d si es ∧
      HoldsElements d' si es' ∧ SameBut old es es' ∧ Overwritten (laxPackageOf es) old ∧
      Overwritten (laxPackageOf es') old)
    (ord ord' : Order) (nb : Notebook) (h : parseNotebook ⟨fs, sanitise, ord, fuel⟩ n path = .ok nb) :
    parseNotebook ⟨{ fs with read := files }, sanitise, ord', fuel⟩ n path = .ok nb := by
  have hc : Covers (fun _ => False) ⟨fs, sanitise, ord, fuel⟩
      ⟨{ fs with read := files }, sanitise, ord', fuel⟩ := by
    refine ⟨rfl, rfl, rfl, rfl, rfl, rfl, fun p d hd => ?_⟩
    obtain ⟨d', si, es, es', old, hd', a1, a2, a3, a4, a5⟩ := hf p d hd
    exact ⟨d', hd', readsAs_alike (alike_files a1 a2 a3 a4 a5).2 (hu' p d' hd') _ ord ord'⟩
  rcases notebook_covers hc n h with h | ⟨e, he, -⟩
  · exact h
  · exact he.elim

/-! ### Files with two revisions of a page -/

/-- A section file whose page has two revisions: the newer one has the object group `newer`, the older
one the group `older`. -/
private def front (newRoots : List RevisionItem) : List Element :=
  [⟨sx 4, manifestOf sectionGuid⟩,
   ⟨sx 3, .storageIndex [.cell headerCell (sx 101) ⟨sampleGuid, 1⟩,
      .cell dataCell (sx 102) ⟨sampleGuid, 2⟩, .cell pageCell (sx 105) ⟨sampleGuid, 5⟩]⟩] ++
  cellOf 1 [] (.objectGroup [.object (sx 900) 1 0 0 0] [.object [] [] headerProps]) ++
  cellOf 2 [.root contentRole (sx 1000), .root metadataRole (sx 1001)]
    (groupOf (sectionObjects none 1)) ++
  [⟨sx 105, .cellManifest (sx 205)⟩,
   ⟨sx 205, .revisionManifest (sx 205) (sx 206) (newRoots ++ [.group (sx 405)])⟩]

private def back (newer older : Body) : List Element := [⟨sx 405, newer⟩, ⟨sx 406, older⟩]

private def elements (newRoots oldRoots : List RevisionItem) (newer older : Body) : List Element :=
  front newRoots ++ ⟨sx 206, .revisionManifest (sx 206) ExGuid.nil (oldRoots ++ [.group (sx 406)])⟩ ::
    back newer older

private def packaging (es : List Element) : Packaging :=
  ⟨sectionGuid, Guid.nil, Guid.nil, packageStore, sx 3, sectionGuid, packageOf es⟩

private theorem unambiguous_of {p : Packaging}
    (h1 : (p.package.storageIndexes.get? p.storageIndex).isSome = true)
    (h2 : p.package.storageManifests.length ≤ 1)
    (h : ∀ e ∈ p.package.storageIndexes, ∀ e' ∈ e.2.cellMappings,
      (p.package.resolveCellRevisionManifestId e.2 e'.2.id).isSome = true) : Unambiguous p where
  index := .inl (Option.isSome_iff_exists.mp h1)
  manifest := h2
  cells := fun _ _ _ _ hi hm => .inr (.inl ((leads_iff _ _ _).mpr
      (Option.isSome_iff_exists.mp (h _ hi _ hm))))

private theorem plain_of_parse {data rest : Bytes} {p : Packaging}
    (h : Packaging.parse data = .ok (p, rest)) (hu : Unambiguous p) : PlainFile data := by
  intro q hq
  have hq := holds_iff.1 hq
  unfold P.run at hq
  rw [h] at hq
  cases hq
  exact hu

private theorem plain_of {es : List Element} (hf : ∀ e ∈ es, ElementFits e)
    (hu : Unambiguous (packaging es)) : PlainFile (fileW (sx 3) sectionGuid es) :=
  plain_of_parse (fileW_parse (by decide) hf) hu

private theorem contains_of_parse {data rest : Bytes} {p : Packaging}
    (h : Packaging.parse data = .ok (p, rest)) : Contains data p := by
  refine holds_iff.2 ?_
  unfold P.run
  rw [h]

private theorem contains_of {es : List Element} (hf : ∀ e ∈ es, ElementFits e) :
    Contains (fileW (sx 3) sectionGuid es) (packaging es) :=
  contains_of_parse (fileW_parse (by decide) hf)

/-! ### The roots of an older version are shown -/

/-- The new version of the page: another page node, which is empty. -/
private def emptied : Body :=
  groupOf [objectW 2102 .pageManifestNode [(.contentChildNodes, .objectIds 1)] [2103],
    objectW 2103 .pageNode [(.elementChildNodes, .objectIds 0)] []]

/-- The old version: a page with an outline. -/
private def outlined : Body := groupOf (pageObjects [3001] [outlineW 3001 []])

/-- `both`: the older revision declares the content root, too. -/
private def history (both : Bool) : List Element :=
  elements [.root contentRole (sx 2102)]
    ((if both then [.root contentRole (sx 2002)] else []) ++ [.root metadataRole (sx 2001)])
    emptied outlined

private def file (both : Bool) : Bytes := fileW (sx 3) sectionGuid (history both)

private theorem history_fits : ∀ both, ∀ e ∈ history both, ElementFits e := by decide +kernel

private theorem history_plain : ∀ both, PlainFile (file both) := fun both =>
  plain_of (history_fits both) (by
    cases both <;> exact unambiguous_of (by decide +kernel) (by decide +kernel) (by decide +kernel))

/-- The number of objects on each page. -/
private def counts (s : Section) : List Nat :=
  s.pageSeries.flatMap fun series => series.pages.map fun p => p.contents.length

private theorem shown : ∀ both, (parseSectionBuffer 2 Order.id (file both) []).toOption.map counts =
    some (if both then [1] else [0]) := by
  decide +kernel

private theorem file_shown (both : Bool) : ∃ s, parseSectionBuffer 2 Order.id (file both) [] = .ok s ∧
    counts s = if both then [1] else [0] := by
  have h := shown both
  generalize parseSectionBuffer 2 Order.id (file both) [] = x at h ⊢
  obtain ⟨s, hs, hc⟩ := Option.map_eq_some_iff.1 h
  exact ⟨s, toOption_some hs, hc⟩

private theorem file_contains (both : Bool) : Contains (file both) (packaging (history both)) :=
  contains_of (history_fits both)

private theorem file_holds (both : Bool) : HoldsElements (file both) (sx 3)
    ((front [.root contentRole (sx 2102)]).map ordinary ++ ordinary ⟨sx 206, .revisionManifest (sx 206)
      ExGuid.nil (((if both then [.root contentRole (sx 2002)] else []) ++
        [.root metadataRole (sx 2001)]) ++ [.group (sx 406)])⟩ ::
      (back emptied outlined).map ordinary) := by
  have h : HoldsElements (file both) (sx 3) ((history both).map ordinary) :=
    fileW_holds (by decide) (history_fits both)
  unfold history elements at h
  rw [List.map_append, List.map_cons] at h
  exact h

private def pageIndex : StorageIndex := indexOf [.cell headerCell (sx 101) ⟨sampleGuid, 1⟩,
  .cell dataCell (sx 102) ⟨sampleGuid, 2⟩, .cell pageCell (sx 105) ⟨sampleGuid, 5⟩]

private theorem file_index (both : Bool) :
    (packaging (history both)).package.storageIndexes = [(sx 3, pageIndex)] := by
  cases both <;> rfl

private theorem file_newest (both : Bool) : Newest (packaging (history both)).package pageIndex
    ⟨pageCell, sx 105, ⟨sampleGuid, 5⟩⟩ (sx 205) := by
  refine .inl (.inl ⟨sx 205, by cases both <;> decide +kernel, ?_⟩)
  unfold Resolves
  rw [show pageIndex.revisionMappings.get? (sx 205) = none from rfl]
  exact ⟨rfl, by cases both <;> decide +kernel⟩

private theorem file_chain (both : Bool) :
    RevisionChain (packaging (history both)).package pageIndex (sx 205)
      [⟨sx 205, sx 206, [⟨contentRole, sx 2102⟩], [sx 405]⟩,
       ⟨sx 206, ExGuid.nil, (if both then [⟨contentRole, sx 2002⟩] else []) ++
         [⟨metadataRole, sx 2001⟩], [sx 406]⟩] := by
  refine .based _ (sx 206) _ _ (by cases both <;> rfl) (by decide +kernel) ?_
    (.oldest _ _ (by cases both <;> rfl) rfl)
  unfold Resolves
  rw [show pageIndex.revisionMappings.get? (sx 206) = none from rfl]
  exact ⟨rfl, by cases both <;> decide +kernel⟩

/-- `data` holds a page whose history is these revisions, newest first. -/
private def PageHistory (data : Bytes) (ms : List RevisionManifest) : Prop :=
  ∃ p i index m r, Contains data p ∧ (i, index) ∈ p.package.storageIndexes ∧
    index.cellMappings.get? pageCell = some m ∧ Newest p.package index m r ∧
    RevisionChain p.package index r ms

private theorem file_history (both : Bool) : PageHistory (file both)
    [⟨sx 205, sx 206, [⟨contentRole, sx 2102⟩], [sx 405]⟩,
     ⟨sx 206, ExGuid.nil, (if both then [⟨contentRole, sx 2002⟩] else []) ++
       [⟨metadataRole, sx 2001⟩], [sx 406]⟩] :=
  ⟨_, sx 3, pageIndex, _, _, file_contains both, by rw [file_index]; exact .head _, by rfl,
    file_newest both, file_chain both⟩

/-- **Replaced roots are shown.** The newest revision of a page says that its content is the manifest
`2102`, of an empty page. Whether an older revision in the same history has another manifest changes
what is shown: if it has one, the page is shown as it was, with its outline, and if it has none, the
page is shown empty. Both files have the same elements up to that one root of the older revision. -/
theorem C61_refuted : ∃ data data' si before after r newest oldest oldest' items s s',
    HoldsElements data si (before ++
      ⟨r, .body (.revisionManifest r ExGuid.nil (.root contentRole (sx 2002) :: items))⟩ :: after) ∧
    HoldsElements data' si (before ++ ⟨r, .body (.revisionManifest r ExGuid.nil items)⟩ :: after) ∧
    PlainFile data ∧ PlainFile data' ∧
    newest.rootDeclare = [⟨contentRole, sx 2102⟩] ∧
    PageHistory data [newest, oldest] ∧ PageHistory data' [newest, oldest'] ∧
    parseSectionBuffer 2 Order.id data [] = .ok s ∧ counts s = [1] ∧
    parseSectionBuffer 2 Order.id data' [] = .ok s' ∧ counts s' = [0] := by
  obtain ⟨s, hs, hc⟩ := file_shown true
  obtain ⟨s', hs', hc'⟩ := file_shown false
  exact ⟨file true, file false, sx 3, _, _, sx 206, _, _, _, _, s, s', file_holds true, file_holds false,
    history_plain true, history_plain false, rfl, file_history true, file_history false,
    hs, hc, hs', hc'⟩

/-! ### An overwritten object group -/

/-- Follow the base revisions. -/
private def chainOf (pkg : Package) (si : StorageIndex) : Nat → ExGuid → Option (List RevisionManifest)
  | 0, _ => none
  | n + 1, r => (pkg.revisionManifests.get? r).bind fun m =>
    if m.baseRevId = ExGuid.nil then some [m]
    else ((match si.revisionMappings.get? m.baseRevId with
      | some b => chainOf pkg si n b.revisionMapping
      | none => chainOf pkg si n m.baseRevId).map (m :: ·))

private theorem chainOf_eq {pkg : Package} {si : StorageIndex} {r : ExGuid} {ms ms' : List RevisionManifest}
    (h : RevisionChain pkg si r ms) (n : Nat) (h' : chainOf pkg si n r = some ms') : ms = ms' := by
  induction h generalizing n ms' with
  | oldest r m hm hb =>
    cases n with
    | zero => cases h'
    | succ n =>
      unfold chainOf at h'
      rw [hm, Option.bind_some, if_pos hb] at h'
      cases h'
      rfl
  | based r b m ms hm hb hr _ ih =>
    cases n with
    | zero => cases h'
    | succ n =>
      unfold chainOf at h'
      rw [hm, Option.bind_some, if_neg hb] at h'
      obtain ⟨x, hx, rfl⟩ := Option.map_eq_some_iff.1 h'
      unfold Resolves at hr
      cases hs : si.revisionMappings.get? m.baseRevId with
      | some y =>
        rw [hs] at hr hx
        subst hr
        rw [ih n hx]
      | none =>
        rw [hs] at hr hx
        obtain ⟨rfl, -⟩ := hr
        rw [ih n hx]

/-- Whatever the group `old` declares has been declared by one of the groups `seen`. -/
private def covered (pkg : Package) (old : ExGuid) : List ExGuid → List ExGuid → Bool
  | _, [] => true
  | seen, k :: ks => (if k = old then
      match pkg.objectGroups.get? k with
      | none => true
      | some g => g.declarations.all fun d => seen.any fun k' => decide (k' ≠ old) &&
        match pkg.objectGroups.get? k' with
        | none => false
        | some g' => g'.declarations.any fun d' => decide ((declared d').1 = (declared d).1)
    else true) && covered pkg old (seen ++ [k]) ks

private theorem covered_shadowed {pkg : Package} {old : ExGuid} (seen ks : List ExGuid)
    (h : covered pkg old seen ks = true) (newer : List ExGuid) (gid : ExGuid) (older : List ExGuid)
    (g : ObjectGroup) (id : ExGuid) (hk : ks = newer ++ gid :: older) (ho : gid = old)
    (hg : pkg.objectGroups.get? gid = some g) (hd : Declares g id) :
    ∃ gid' ∈ seen ++ newer, gid' ≠ old ∧ ∃ g', pkg.objectGroups.get? gid' = some g' ∧ Declares g' id := by
  induction ks generalizing seen newer with
  | nil => simp at hk
  | cons k ks ih =>
    unfold covered at h
    rw [Bool.and_eq_true] at h
    cases newer with
    | nil =>
      simp only [List.nil_append, List.cons.injEq] at hk
      obtain ⟨rfl, rfl⟩ := hk
      have h := h.1
      rw [if_pos ho, hg] at h
      obtain ⟨d, hd1, hd2⟩ := hd
      obtain ⟨k', hk1, hk2⟩ := List.any_eq_true.1 (List.all_eq_true.1 h d hd1)
      rw [Bool.and_eq_true, decide_eq_true_eq] at hk2
      obtain ⟨hk2, hk3⟩ := hk2
      cases hg' : pkg.objectGroups.get? k' with
      | none => rw [hg'] at hk3; cases hk3
      | some g' =>
        rw [hg'] at hk3
        obtain ⟨d', hd3, hd4⟩ := List.any_eq_true.1 hk3
        exact ⟨k', by simpa using hk1, hk2, g', hg', d', hd3, (of_decide_eq_true hd4).trans hd2⟩
    | cons n newer =>
      simp only [List.cons_append, List.cons.injEq] at hk
      obtain ⟨rfl, hk⟩ := hk
      have := ih (seen ++ [k]) h.2 newer hk
      simpa using this

/-- Every cell leads to a revision, whose history is covered and whose first group is not `old`. -/
private def checked (pkg : Package) (old : ExGuid) : Bool :=
  pkg.storageIndexes.all fun e => e.2.cellMappings.all fun c =>
    match pkg.resolveCellRevisionManifestId e.2 c.2.id with
    | none => false
    | some r => match chainOf pkg e.2 5 r with
      | none => false
      | some ms => covered pkg old [] (groupIdsOf ms) &&
        match pkg.revisionManifests.get? r with
        | none => false
        | some rm => decide (rm.groupReferences.head? ≠ some old)

private theorem overwritten_of {pkg : Package} {old : ExGuid} (h : checked pkg old = true) :
    Overwritten pkg (· = old) := by
  have key : ∀ i si c m, (i, si) ∈ pkg.storageIndexes → (c, m) ∈ si.cellMappings →
      ∃ r ms rm, pkg.resolveCellRevisionManifestId si m.id = some r ∧ chainOf pkg si 5 r = some ms ∧
        covered pkg old [] (groupIdsOf ms) = true ∧ pkg.revisionManifests.get? r = some rm ∧
        rm.groupReferences.head? ≠ some old := by
    intro i si c m hi hc
    have h := List.all_eq_true.1 (List.all_eq_true.1 h _ hi) _ hc
    simp only at h
    split at h
    · cases h
    · rename_i r hr
      split at h
      · cases h
      · rename_i ms hms
        rw [Bool.and_eq_true] at h
        obtain ⟨h1, h2⟩ := h
        split at h2
        · cases h2
        · rename_i rm hrm
          exact ⟨r, ms, rm, hr, hms, h1, hrm, of_decide_eq_true h2⟩
  have lead : ∀ {si : StorageIndex} {id r r' : ExGuid}, pkg.resolveCellRevisionManifestId si id = some r →
      LeadsTo pkg si id r' → r' = r := by
    intro si id r r' h1 h2
    rw [leadsTo_iff.2 h2] at h1
    cases h1
    rfl
  constructor
  · rintro ms ⟨i, si, c, m, r, hi, hc, hn, hch⟩ newer gid older g id hk ho hg hd
    obtain ⟨r', ms', rm, h1, h2, h3, -⟩ := key i si c m hi hc
    have hr : r = r' := by
      rcases hn with hn | ⟨hn, -⟩
      · exact lead h1 hn
      · exact absurd ⟨r', leadsTo_iff.1 h1⟩ hn
    subst hr
    have := chainOf_eq hch 5 h2
    subst this
    simpa using covered_shadowed [] _ h3 newer gid older g id hk ho hg hd
  · intro i si c m r rm gid hi hc hn hrm hgid ho
    obtain ⟨r', ms', rm', h1, h2, h3, h4, h5⟩ := key i si c m hi hc
    have hr : r = r' := by
      rcases hn with hn | ⟨hn, -⟩
      · exact lead h1 hn
      · exact absurd ⟨r', leadsTo_iff.1 h1⟩ hn
    subst hr
    rw [h4] at hrm
    cases hrm
    exact h5 (ho ▸ hgid)

/-- A page that has been edited: `contents` is what it held before. Both revisions have the same
roots. -/
private def edited (contents : List Nat) (objects : List SampleObject) : List Element :=
  elements [.root contentRole (sx 2002), .root metadataRole (sx 2001)]
    [.root contentRole (sx 2002), .root metadataRole (sx 2001)]
    (groupOf (pageObjects [3001] [outlineW 3001 []])) (groupOf (pageObjects contents objects))

private def older : List Element := edited [3001, 3001] [outlineW 3001 [3001]]

/-- Unreadable: the objects of the older revision have no properties at all. -/
private def broken : List Element :=
  elements [.root contentRole (sx 2002), .root metadataRole (sx 2001)]
    [.root contentRole (sx 2002), .root metadataRole (sx 2001)]
    (groupOf (pageObjects [3001] [outlineW 3001 []])) (.objectGroup [.object (sx 2003) 1 0 0 0] [])

private theorem older_fits : ∀ e ∈ older, ElementFits e := by decide +kernel
private theorem broken_fits : ∀ e ∈ broken, ElementFits e := by decide +kernel
private theorem older_shown : (parseSectionBuffer 2 Order.id (fileW (sx 3) sectionGuid older) []
    ).toOption.map counts = some [1] := by decide +kernel
private theorem older_over : checked (laxPackageOf (older.map ordinary)) (sx 406) = true := by
  decide +kernel
private theorem broken_over : checked (laxPackageOf (broken.map ordinary)) (sx 406) = true := by
  decide +kernel
private theorem older_plain : Unambiguous (packaging older) :=
  unambiguous_of (by decide +kernel) (by decide +kernel) (by decide +kernel)
private theorem same_append {old : ExGuid → Prop} (es : List LaxElement) {as bs : List LaxElement}
    (h : SameBut old as bs) : SameBut old (es ++ as) (es ++ bs) := by
  induction es with
  | nil => exact h
  | cons e es ih => exact .cons (.inl rfl) ih

private theorem older_broken : SameBut (· = sx 406) (older.map ordinary) (broken.map ordinary) := by
  unfold older edited broken elements
  rw [List.map_append, List.map_append]
  refine same_append _ ?_
  rw [List.map_cons, List.map_cons]
  refine .cons (.inl rfl) ?_
  unfold back
  exact .cons (.inl rfl) (.cons (.inr ⟨_, _, _, _, rfl, rfl, rfl⟩) .nil)

/-- Two files that differ in an overwritten object group: in one of them the old page had the outline
twice, and the outline contained itself; in the other the old page node has no data. The page is
shown with one outline. -/
example : ∃ data data' si es es' s, HoldsElements data si es ∧ HoldsElements data' si es' ∧
    SameBut (· = sx 406) es es' ∧ Overwritten (laxPackageOf es) (· = sx 406) ∧
    Overwritten (laxPackageOf es') (· = sx 406) ∧ PlainFile data ∧
    parseSectionBuffer 2 Order.id data [] = .ok s ∧ counts s = [1] := by
  have h := older_shown
  obtain ⟨s, hs, hc⟩ := Option.map_eq_some_iff.1 h
  exact ⟨_, _, _, _, _, s, fileW_holds (schema := sectionGuid) (by decide) older_fits,
    fileW_holds (schema := sectionGuid) (by decide) broken_fits, older_broken,
    overwritten_of older_over, overwritten_of broken_over, plain_of older_fits older_plain,
    toOption_some hs, hc⟩

/-- A table of contents with the section `s`. -/
private def contents : List Element :=
  ⟨sx 4, manifestOf tocGuid⟩ :: storeElements [.root contentRole (sx 1000)]
    [objectW 1000 .tocContainer [(.tocChildren, .objectIds 1)] [4000],
      objectW 4000 .tocContainer
        [(.folderChildFilename, stringW ['s']), (.notebookElementOrderingId, .u32 1)]]

private theorem contents_fits : ∀ e ∈ contents, ElementFits e := by decide +kernel

/-- The files of a notebook with a table of contents `t` and a section `s`. -/
private def filesOf (sec : List Element) (p : Path) : Option Bytes :=
  if p = [.rootDir, .normal ['t']] then some (fileW (sx 3) tocGuid contents)
  else if p = [.rootDir, .normal ['s']] then some (fileW (sx 3) sectionGuid sec)
  else none

private def disk (sec : List Element) : FileSystem where
  pathExists _ := true
  isFile _ := true
  canonicalize := some
  readDir _ := none
  read := filesOf sec

private theorem sameBut_self {old : ExGuid → Prop} (es : List LaxElement) : SameBut old es es := by
  have := same_append (old := old) es .nil
  simpa using this

private theorem broken_plain : Unambiguous (packaging broken) :=
  unambiguous_of (by decide +kernel) (by decide +kernel) (by decide +kernel)

private theorem contents_plain : PlainFile (fileW (sx 3) tocGuid contents) :=
  plain_of_parse (fileW_parse (by decide) contents_fits)
    (unambiguous_of (by decide +kernel) (by decide +kernel) (by decide +kernel))

/-- A notebook with the first of these files as its section; on the other disk it is the second. -/
example : ∃ fs files path nb, PlainFiles { fs with read := files } ∧
    (∀ p d, fs.read p = some d → ∃ d' si es es' old, files p = some d' ∧ HoldsElements d si es ∧
      HoldsElements d' si es' ∧ SameBut old es es' ∧ Overwritten (laxPackageOf es) old ∧
      Overwritten (laxPackageOf es') old) ∧
    (∃ p, fs.read p ≠ files p) ∧
    parseNotebook ⟨fs, fun x => x, Order.id, 3⟩ 3 path = .ok nb ∧ nb.entries.length = 1 := by
  have hn : (parseNotebook ⟨disk older, fun x => x, Order.id, 3⟩ 3
      [.rootDir, .normal ['t']]).toOption.map (fun nb => nb.entries.length) = some 1 := by
    decide +kernel
  obtain ⟨nb, hn, hl⟩ := Option.map_eq_some_iff.1 hn
  refine ⟨disk older, filesOf broken, [.rootDir, .normal ['t']], nb, ?_, ?_,
    ⟨[.rootDir, .normal ['s']], by decide +kernel⟩, toOption_some hn, hl⟩
  · intro p d h
    dsimp only at h
    unfold filesOf at h
    split at h
    · cases h; exact contents_plain
    split at h
    · cases h; exact plain_of broken_fits broken_plain
    · cases h
  · intro p d h
    unfold disk at h
    dsimp only at h
    by_cases h1 : p = [.rootDir, .normal ['t']]
    · subst h1
      cases h
      exact ⟨_, sx 3, contents.map ordinary, contents.map ordinary, fun _ => False, rfl,
        fileW_holds (by decide) contents_fits, fileW_holds (by decide) contents_fits, sameBut_self _,
        ⟨fun _ _ _ _ _ _ _ _ ho => ho.elim, fun _ _ _ _ _ _ _ _ _ _ _ _ ho => ho.elim⟩,
        ⟨fun _ _ _ _ _ _ _ _ ho => ho.elim, fun _ _ _ _ _ _ _ _ _ _ _ _ ho => ho.elim⟩⟩
    by_cases h2 : p = [.rootDir, .normal ['s']]
    · subst h2
      cases h
      exact ⟨_, sx 3, older.map ordinary, broken.map ordinary, (· = sx 406), rfl,
        fileW_holds (by decide) older_fits, fileW_holds (by decide) broken_fits, older_broken,
        overwritten_of older_over, overwritten_of broken_over⟩
    · unfold filesOf at h
      rw [if_neg h1, if_neg h2] at h
      cases h

#print axioms C61_objects_partial
#print axioms C61_store_partial
#print axioms C61_notebook_partial
#print axioms C61_refuted

end OneNote
