/-
What is read back from a written section file with one page, for any objects on the page.
-/
import Verif.Lemmas.Arrange
import Verif.Props.C47
import Verif.Props.C20
import Verif.Spec.SampleFile

namespace OneNote.Written

open Spec Spec.StoreContents Spec.Document

/-- The properties of a written object. -/
def propsOf (o : SampleObject) : ObjectPropSet :=
  (ObjectPropSet.parse.run o.props).toOption.getD ⟨[], [], [], []⟩

/-- The written object in a cell. -/
def objectOf (cell : CellId) (o : SampleObject) : Object :=
  ⟨cell.fst, o.jcid, propsOf o, none, tableOf (propsOf o) cell.snd o.refs o.cells⟩

/-- The object is written properly. -/
def Good (o : SampleObject) : Prop :=
  o.jcid < 2 ^ 32 ∧ (ObjectPropSet.parse.run o.props).toOption.isSome = true ∧
  o.refs.length ≤ (propsOf o).objectIds.length ∧
  (propsOf o).contextIds.length + (propsOf o).objectSpaceIds.length = o.cells.length

instance (o : SampleObject) : Decidable (Good o) := inferInstanceAs (Decidable (_ ∧ _))

/-- The object space of a cell. -/
def spaceOf (cell : CellId) (content info : ExGuid) (objs : List SampleObject) : ObjectSpace :=
  ⟨cell.snd, cell.fst, [(.defaultContent, content), (.metadata, info)],
    objs.map fun o => (sx o.id, objectOf cell o)⟩

/-- The declarations and the data of the objects. -/
def entriesOf (objs : List SampleObject) : List (Declaration × GroupData) :=
  objs.flatMap fun o => [(.object (sx o.id) 4 0 0 0, .object [] [] (leBytes 4 o.jcid)),
    (.object (sx o.id) 1 0 0 0, .object o.refs o.cells o.props)]

def groupFor (objs : List SampleObject) : ObjectGroup :=
  ⟨(entriesOf objs).map Prod.fst, [], (entriesOf objs).map Prod.snd⟩

theorem groupOf_eq (objs : List SampleObject) :
    groupOf objs = .objectGroup (groupFor objs).declarations (groupFor objs).objects := by
  unfold groupOf groupFor entriesOf
  simp only [List.map_flatMap]
  rfl

theorem zip_unzip {α β : Type} (l : List (α × β)) : (l.map Prod.fst).zip (l.map Prod.snd) = l := by
  induction l with
  | nil => rfl
  | cons x l ih => simp [ih]

theorem sx_inj {a b : Nat} (h : sx a = sx b) : a = b := by
  unfold sx at h
  exact (ExGuid.mk.inj h).2

theorem stored_eq (objs : List SampleObject) (id : ExGuid) (part : Nat) :
    storedData (groupFor objs) id part =
      lastWith (objs.flatMap fun o => [((sx o.id, 4), GroupData.object [] [] (leBytes 4 o.jcid)),
        ((sx o.id, 1), .object o.refs o.cells o.props)]) (id, part) := by
  unfold storedData groupFor
  simp only [zip_unzip]
  unfold entriesOf
  simp only [List.map_flatMap]
  rfl

theorem keys_nodup {objs : List SampleObject} (h : (objs.map (·.id)).Nodup) :
    ((objs.flatMap fun o => [((sx o.id, 4), GroupData.object [] [] (leBytes 4 o.jcid)),
        ((sx o.id, 1), .object o.refs o.cells o.props)]).map Prod.fst).Nodup := by
  induction objs with
  | nil => exact List.nodup_nil
  | cons o objs ih =>
    simp only [List.map_cons, List.nodup_cons] at h
    have key : ∀ k, (sx o.id, k) ∉ ((objs.flatMap fun o =>
        [((sx o.id, 4), GroupData.object [] [] (leBytes 4 o.jcid)),
        ((sx o.id, 1), .object o.refs o.cells o.props)]).map Prod.fst) := by
      intro k hk
      obtain ⟨x, hx, he⟩ := List.mem_map.1 hk
      obtain ⟨o', ho', hx⟩ := List.mem_flatMap.1 hx
      have : sx o'.id = sx o.id := by
        simp only [List.mem_cons, List.not_mem_nil, or_false] at hx
        rcases hx with rfl | rfl <;> exact (Prod.mk.inj he).1
      exact h.1 (List.mem_map.2 ⟨o', ho', sx_inj this⟩)
    simp only [List.flatMap_cons, List.map_append, List.map_cons, List.map_nil, List.cons_append,
      List.nil_append, List.nodup_cons, List.mem_cons, not_or]
    exact ⟨⟨by simp, key 4⟩, key 1, ih h.2⟩

theorem stored {objs : List SampleObject} (h : (objs.map (·.id)).Nodup) {o : SampleObject}
    (ho : o ∈ objs) :
    storedData (groupFor objs) (sx o.id) 4 = some (.object [] [] (leBytes 4 o.jcid)) ∧
    storedData (groupFor objs) (sx o.id) 1 = some (.object o.refs o.cells o.props) ∧
    storedData (groupFor objs) (sx o.id) 2 = none := by
  refine ⟨?_, ?_, ?_⟩
  · rw [stored_eq, lastWith_iff (keys_nodup h)]
    exact List.mem_flatMap.2 ⟨o, ho, by simp⟩
  · rw [stored_eq, lastWith_iff (keys_nodup h)]
    exact List.mem_flatMap.2 ⟨o, ho, by simp⟩
  · rw [stored_eq]
    cases hl : lastWith _ (sx o.id, 2) with
    | none => rfl
    | some x =>
      obtain ⟨o', _, hx⟩ := List.mem_flatMap.1 (lastWith_mem hl)
      simp at hx

theorem object_written {pkg : Package} {cell : CellId} {objs : List SampleObject}
    (h : (objs.map (·.id)).Nodup) {o : SampleObject} (ho : o ∈ objs) (hg : Good o) :
    ObjectIs pkg cell (groupFor objs) (sx o.id) (objectOf cell o) := by
  obtain ⟨h4, h1, h2⟩ := stored h ho
  obtain ⟨hk, hp, hr, hc⟩ := hg
  refine ⟨rfl, ⟨[], [], [], ?_, hk⟩, ⟨o.refs, o.cells, o.props, h1, ?_, hr, hc, rfl⟩, .inl ⟨h2, rfl⟩⟩
  · rw [h4, List.append_nil]; rfl
  · apply props_run.1
    obtain ⟨ps, hps⟩ := Option.isSome_iff_exists.1 hp
    have : propsOf o = ps := by unfold propsOf; rw [hps]; rfl
    show ObjectPropSet.parse.run o.props = .ok (propsOf o)
    rw [this]
    exact toOption_some hps

theorem declares_iff {objs : List SampleObject} {id : ExGuid} :
    Declares (groupFor objs) id ↔ ∃ o ∈ objs, sx o.id = id := by
  unfold Declares groupFor entriesOf
  simp only [List.mem_map, List.mem_flatMap]
  constructor
  · rintro ⟨d, ⟨x, ⟨o, ho, hx⟩, rfl⟩, hd⟩
    refine ⟨o, ho, ?_⟩
    simp only [List.mem_cons, List.not_mem_nil, or_false] at hx
    rcases hx with rfl | rfl <;> exact hd
  · rintro ⟨o, ho, rfl⟩
    exact ⟨.object (sx o.id) 4 0 0 0, ⟨_, ⟨o, ho, List.mem_cons_self⟩, rfl⟩, rfl⟩

theorem objects_nodup {cell : CellId} {objs : List SampleObject} (h : (objs.map (·.id)).Nodup) :
    ((objs.map fun o => (sx o.id, objectOf cell o)).map Prod.fst).Nodup := by
  rw [List.map_map]
  exact List.Pairwise.map _ (fun a b hab he => hab (sx_inj he))
    (List.Pairwise.of_map (S := (· ≠ ·)) _ (fun a b hab he => hab he) h)

theorem get_space {cell : CellId} {content info : ExGuid} {objs : List SampleObject}
    (h : (objs.map (·.id)).Nodup) {o : SampleObject} (ho : o ∈ objs) :
    (spaceOf cell content info objs).getObject (sx o.id) = some (objectOf cell o) :=
  Map.get?_of_mem (objects_nodup h) (List.mem_map.2 ⟨o, ho, rfl⟩)

theorem get_none {cell : CellId} {content info : ExGuid} {objs : List SampleObject} {id : ExGuid}
    (h : ∀ o ∈ objs, sx o.id ≠ id) : (spaceOf cell content info objs).getObject id = none := by
  cases hs : (spaceOf cell content info objs).getObject id with
  | none => rfl
  | some o =>
    obtain ⟨x, hx, he⟩ := List.mem_map.1 (Map.mem_of_get? hs)
    exact absurd (Prod.mk.inj he).1 (h x hx)

def manifestFor (n : Nat) (content info : ExGuid) : RevisionManifest :=
  revisionOf (sx (200 + n)) ExGuid.nil
    ([.root contentRole content, .root metadataRole info] ++ [.group (sx (400 + n))])

theorem history_written {pkg : Package} {cell : CellId} {objs : List SampleObject} {n : Nat}
    {content info : ExGuid} (hn : (objs.map (·.id)).Nodup) (hg : ∀ o ∈ objs, Good o)
    (hp : pkg.objectGroups.get? (sx (400 + n)) = some (groupFor objs)) :
    HistoryIs pkg cell [manifestFor n content info] (spaceOf cell content info objs) := by
  have gs : groupsOf pkg [manifestFor n content info] = [groupFor objs] := by
    show (([sx (400 + n)].filterMap pkg.objectGroups.get?) ++ []) = _
    simp only [List.filterMap_cons, hp, List.filterMap_nil, List.append_nil]
  constructor
  · intro m hm gid hgid
    obtain rfl := List.mem_singleton.1 hm
    obtain rfl : gid = sx (400 + n) := List.mem_singleton.1 hgid
    exact ⟨_, hp⟩
  · intro m hm d hd
    obtain rfl := List.mem_singleton.1 hm
    have hd : d ∈ [(⟨contentRole, content⟩ : RootDeclare), ⟨metadataRole, info⟩] := hd
    simp only [List.mem_cons, List.not_mem_nil, or_false] at hd
    rcases hd with rfl | rfl
    · exact ⟨.defaultContent, rfl⟩
    · exact ⟨.metadata, rfl⟩
  · intro role
    show _ = lastWith [(contentRole, content), (metadataRole, info)] _
    cases role <;> rfl
  · intro id pre g post hs _ hd
    rw [gs] at hs
    have hpre : pre = [] ∧ g = groupFor objs := by
      cases pre with
      | nil => exact ⟨rfl, (List.cons.inj hs).1.symm⟩
      | cons x pre =>
        have := congrArg List.length hs
        simp at this
    obtain ⟨-, rfl⟩ := hpre
    obtain ⟨o, ho, rfl⟩ := declares_iff.1 hd
    refine ⟨by simp [groupFor], _, get_space hn ho, object_written hn ho (hg o ho)⟩
  · intro id h
    rw [gs] at h
    exact get_none fun o ho he => h _ (List.mem_singleton.2 rfl) (declares_iff.2 ⟨o, ho, he⟩)

/-! ### The file -/

/-- The elements of the written file. -/
def elementsFor (page : List SampleObject) : List Element :=
  ⟨sx 4, manifestOf sectionGuid⟩ ::
    storeElements [.root contentRole (sx 1000), .root metadataRole (sx 1001)] (sectionObjects none 1)
      [(pageCell, 5, [.root contentRole (sx 2002), .root metadataRole (sx 2001)], page)]

def packageFor (page : List SampleObject) : Packaging :=
  ⟨sectionGuid, Guid.nil, Guid.nil, packageStore, sx 3, sectionGuid, packageOf (elementsFor page)⟩

/-- The storage index of the written file. -/
def indexFor : StorageIndex :=
  indexOf [.cell headerCell (sx 101) ⟨sampleGuid, 1⟩, .cell dataCell (sx 102) ⟨sampleGuid, 2⟩,
    .cell pageCell (sx 105) ⟨sampleGuid, 5⟩]

theorem lookups (page : List SampleObject) :
    (packageOf (elementsFor page)).storageIndexes = [(sx 3, indexFor)] ∧
    (packageOf (elementsFor page)).cellManifests.get? (sx 102) = some (sx 202) ∧
    (packageOf (elementsFor page)).cellManifests.get? (sx 105) = some (sx 205) ∧
    (packageOf (elementsFor page)).revisionManifests.get? (sx 202) =
      some (manifestFor 2 (sx 1000) (sx 1001)) ∧
    (packageOf (elementsFor page)).revisionManifests.get? (sx 205) =
      some (manifestFor 5 (sx 2002) (sx 2001)) ∧
    (packageOf (elementsFor page)).objectGroups.get? (sx 402) =
      some (groupFor (sectionObjects none 1)) ∧
    (packageOf (elementsFor page)).objectGroups.get? (sx 405) = some (groupFor page) := by
  unfold elementsFor storeElements
  simp only [groupOf_eq, List.flatMap_cons, List.flatMap_nil, List.map_cons, List.map_nil]
  refine ⟨rfl, rfl, rfl, rfl, rfl, rfl, rfl⟩

def headerGroup : ObjectGroup := ⟨[.object (sx 900) 1 0 0 0], [], [.object [] [] headerProps]⟩

theorem header_lookups (page : List SampleObject) :
    (packageOf (elementsFor page)).storageManifests =
      [(sx 4, ⟨sectionGuid, [(headerRootId, headerCell), (defaultRootId, dataCell)]⟩)] ∧
    (packageOf (elementsFor page)).cellManifests.get? (sx 101) = some (sx 201) ∧
    (packageOf (elementsFor page)).revisionManifests.get? (sx 201) =
      some (revisionOf (sx 201) ExGuid.nil [.group (sx 401)]) ∧
    (packageOf (elementsFor page)).objectGroups.get? (sx 401) = some headerGroup := by
  unfold elementsFor storeElements
  simp only [groupOf_eq, List.flatMap_cons, List.flatMap_nil, List.map_cons, List.map_nil]
  refine ⟨rfl, rfl, rfl, rfl⟩

theorem index_lookups : indexFor.revisionMappings = [] ∧
    indexFor.cellMappings = [(headerCell, ⟨headerCell, sx 101, ⟨sampleGuid, 1⟩⟩),
      (dataCell, ⟨dataCell, sx 102, ⟨sampleGuid, 2⟩⟩), (pageCell, ⟨pageCell, sx 105, ⟨sampleGuid, 5⟩⟩)] :=
  ⟨rfl, rfl⟩

theorem resolves_self {pkg : Package} {r : ExGuid} {m : RevisionManifest}
    (h : pkg.revisionManifests.get? r = some m) : Resolves pkg indexFor r r := by
  unfold Resolves
  rw [index_lookups.1]
  exact ⟨rfl, by rw [h]; rfl⟩

theorem leads_written {pkg : Package} {id r : ExGuid} {m : RevisionManifest}
    (hc : pkg.cellManifests.get? id = some r) (h : pkg.revisionManifests.get? r = some m) :
    LeadsTo pkg indexFor id r := .inl ⟨r, hc, resolves_self h⟩

theorem space_written {pkg : Package} {cell : CellId} {id : ExGuid} {serial : SerialNumber}
    {objs : List SampleObject} {n : Nat} {content info : ExGuid}
    (hn : (objs.map (·.id)).Nodup) (hg : ∀ o ∈ objs, Good o)
    (hc : pkg.cellManifests.get? id = some (sx (200 + n)))
    (hm : pkg.revisionManifests.get? (sx (200 + n)) = some (manifestFor n content info))
    (hp : pkg.objectGroups.get? (sx (400 + n)) = some (groupFor objs)) :
    SpaceIs pkg indexFor ⟨cell, id, serial⟩ (spaceOf cell content info objs) :=
  ⟨rfl, rfl, .inl ⟨_, _, .inl (leads_written hc hm), .oldest _ _ hm rfl, history_written hn hg hp⟩⟩

theorem section_good : ∀ o ∈ sectionObjects none 1, Good o := by decide +kernel

theorem header_exists : ∃ h, StoreHeader.parse headerGroup = .ok h := by
  have h : (StoreHeader.parse headerGroup).toOption.isSome = true := by decide +kernel
  obtain ⟨x, hx⟩ := Option.isSome_iff_exists.1 h
  exact ⟨x, toOption_some hx⟩

/-- The store of the written file. -/
theorem store_written : ∃ header, ∀ page : List SampleObject, (page.map (·.id)).Nodup →
    (∀ o ∈ page, Good o) →
    StoreIs (packageFor page) ⟨sectionGuid, header,
      spaceOf dataCell (sx 1000) (sx 1001) (sectionObjects none 1),
      [(pageCell, spaceOf pageCell (sx 2002) (sx 2001) page)]⟩ := by
  obtain ⟨header, hh⟩ := header_exists
  refine ⟨header, fun page hn hg => ?_⟩
  obtain ⟨l1, l2, l3, l4, l5, l6, l7⟩ := lookups page
  obtain ⟨m1, m2, m3, m4⟩ := header_lookups page
  obtain ⟨i1, i2⟩ := index_lookups
  refine ⟨indexFor, ⟨sectionGuid, [(headerRootId, headerCell), (defaultRootId, dataCell)]⟩,
    headerCell, dataCell, .inl ?_, ⟨sx 4, ?_⟩, rfl, rfl,
    ⟨⟨headerCell, sx 101, ⟨sampleGuid, 1⟩⟩, ?_, ?_⟩, rfl,
    ⟨⟨dataCell, sx 102, ⟨sampleGuid, 2⟩⟩, ?_, ?_⟩, ?_, ?_⟩
  · show (packageOf (elementsFor page)).storageIndexes.get? (sx 3) = _
    rw [l1]; rfl
  · show _ ∈ (packageOf (elementsFor page)).storageManifests
    rw [m1]
    exact List.mem_singleton.2 rfl
  · rw [i2]; rfl
  · exact ⟨_, _, _, [], _, .inl (leads_written m2 m3), m3, rfl, m4, by simp, header_iff.1 hh⟩
  · rw [i2]; rfl
  · exact space_written (n := 2) (by decide +kernel) section_good l2 l4 l6
  · rintro c m ⟨hm, h0, h1, h2⟩
    have hc : c = pageCell ∧ m = ⟨pageCell, sx 105, ⟨sampleGuid, 5⟩⟩ := by
      have hm := Map.mem_of_get? hm
      rw [i2] at hm
      simp only [List.mem_cons, List.not_mem_nil, or_false, Prod.mk.injEq] at hm
      rcases hm with ⟨rfl, -⟩ | ⟨rfl, -⟩ | hm
      · exact absurd rfl h1
      · exact absurd rfl h2
      · exact hm
    obtain ⟨rfl, rfl⟩ := hc
    exact ⟨_, rfl, space_written (n := 5) hn hg l3 l5 l7⟩
  · intro c hc
    have : c ≠ pageCell := by
      rintro rfl
      exact hc ⟨⟨pageCell, sx 105, ⟨sampleGuid, 5⟩⟩, by rw [i2]; rfl, by decide, by decide, by decide⟩
    show Map.get? [(pageCell, _)] c = none
    simp [Map.get?, this.symm]

/-! ### The bytes -/

/-- The numbers of the object fit their fields. -/
def Fitting (o : SampleObject) : Prop :=
  o.id < 2 ^ 32 ∧ RefsFit o.refs o.cells ∧ Fits64 o.props.length

instance (o : SampleObject) : Decidable (Fitting o) := inferInstanceAs (Decidable (_ ∧ _))

/-- The written file. -/
def fileFor (page : List SampleObject) : Bytes := fileW (sx 3) sectionGuid (elementsFor page)

def elementsBefore : List Element :=
  ⟨sx 4, manifestOf sectionGuid⟩ ::
    ([⟨sx 3, .storageIndex [.cell headerCell (sx 101) ⟨sampleGuid, 1⟩,
        .cell dataCell (sx 102) ⟨sampleGuid, 2⟩, .cell pageCell (sx 105) ⟨sampleGuid, 5⟩]⟩] ++
      cellOf 1 [] (.objectGroup [.object (sx 900) 1 0 0 0] [.object [] [] headerProps]) ++
      cellOf 2 [.root contentRole (sx 1000), .root metadataRole (sx 1001)]
        (groupOf (sectionObjects none 1)) ++
      [⟨sx 105, .cellManifest (sx 205)⟩,
       ⟨sx 205, .revisionManifest (sx 205) ExGuid.nil
        ([.root contentRole (sx 2002), .root metadataRole (sx 2001)] ++ [.group (sx 405)])⟩])

theorem elements_eq (page : List SampleObject) :
    elementsFor page = elementsBefore ++ [⟨sx 405, groupOf page⟩] := rfl

theorem before_fits : ∀ e ∈ elementsBefore, ElementFits e := by decide +kernel

theorem elements_fit {page : List SampleObject} (h : ∀ o ∈ page, Fitting o) :
    ∀ e ∈ elementsFor page, ElementFits e := by
  intro e he
  rw [elements_eq] at he
  rcases List.mem_append.1 he with he | he
  · exact before_fits e he
  · obtain rfl := List.mem_singleton.1 he
    refine ⟨by show 405 < _; decide, ?_, ?_⟩
    · intro d hd
      obtain ⟨o, ho, hd⟩ := List.mem_flatMap.1 hd
      simp only [List.mem_cons, List.not_mem_nil, or_false] at hd
      have : ExGuidFits (sx o.id) := (h o ho).1
      rcases hd with rfl | rfl
      · exact ⟨this, by decide, by decide, by decide, by decide⟩
      · exact ⟨this, by decide, by decide, by decide, by decide⟩
    · intro d hd
      obtain ⟨o, ho, hd⟩ := List.mem_flatMap.1 hd
      simp only [List.mem_cons, List.not_mem_nil, or_false] at hd
      rcases hd with rfl | rfl
      · exact ⟨by decide, by show (leBytes 4 _).length < _; simp⟩
      · exact (h o ho).2

theorem file_parse {page : List SampleObject} (h : ∀ o ∈ page, Fitting o) :
    Packaging.parse (fileFor page) = .ok (packageFor page, []) :=
  fileW_parse (by decide) (elements_fit h)

theorem unambiguous_written (page : List SampleObject) : Unambiguous (packageFor page) := by
  obtain ⟨l1, l2, l3, l4, l5, l6, l7⟩ := lookups page
  obtain ⟨m1, m2, m3, m4⟩ := header_lookups page
  obtain ⟨i1, i2⟩ := index_lookups
  refine ⟨.inr ?_, ?_, ?_⟩
  · show (packageOf (elementsFor page)).storageIndexes.length ≤ 1
    rw [l1]; exact Nat.le_refl 1
  · show (packageOf (elementsFor page)).storageManifests.length ≤ 1
    rw [m1]; exact Nat.le_refl 1
  · intro i si c m hi hm
    have hi : (i, si) ∈ (packageOf (elementsFor page)).storageIndexes := hi
    rw [l1, List.mem_singleton, Prod.mk.injEq] at hi
    obtain ⟨-, rfl⟩ := hi
    rw [i2] at hm
    simp only [List.mem_cons, List.not_mem_nil, or_false, Prod.mk.injEq] at hm
    rcases hm with ⟨-, rfl⟩ | ⟨-, rfl⟩ | ⟨-, rfl⟩
    · exact .inr (.inl (.inl ⟨_, _, m2, resolves_self m3⟩))
    · exact .inr (.inl (.inl ⟨_, _, l2, resolves_self l4⟩))
    · exact .inr (.inl (.inl ⟨_, _, l3, resolves_self l5⟩))

theorem contains_parse {data : Bytes} {p : Packaging} (h : Packaging.parse data = .ok (p, []))
    (q : Packaging) : Contains data q ↔ q = p := by
  rw [holds_iff]
  unfold P.run
  rw [h]
  simp [eq_comm]

/-! ### The section -/

theorem parsed {α β : Type} [DecidableEq β] {r : Res α} (f : α → β) {b : β}
    (h : r.toOption.map f = some b) : ∃ a, r = .ok a ∧ f a = b := by
  obtain ⟨a, ha, hb⟩ := Option.map_eq_some_iff.1 h
  exact ⟨a, toOption_some ha, hb⟩

theorem section_written {page : List SampleObject} (hn : (page.map (·.id)).Nodup)
    (hg : ∀ o ∈ page, Good o) (hf : ∀ o ∈ page, Fitting o) {p : Page}
    (hp : PageIs (spaceOf pageCell (sx 2002) (sx 2001) page) p) (name : Text) :
    PlainFile (fileFor page) ∧ ∃ s, SectionFile (fileFor page) name s ∧ s.pageSeries = [⟨[p]⟩] := by
  have hc := contains_parse (file_parse hf)
  refine ⟨fun q hq => by rw [(hc q).1 hq]; exact unambiguous_written page, ?_⟩
  obtain ⟨header, hs⟩ := store_written
  obtain ⟨n, h1, h2⟩ := parsed (r := SectionNode.parse (objectOf dataCell
    (sectionObjects none 1)[1])) (·.pageSeries) (b := [sx 1002]) (by decide +kernel)
  obtain ⟨m, h3, h4⟩ := parsed (r := SectionMetadata.parse (objectOf dataCell
    (sectionObjects none 1)[0])) (·.displayName) (b := none) (by decide +kernel)
  obtain ⟨k, h5, h6⟩ := parsed (r := PageSeriesNode.parse (objectOf dataCell
    (sectionObjects none 1)[2])) (·.pageSpaces) (b := [pageCell]) (by decide +kernel)
  refine ⟨⟨trimEndMatches dotOne name, [⟨[p]⟩], m.color⟩, ⟨_, ⟨_, (hc _).2 rfl, hs page hn hg⟩, rfl,
    sx 1001, _, m, sx 1000, _, n, rfl, rfl, SectionMetadata.parse_iff.1 h3, rfl, rfl,
    SectionNode.parse_iff.1 h1, ?_, ?_, rfl⟩, rfl⟩
  · rw [h4]
    exact stripped_iff.1 rfl
  · rw [h2]
    refine .cons ⟨_, k, rfl, PageSeriesNode.parse_iff.1 h5, ?_⟩ .nil
    rw [h6]
    exact .cons ⟨_, rfl, hp⟩ .nil

/-- A page with one content. -/
theorem page_written {objs : List SampleObject}
    (hn : ((pageObjects [3001] objs).map (·.id)).Nodup) {c : PageContent}
    (hc : PageContentIs (spaceOf pageCell (sx 2002) (sx 2001) (pageObjects [3001] objs)) (sx 3001) c) :
    ∃ p, PageIs (spaceOf pageCell (sx 2002) (sx 2001) (pageObjects [3001] objs)) p ∧
      p.contents = [c] := by
  obtain ⟨info, a1, -⟩ := parsed (r := PageMetadata.parse (objectOf pageCell
    (pageObjects [3001] [])[0])) (fun _ => ()) (b := ()) (by decide +kernel)
  obtain ⟨manifest, b1, b2⟩ := parsed (r := PageManifestNode.parse (objectOf pageCell
    (pageObjects [3001] [])[1])) _root_.id (b := sx 2003) (by decide +kernel)
  obtain ⟨node, c1, c2⟩ := parsed (r := PageNode.parse (objectOf pageCell
    (pageObjects [3001] [])[2])) (fun n => (n.content, n.title)) (b := ([sx 3001], none))
    (by decide +kernel)
  simp only [Prod.mk.injEq] at c2
  have b2 : manifest = sx 2003 := b2
  subst b2
  refine ⟨_, ⟨sx 2001, _, info, sx 2002, _, sx 2003, _, node, none, [c], rfl,
    get_space hn (.head _), PageMetadata.parse_iff.1 a1, rfl,
    get_space hn (.tail _ (.head _)), PageManifestNode.parse_iff.1 b1,
    get_space hn (.tail _ (.tail _ (.head _))), PageNode.parse_iff.1 c1, .inl ⟨c2.2, rfl⟩, ?_, rfl⟩,
    rfl⟩
  rw [c2.1]
  exact .cons hc .nil

end OneNote.Written
