/-
Files whose objects say the same have stores whose objects say the same.
-/
import Verif.Lemmas.MovedObjects
import Verif.Lemmas.History

namespace OneNote.Same

open Spec Spec.Fields Spec.StoreContents Spec.History

/-! ### Elements -/

/-- Groups that store the same objects, or equal groups. -/
def GroupRel (g g' : ObjectGroup) : Prop :=
  g = g' ∨ SameGroup g.declarations g.objects g'.declarations g'.objects

theorem properties_symm {d d' : Bytes} (h : SameProperties d d') : SameProperties d' d := by
  obtain ⟨oids, osids, ctx, es, es', bs, bs', rest, rest', h1, h2, h3, h4, h5, h6, h7, h8⟩ := h
  exact ⟨oids, osids, ctx, es', es, bs', bs, rest', rest, h2, h1, h3, h4, h5, symm value_symm h6, h8, h7⟩

theorem moved_symm {K : List CompactId → List Carried → Prop} {r r' : List ExGuid} {d d' : Bytes}
    (h : MovedProperties K r d r' d') : MovedProperties K r' d' r d := by
  obtain ⟨osids, ctx, cs, cs', bs, bs', rest, rest', h1, h2, ⟨h3, h4, h5, h6⟩, h7, h8, h9, ⟨h10, h11⟩,
    h12, h13⟩ := h
  exact ⟨osids, ctx, cs', cs, bs', bs, rest', rest, h2, h1, ⟨h4, h3, h5, h6⟩, ⟨h7.2, h7.1⟩, ⟨h8.2, h8.1⟩,
    ⟨h9.back, h9.there, h9.spaces.symm⟩, ⟨h11, h10⟩, h13, h12⟩

theorem object_symm {e e' : Declaration × GroupData} (h : SameObject e e') : SameObject e' e := by
  obtain ⟨h1, h2⟩ := h
  refine ⟨h1.symm, ?_⟩
  rcases h2 with h2 | ⟨h2, ⟨refs, cells, d, d', h3, h4, h5⟩ | ⟨refs, refs', cells, d, d', h3, h4, h5⟩⟩
  · exact .inl h2.symm
  · exact .inr ⟨h1 ▸ h2, .inl ⟨refs, cells, d', d, h4, h3, properties_symm h5⟩⟩
  · exact .inr ⟨h1 ▸ h2, .inr ⟨refs', refs, cells, d', d, h4, h3, moved_symm h5⟩⟩

theorem group_symm {ds os ds' os'} (h : SameGroup ds os ds' os') : SameGroup ds' os' ds os :=
  ⟨h.paired', h.paired, each_mono (each_flip h.objects) fun _ _ _ h => object_symm h⟩

theorem element_symm {e e' : LaxElement} (h : SameElement e e') : SameElement e' e := by
  rcases h with rfl | ⟨ds, os, ds', os', h1, rfl, h2⟩
  · exact .inl rfl
  · refine .inr ⟨ds', os', ds, os, rfl, ?_, group_symm h2⟩
    obtain ⟨i, p⟩ := e
    cases h1
    rfl

theorem elements_symm {es es' : List LaxElement} (h : Each SameElement es es') :
    Each SameElement es' es :=
  each_mono (each_flip h) fun _ _ _ h => element_symm h

theorem sameBut {es es' : List LaxElement} (h : Each SameElement es es') :
    SameBut (fun _ => True) es es' := by
  unfold SameBut
  refine each_mono h fun e e' _ hr => ?_
  rcases hr with rfl | ⟨ds, os, ds', os', h1, rfl, -⟩
  · exact .inl rfl
  · exact .inr ⟨ds, os, ds', os', trivial, h1, rfl⟩

/-- Both absent, or both present and related. -/
theorem option_or {α : Type} {R : α → α → Prop} {a b a' b' : Option α} (h : SameOption R a a')
    (h' : SameOption R b b') : SameOption R (a.or b) (a'.or b') := by
  cases a <;> cases a' <;> first | exact h' | exact h.elim | exact h

theorem option_refl {α : Type} {R : α → α → Prop} (h : ∀ a, R a a) (a : Option α) : SameOption R a a := by
  cases a
  · trivial
  · exact h _

theorem groups_rel {es es' : List LaxElement} (h : Each SameElement es es') (k : ExGuid) :
    SameOption GroupRel (lastWith (objectGroups (wholeElements es)) k)
      (lastWith (objectGroups (wholeElements es')) k) := by
  have cons : ∀ (id : ExGuid) (b : Body) (es : List LaxElement),
      objectGroups (wholeElements (⟨id, .body b⟩ :: es)) =
        (objectGroups [⟨id, b⟩]) ++ objectGroups (wholeElements es) := by
    intro id b es
    cases b <;> rfl
  induction h with
  | nil => trivial
  | @cons e e' es es' hr _ ih =>
    rcases hr with rfl | ⟨ds, os, ds', os', h1, rfl, h2⟩
    · obtain ⟨id, b | f⟩ := e
      · rw [cons, cons]
        simp only [lastWith_append]
        exact option_or ih (option_refl (fun _ => .inl rfl) _)
      · exact ih
    · obtain ⟨id, b⟩ := e
      cases h1
      rw [cons, cons]
      simp only [lastWith_append]
      refine option_or ih ?_
      by_cases hk : id = k
      · simp only [objectGroups, List.filterMap_cons, List.filterMap_nil, lastWith, hk,
          List.reverse_cons, List.reverse_nil, List.nil_append, List.find?_cons, decide_true,
          Option.map_some]
        exact .inr h2
      · simp only [objectGroups, List.filterMap_cons, List.filterMap_nil, lastWith, hk,
          List.reverse_cons, List.reverse_nil, List.nil_append, List.find?_cons, decide_false,
          List.find?_nil, Option.map_none]
        trivial

/-- The packages differ at most in the properties of their objects. -/
structure PackageRel (pkg pkg' : Package) : Prop where
  alike : Alike (fun _ => True) pkg pkg'
  groups : ∀ k, SameOption GroupRel (pkg.objectGroups.get? k) (pkg'.objectGroups.get? k)

theorem package_rel {es es' : List LaxElement} (h : Each SameElement es es') :
    PackageRel (laxPackageOf es) (laxPackageOf es') := by
  refine ⟨sameBut_alike (sameBut h), fun k => ?_⟩
  simp only [laxPackageOf, packageOf, Map.get?_ofList]
  exact groups_rel h k

/-! ### Objects -/

theorem declares_iff {g g' : ObjectGroup} (h : GroupRel g g') {id : ExGuid} :
    Declares g id ↔ Declares g' id := by
  have key : ∀ {g g' : ObjectGroup}, SameGroup g.declarations g.objects g'.declarations g'.objects →
      Declares g id → Declares g' id := by
    rintro g g' ⟨h1, h2, h3⟩ ⟨d, hd, hi⟩
    have hz : d ∈ (g.declarations.zip g.objects).map Prod.fst := by
      rw [List.map_fst_zip (by omega)]; exact hd
    obtain ⟨e, he, rfl⟩ := List.mem_map.1 hz
    obtain ⟨e', he', hr⟩ := each_mem' h3 he
    exact ⟨e'.1, (List.of_mem_zip he').1, by rw [← hr.1]; exact hi⟩
  rcases h with rfl | h
  · exact Iff.rfl
  · exact ⟨key h, key (group_symm h)⟩

/-- What is stored for an object: the same, or (partition 1) properties that say the same. -/
def DataRel (part : Nat) (d d' : GroupData) : Prop :=
  d = d' ∨ part = 1 ∧
    ((∃ refs cells data data', d = .object refs cells data ∧
      d' = .object refs cells data' ∧ SameProperties data data') ∨
    ∃ refs refs' cells data data', d = .object refs cells data ∧
      d' = .object refs' cells data' ∧ MovedProperties Countable refs data refs' data')

theorem stored_rel {g g' : ObjectGroup} (h : GroupRel g g') (id : ExGuid) (part : Nat) :
    SameOption (DataRel part) (storedData g id part) (storedData g' id part) := by
  rcases h with rfl | ⟨-, -, h⟩
  · exact option_refl (fun _ => .inl rfl) _
  · unfold storedData
    generalize g.declarations.zip g.objects = l at h
    generalize g'.declarations.zip g'.objects = l' at h
    induction h with
    | nil => trivial
    | @cons e e' l l' hr _ ih =>
      have hc : ∀ (e : Declaration × GroupData) (l : List (Declaration × GroupData)),
          (e :: l).map (fun e => (declared e.1, e.2)) =
            [(declared e.1, e.2)] ++ l.map fun e => (declared e.1, e.2) := fun _ _ => rfl
      rw [hc, hc, lastWith_append, lastWith_append]
      refine option_or ih ?_
      obtain ⟨h1, h2⟩ := hr
      rw [← h1]
      by_cases hk : declared e.1 = (id, part)
      · rw [hk] at h2 ⊢
        simp only [lastWith, List.reverse_cons, List.reverse_nil, List.nil_append, List.find?_cons,
          decide_true, Option.map_some]
        exact h2
      · simp only [lastWith, List.reverse_cons, List.reverse_nil, List.nil_append, List.find?_cons,
          hk, decide_false, List.find?_nil, Option.map_none]
        trivial

theorem view_refl (o : Object) : View o o :=
  parallel_view ⟨rfl, rfl, rfl, rfl, rfl, rfl, sameSet_refl _⟩

theorem props_unique {data : Bytes} {props props' : ObjectPropSet} (h : PropsAre data props)
    (h' : PropsAre data props') : props = props' := by
  have a := props_run.2 h
  rw [props_run.2 h'] at a
  exact (Except.ok.inj a).symm

theorem props_same {data data' : Bytes} (h : SameProperties data data') {props : ObjectPropSet}
    (hp : PropsAre data props) : ∃ props', PropsAre data' props' ∧
      props'.objectIds = props.objectIds ∧ props'.objectSpaceIds = props.objectSpaceIds ∧
      props'.contextIds = props.contextIds ∧ SameSet SameValue props.properties props'.properties := by
  obtain ⟨oids, osids, ctx, es, es', bs, bs', rest, rest', h1, h2, h3, h4, h5, h6, h7, h8⟩ := h
  have hp0 : PropsAre data ⟨oids, osids, ctx, setOf es⟩ := ⟨es, bs, rest, h1, h3, h4, h5, rfl, h7⟩
  have he : props = ⟨oids, osids, ctx, setOf es⟩ := by
    have a := props_run.2 hp
    rw [props_run.2 hp0] at a
    exact (Except.ok.inj a).symm
  subst he
  exact ⟨⟨oids, osids, ctx, setOf es'⟩, ⟨es', bs', rest', h2, h3, h4, h5, rfl, h8⟩, rfl, rfl, rfl,
    same_set value_counted value_symm h6⟩

section
variable {pkg pkg' : Package} {si : StorageIndex}

theorem option_some {α : Type} {R : α → α → Prop} {a a' : Option α} (h : SameOption R a a') {x : α}
    (hx : a = some x) : ∃ x', a' = some x' ∧ R x x' := by
  subst hx
  cases a' with
  | none => exact h.elim
  | some x' => exact ⟨x', rfl, h⟩

theorem option_none {α : Type} {R : α → α → Prop} {a a' : Option α} (h : SameOption R a a')
    (hx : a = none) : a' = none := by
  subst hx
  cases a' with
  | none => rfl
  | some x' => exact h.elim

theorem object_is (h : PackageRel pkg pkg') {cell : CellId} {g g' : ObjectGroup} (hg : GroupRel g g')
    {id : ExGuid} {o : Object} (ho : ObjectIs pkg cell g id o) :
    ∃ o', ObjectIs pkg' cell g' id o' ∧ View o o' := by
  obtain ⟨h1, ⟨r, c, rest, h2, h3⟩, ⟨refs, cells, data, h4, h5, h6, h7, h8⟩, h9⟩ := ho
  have plain : ∀ part, part ≠ 1 → storedData g' id part = storedData g id part := by
    intro part hp
    have hs := stored_rel hg id part
    cases hx : storedData g id part with
    | none => exact option_none hs hx
    | some d =>
      obtain ⟨d', hd', hr⟩ := option_some hs hx
      rcases hr with rfl | ⟨h1, -⟩
      · exact hd'
      · exact absurd h1 hp
  obtain ⟨d', hd', hr⟩ := option_some (stored_rel hg id 1) h4
  have hf : (storedData g' id 2 = none ∧ o.fileData = none) ∨
      ∃ r c b blob, storedData g' id 2 = some (.blobReference r c b) ∧
        pkg'.blobs.get? b = some blob ∧ o.fileData = some blob := by
    rw [plain 2 (by decide), ← h.alike.blobs]
    exact h9
  rcases hr with rfl | ⟨-, ⟨refs', cells', a, a', ha, rfl, hs⟩ | ⟨refs1, refs', cells', a, a', ha, rfl, hs⟩⟩
  · exact ⟨o, ⟨h1, ⟨r, c, rest, (plain 4 (by decide)).trans h2, h3⟩,
      ⟨refs, cells, data, hd', h5, h6, h7, h8⟩, hf⟩, view_refl o⟩
  · cases ha
    obtain ⟨props', hp1, hp2, hp3, hp4, hp5⟩ := props_same hs h5
    refine ⟨⟨o.contextId, o.jcId, props', o.fileData, o.mapping⟩,
      ⟨h1, ⟨r, c, rest, (plain 4 (by decide)).trans h2, h3⟩,
        ⟨refs, cells, a', hd', hp1, ?_, ?_, ?_⟩, hf⟩,
      parallel_view ⟨rfl, rfl, rfl, rfl, hp2, hp3, hp5⟩⟩
    · exact hp2 ▸ h6
    · show props'.contextIds.length + props'.objectSpaceIds.length = _
      rw [hp3, hp4]; exact h7
    · show o.mapping = _
      rw [h8]
      simp only [tableOf, hp2, hp3, hp4]
  · cases ha
    obtain ⟨osids, ctx, cs, cs', bs, bs', rest, rest', m1, m2, ⟨m3, m4, m5, m6⟩, ⟨m7, m8⟩, ⟨k7, k8⟩, m9,
      ⟨rfl, rfl⟩, m12, m13⟩ := hs
    have he : o.props = ⟨idsIn cs, osids, ctx, setOf (entriesIn cs)⟩ :=
      props_unique h5 ⟨_, bs, _, m1, m3, m5, m6, rfl, m12⟩
    have hl : (refsIn cs').length = (idsIn cs').length := by
      rw [refsIn_eq, idsIn_eq, List.length_map, List.length_map]
    rw [he] at h7
    refine ⟨⟨o.contextId, o.jcId, ⟨idsIn cs', osids, ctx, setOf (entriesIn cs')⟩, o.fileData,
        tableOf ⟨idsIn cs', osids, ctx, setOf (entriesIn cs')⟩ cell.snd (refsIn cs') cells⟩,
      ⟨h1, ⟨r, c, _, (plain 4 (by decide)).trans h2, h3⟩,
        ⟨_, cells, a', hd', ⟨_, bs', _, m2, m4, m5, m6, rfl, m13⟩, Nat.le_of_eq hl, h7, rfl⟩, hf⟩, ?_⟩
    refine moved_view (cs := cs) (cs' := cs') (ctx := ctx) (osids := osids)
      (more := ctx.zip ((cells.filter fun c => decide (c.snd = cell.snd)).map (·.fst)))
      (spaces := osids.zip (cells.filter fun c => decide (c.snd ≠ cell.snd)))
      ⟨m7, k7, ⟨_, rfl⟩, by rw [he], by rw [he], by rw [he], ?_⟩
      ⟨m8, k8, ⟨_, rfl⟩, rfl, rfl, rfl, ?_⟩ m9 rfl rfl rfl
    · rw [h8, he]
      simp only [tableOf, zip_in]
    · simp only [tableOf, zip_in]

/-! ### Object spaces -/

/-- What a reader sees of two object spaces. -/
structure SpaceRel (s s' : ObjectSpace) : Prop where
  id : s'.id = s.id
  context : s'.context = s.context
  roots : ∀ role, s'.roots.get? role = s.roots.get? role
  objects : ∀ id o, s.getObject id = some o → ∃ o', s'.getObject id = some o' ∧ View o o'

theorem get?_values {K V : Type} [DecidableEq K] (f : K → V → V) (m : Map K V) (k : K) :
    Map.get? (m.map fun e => (e.1, f e.1 e.2) : Map K V) k = (m.get? k).map (f k) := by
  induction m with
  | nil => rfl
  | cons e m ih =>
    simp only [List.map_cons, Map.get?]
    by_cases h : e.1 = k
    · rw [if_pos h, if_pos h, h]; rfl
    · rw [if_neg h, if_neg h]; exact ih

/-- A map with related values. -/
theorem map_exists {K V : Type} [DecidableEq K] {Q : K → V → V → Prop} (m : Map K V)
    (h : ∀ k v, m.get? k = some v → ∃ v', Q k v v') :
    ∃ m' : Map K V, (∀ k, m.get? k = none → m'.get? k = none) ∧
      ∀ k v, m.get? k = some v → ∃ v', m'.get? k = some v' ∧ Q k v v' := by
  classical
  let f : K → V → V := fun k v => if hx : ∃ v', Q k v v' then hx.choose else v
  refine ⟨m.map fun e => (e.1, f e.1 e.2), fun k hk => ?_, fun k v hk => ?_⟩
  · rw [get?_values, hk]; rfl
  · refine ⟨f k v, ?_, ?_⟩
    · rw [get?_values, hk]; rfl
    · have hx := h k v hk
      show Q k v (if hx : ∃ v', Q k v v' then hx.choose else v)
      rw [dif_pos hx]
      exact hx.choose_spec

theorem groups_each (h : PackageRel pkg pkg') (ms : List RevisionManifest) :
    Each GroupRel (groupsOf pkg ms) (groupsOf pkg' ms) := by
  rw [groupsOf_ids, groupsOf_ids]
  induction groupIdsOf ms with
  | nil => exact .nil
  | cons k ks ih =>
    rw [List.filterMap_cons, List.filterMap_cons]
    cases hk : pkg.objectGroups.get? k with
    | none => rw [option_none (h.groups k) hk]; exact ih
    | some g =>
      obtain ⟨g', hg', hr⟩ := option_some (h.groups k) hk
      rw [hg']
      exact .cons hr ih

theorem group_rel_symm {g g' : ObjectGroup} (h : GroupRel g g') : GroupRel g' g := by
  rcases h with rfl | h
  · exact .inl rfl
  · exact .inr (group_symm h)

theorem first_unique {id : ExGuid} {pre pre' post post' : List ObjectGroup} {g g' : ObjectGroup}
    (h : pre ++ g :: post = pre' ++ g' :: post') (hp : ∀ x ∈ pre, ¬ Declares x id)
    (hp' : ∀ x ∈ pre', ¬ Declares x id) (hg : Declares g id) (hg' : Declares g' id) : g = g' := by
  induction pre generalizing pre' with
  | nil =>
    cases pre' with
    | nil => cases h; rfl
    | cons x pre' =>
      simp only [List.nil_append, List.cons_append, List.cons.injEq] at h
      exact absurd (h.1 ▸ hg) (hp' x (by simp))
  | cons y pre ih =>
    cases pre' with
    | nil =>
      simp only [List.nil_append, List.cons_append, List.cons.injEq] at h
      exact absurd (h.1 ▸ hg') (hp y (by simp))
    | cons x pre' =>
      simp only [List.cons_append, List.cons.injEq] at h
      exact ih h.2 (fun z hz => hp z (by simp [hz])) fun z hz => hp' z (by simp [hz])

theorem split_back (h : PackageRel pkg pkg') {ms : List RevisionManifest} {id : ExGuid}
    {pre post : List ObjectGroup} {g' : ObjectGroup} (hs : groupsOf pkg' ms = pre ++ g' :: post)
    (hp : ∀ x ∈ pre, ¬ Declares x id) (hd : Declares g' id) :
    ∃ pre0 g post0, groupsOf pkg ms = pre0 ++ g :: post0 ∧ (∀ x ∈ pre0, ¬ Declares x id) ∧
      Declares g id ∧ GroupRel g g' := by
  have he := each_flip (groups_each h ms)
  rw [hs] at he
  obtain ⟨pre0, g, post0, h1, h2, h3⟩ := each_split he
  refine ⟨pre0, g, post0, h1, fun x hx => ?_, (declares_iff h3).2 hd, h3⟩
  obtain ⟨x', hx', hr⟩ := each_mem h2 hx
  exact fun hdx => hp x' hx' ((declares_iff hr).1 hdx)

theorem history_is (h : PackageRel pkg pkg') {cell : CellId} {ms : List RevisionManifest}
    {s : ObjectSpace} (hh : HistoryIs pkg cell ms s) :
    ∃ s', HistoryIs pkg' cell ms s' ∧ SpaceRel s s' := by
  obtain ⟨h1, h2, h3, h4, h5⟩ := hh
  obtain ⟨m', hn, hm⟩ := map_exists (Q := fun id o o' => View o o' ∧
    ∀ pre g post, groupsOf pkg' ms = pre ++ g :: post → (∀ x ∈ pre, ¬ Declares x id) → Declares g id →
      g.declarations.length = g.objects.length ∧ ObjectIs pkg' cell g id o') s.objects (by
    intro id o ho
    by_cases hx : ∃ pre g post, groupsOf pkg' ms = pre ++ g :: post ∧
        (∀ x ∈ pre, ¬ Declares x id) ∧ Declares g id
    · obtain ⟨pre, g', post, hs, hp, hd⟩ := hx
      obtain ⟨pre0, g, post0, hs0, hp0, hd0, hr⟩ := split_back h hs hp hd
      obtain ⟨hl, o0, ho0, hobj⟩ := h4 id pre0 g post0 hs0 hp0 hd0
      have e : o0 = o := by
        have ho0 : s.objects.get? id = some o0 := ho0
        rw [ho] at ho0
        exact (Option.some.inj ho0).symm
      subst e
      obtain ⟨o', ho', hv⟩ := object_is h hr hobj
      refine ⟨o', hv, fun pre1 g1 post1 hs1 hp1 hd1 => ?_⟩
      obtain rfl := first_unique (hs.symm.trans hs1) hp hp1 hd hd1
      refine ⟨?_, ho'⟩
      rcases hr with rfl | hr
      · exact hl
      · exact hr.paired'
    · exact ⟨o, view_refl o, fun pre g post hs hp hd => absurd ⟨pre, g, post, hs, hp, hd⟩ hx⟩)
  refine ⟨⟨s.id, s.context, s.roots, m'⟩, ⟨?_, h2, h3, ?_, ?_⟩, rfl, rfl, fun _ => rfl, ?_⟩
  · exact fun m hm gid hg => (h.alike.exist gid).1 (h1 m hm gid hg)
  · intro id pre g post hs hp hd
    obtain ⟨pre0, g0, post0, hs0, hp0, hd0, hr⟩ := split_back h hs hp hd
    obtain ⟨-, o, ho, -⟩ := h4 id pre0 g0 post0 hs0 hp0 hd0
    obtain ⟨o', ho', -, hq⟩ := hm id o ho
    obtain ⟨hl, hobj⟩ := hq pre g post hs hp hd
    exact ⟨hl, o', ho', hobj⟩
  · intro id hx
    refine hn id (h5 id fun g hg hd => ?_)
    obtain ⟨g', hg', hr⟩ := each_mem' (groups_each h ms) hg
    exact hx g' hg' ((declares_iff hr).1 hd)
  · intro id o ho
    obtain ⟨o', ho', hv, -⟩ := hm id o ho
    exact ⟨o', ho', hv⟩

theorem space_is (h : PackageRel pkg pkg') {m : CellMapping} {s : ObjectSpace}
    (hs : SpaceIs pkg si m s) : ∃ s', SpaceIs pkg' si m s' ∧ SpaceRel s s' := by
  obtain ⟨h1, h2, h3⟩ := hs
  rcases h3 with ⟨r, ms, h4, h5, h6⟩ | ⟨h4, h5, h6, h7⟩
  · obtain ⟨s', hs', hr⟩ := history_is h h6
    exact ⟨s', ⟨hr.id.trans h1, hr.context.trans h2,
      .inl ⟨r, ms, (alike_newest h.alike).1 h4, alike_chain h.alike h5, hs'⟩⟩, hr⟩
  · refine ⟨s, ⟨h1, h2, .inr ⟨fun ⟨r, hr⟩ => h4 ⟨r, (alike_newest h.alike).2 hr⟩,
      h.alike.cells ▸ h5, h6, h7⟩⟩, rfl, rfl, fun _ => rfl, fun id o ho => ⟨o, ho, view_refl o⟩⟩

/-! ### The header -/

theorem header_props {ps ps' : PropertySet} (hs : SameValues ps ps') {x : StoreHeader}
    (hx : HeaderProps ps x) : HeaderProps ps' x :=
  ⟨required hs (by decide +kernel) hx.fileIdentity, required hs (by decide +kernel) hx.ancestorIdentity,
    optional hs (by decide +kernel) hx.lastCodeVersion, required hs (by decide +kernel) hx.fileNameCrc⟩

theorem header_in {g g' : ObjectGroup} (hg : GroupRel g g') {x : StoreHeader} (hx : HeaderIn g x) :
    HeaderIn g' x := by
  rcases hg with rfl | ⟨-, -, he⟩
  · exact hx
  · obtain ⟨pre, d, refs, cells, data, post, props, h1, h2, h3, h4, h5⟩ := hx
    rw [h1] at he
    obtain ⟨pre', ⟨d', x'⟩, post', h6, h7, h8, h9⟩ := each_split he
    have hp : ∀ e ∈ pre', (declared e.1).2 ≠ 1 := by
      intro e he
      obtain ⟨e0, he0, hr⟩ := each_mem h7 he
      rw [← hr.1]
      exact h2 e0 he0
    dsimp only at h8 h9
    rcases h9 with rfl | ⟨-, ⟨refs', cells', a, a', ha, rfl, hs⟩ | ⟨refs1, refs', cells', a, a', ha, rfl, hs⟩⟩
    · exact ⟨pre', d', refs, cells, data, post', props, h6, hp, h8 ▸ h3, h4, h5⟩
    · cases ha
      obtain ⟨props', hp1, -, -, -, hp5⟩ := props_same hs h4
      exact ⟨pre', d', refs, cells, a', post', props', h6, hp, h8 ▸ h3, hp1,
        header_props (fun _ hw => get_plain hp5 hw) h5⟩
    · cases ha
      obtain ⟨osids, ctx, cs, cs', bs, bs', rest, rest', m1, m2, ⟨m3, m4, m5, m6⟩, ⟨m7, m8⟩, ⟨k7, k8⟩, m9, -, m12,
        m13⟩ := hs
      have he := props_unique h4 (props' := ⟨idsIn cs, osids, ctx, setOf (entriesIn cs)⟩)
        ⟨_, bs, _, m1, m3, m5, m6, rfl, m12⟩
      subst he
      exact ⟨pre', d', refs', cells, a', post', ⟨idsIn cs', osids, ctx, setOf (entriesIn cs')⟩, h6, hp, h8 ▸ h3,
        ⟨_, bs', _, m2, m4, m5, m6, rfl, m13⟩, header_props (carried_values m7 m8 k7 k8 m9) h5⟩

theorem header_is (h : PackageRel pkg pkg') {id : ExGuid} {x : StoreHeader}
    (hh : HeaderIs pkg si id x) : HeaderIs pkg' si id x := by
  obtain ⟨r, rm, gid, gids, g, h1, h2, h3, h4, h5, h6⟩ := hh
  obtain ⟨g', hg', hr⟩ := option_some (h.groups gid) h4
  refine ⟨r, rm, gid, gids, g', ?_, h.alike.revisions ▸ h2, h3, hg',
    fun x hx => (h.alike.exist x).1 (h5 x hx), header_in hr h6⟩
  unfold HeaderRevision at h1 ⊢
  simpa only [alike_leadsTo (si := si) h.alike] using h1

end

/-! ### The store -/

/-- What a reader sees of two stores. -/
structure StoreRel (s s' : Store) : Prop where
  schema : s'.schema = s.schema
  dataRoot : SpaceRel s.dataRoot s'.dataRoot
  spaces : ∀ c sp, s.objectSpaces.get? c = some sp → ∃ sp', s'.objectSpaces.get? c = some sp' ∧
    SpaceRel sp sp'

theorem store_is {p p' : Packaging} (h : PackageRel p.package p'.package)
    (hi : p.storageIndex = p'.storageIndex) {s : Store} (hst : StoreIs p s) :
    ∃ s', StoreIs p' s' ∧ StoreRel s s' := by
  obtain ⟨si, sm, hc, dc, h1, ⟨j, h2⟩, h3, h4, ⟨m, h5, h6⟩, h7, ⟨m', h8, h9⟩, h10, h11⟩ := hst
  obtain ⟨root, hr, hrr⟩ := space_is h h9
  obtain ⟨spaces, hn, hm⟩ := map_exists (Q := fun c sp sp' => SpaceRel sp sp' ∧
    ∀ m, IsOther si hc dc c m → SpaceIs p'.package si m sp') s.objectSpaces (by
    intro c sp hsp
    by_cases hx : ∃ m, IsOther si hc dc c m
    · obtain ⟨m, hm⟩ := hx
      obtain ⟨sp0, hsp0, hs⟩ := h10 c m hm
      rw [hsp] at hsp0
      cases hsp0
      obtain ⟨sp', hsp', hr⟩ := space_is h hs
      refine ⟨sp', hr, fun m1 hm1 => ?_⟩
      have e := hm.1.symm.trans hm1.1
      cases e
      exact hsp'
    · rw [h11 c hx] at hsp
      cases hsp)
  refine ⟨⟨s.schema, s.header, root, spaces⟩, ⟨si, sm, hc, dc, ?_, ⟨j, h.alike.manifests ▸ h2⟩, h3, h4,
    ⟨m, h5, header_is h h6⟩, h7, ⟨m', h8, hr⟩, fun c m hother => ?_, fun c hx => hn c (h11 c hx)⟩,
    rfl, hrr, fun c sp hsp => ?_⟩
  · unfold IndexIs at h1 ⊢
    rw [← hi, ← h.alike.indexes]
    exact h1
  · obtain ⟨sp, hsp, -⟩ := h10 c m hother
    obtain ⟨sp', hsp', -, hq⟩ := hm c sp hsp
    exact ⟨sp', hsp', hq m hother⟩
  · obtain ⟨sp', hsp', hr, -⟩ := hm c sp hsp
    exact ⟨sp', hsp', hr⟩

theorem files {data data' : Bytes} {si : ExGuid} {es es' : List LaxElement}
    (h : HoldsElements data si es) (h' : HoldsElements data' si es') (hb : Each SameElement es es') :
    (PlainFile data → PlainFile data') ∧
      ∀ s, FileStore data s → ∃ s', FileStore data' s' ∧ StoreRel s s' := by
  have ha := package_rel hb
  obtain ⟨a, b, c, d, schema, bs, rest, hl, hd⟩ := h
  obtain ⟨a', b', c', d', schema', bs', rest', hl', hd'⟩ := h'
  have hc : Contains data ⟨a, b, c, d, si, schema, laxPackageOf es⟩ :=
    ⟨a, b, c, d, si, schema, es, bs, rest, hl, hd, rfl⟩
  have hc' : Contains data' ⟨a', b', c', d', si, schema', laxPackageOf es'⟩ :=
    ⟨a', b', c', d', si, schema', es', bs', rest', hl', hd', rfl⟩
  have u : ∀ p, Contains data p ↔ p = ⟨a, b, c, d, si, schema, laxPackageOf es⟩ := by
    intro p
    rw [holds_iff, holds_iff.1 hc, Except.ok.injEq, eq_comm]
  have u' : ∀ p, Contains data' p ↔ p = ⟨a', b', c', d', si, schema', laxPackageOf es'⟩ := by
    intro p
    rw [holds_iff, holds_iff.1 hc', Except.ok.injEq, eq_comm]
  constructor
  · simp only [PlainFile, u, u', forall_eq]
    exact alike_unambiguous (p := ⟨a, b, c, d, si, schema, laxPackageOf es⟩)
      (p' := ⟨a', b', c', d', si, schema', laxPackageOf es'⟩) ha.alike rfl
  · intro s
    simp only [FileStore, u, u', exists_eq_left]
    exact store_is (p := ⟨a, b, c, d, si, schema, laxPackageOf es⟩)
      (p' := ⟨a', b', c', d', si, schema', laxPackageOf es'⟩) ha rfl

end OneNote.Same
