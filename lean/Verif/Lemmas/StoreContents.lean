/-
Reading a store and what the store contains are the same thing.
-/
import Verif.Lemmas.Store
import Verif.Lemmas.References
import Verif.Lemmas.Readings
import Verif.Props.C23
import Verif.Spec.StoreContents

namespace OneNote

open Spec Spec.Fields Spec.StoreContents

/-! ### Objects -/

theorem run_ok {p : P α} {data : Bytes} {a : α} : p.run data = .ok a ↔ ∃ r, p data = .ok (a, r) := by
  unfold P.run
  cases h : p data with
  | error e => simp
  | ok w => obtain ⟨x, r⟩ := w; simp

theorem jcId_run {data : Bytes} {n : Nat} :
    JcId.parse.run data = .ok n ↔ ∃ rest, data = leBytes 4 n ++ rest ∧ n < 2 ^ 32 := by
  rw [run_ok]
  unfold JcId.parse getU32
  simp only [getLE_eq_ok]
  exact ⟨fun ⟨r, h, e⟩ => ⟨r, e, by simpa using h⟩, fun ⟨r, e, h⟩ => ⟨r, by simpa using h, e⟩⟩

theorem props_run {data : Bytes} {props : ObjectPropSet} :
    ObjectPropSet.parse.run data = .ok props ↔ PropsAre data props := by
  rw [run_ok]
  constructor
  · rintro ⟨r, h⟩
    obtain ⟨h1, h2, h3, es, bs, he, hs, hp⟩ := objectPropSet_only _ _ _ h
    exact ⟨es, bs, r, he, h1, h2, h3, hp, hs⟩
  · rintro ⟨es, bs, r, he, h1, h2, h3, hp, rfl⟩
    refine ⟨r, ?_⟩
    obtain ⟨a, b, c, d⟩ := props
    dsimp only at *
    subst hp
    exact objectPropSet_reads he h1 h2 h3 r

theorem object_iff {pkg : Package} {cell : CellId} {g : ObjectGroup} {id : ExGuid} {o : Object} :
    Object.parse id cell.fst cell.snd (Revision.groupMap g) pkg = .ok o ↔ ObjectIs pkg cell g id o := by
  unfold Object.parse Object.findObject Object.partitionMetadata Object.partitionObjectData
    Object.findBlobId Object.findObject Object.partitionFileData
  rw [groupMap_get, groupMap_get, groupMap_get]
  constructor
  · intro h
    simp only [Res.bind_ok_iff, orErr_ok] at h
    obtain ⟨m, hm, d, hd, md, hmd, jc, hjc, x, hx, props, hp, b, hb, f, hf, h⟩ := h
    cases m with
    | excluded => cases hmd
    | blobReference => cases hmd
    | object r c md' =>
    cases hmd
    cases d with
    | excluded => cases hx
    | blobReference => cases hx
    | object refs cells data =>
    cases hx
    split at h
    · cases h
    · split at h
      · cases h
      · cases h
        obtain ⟨rest, rfl, hj⟩ := jcId_run.1 hjc
        refine ⟨rfl, ⟨r, c, rest, hm, hj⟩, ⟨refs, cells, data, hd, props_run.1 hp, ?_, ?_, rfl⟩, ?_⟩
        · dsimp only at *; omega
        · dsimp only at *; omega
        · cases h2 : storedData g id 2 with
          | none =>
            rw [h2] at hb
            cases hb
            cases hf
            exact .inl ⟨rfl, rfl⟩
          | some v =>
            rw [h2] at hb
            cases v with
            | object => cases hb
            | excluded => cases hb
            | blobReference r c bl =>
              cases hb
              unfold Package.findBlob at hf
              cases hbl : Map.get? pkg.blobs bl with
              | none => dsimp only at hf; rw [hbl] at hf; cases hf
              | some blob =>
                dsimp only at hf
                rw [hbl] at hf
                cases hf
                exact .inr ⟨r, c, bl, blob, rfl, hbl, rfl⟩
  · rintro ⟨hctx, ⟨r, c, rest, hk, hj⟩, ⟨refs, cells, data, hd, hp, hl, hl', hmap⟩, hf⟩
    simp only [Res.bind_ok_iff, orErr_ok]
    refine ⟨_, hk, _, hd, _, rfl, o.jcId, jcId_run.2 ⟨rest, rfl, hj⟩, _, rfl, o.props, props_run.2 hp, ?_⟩
    obtain ⟨ctx, jc, props, fd, mp⟩ := o
    dsimp only at *
    subst hctx hmap
    rcases hf with ⟨h2, rfl⟩ | ⟨r', c', b, blob, h2, hb, rfl⟩
    · rw [h2]
      refine ⟨none, rfl, none, rfl, ?_⟩
      rw [if_neg (by omega), if_neg (by omega)]
      rfl
    · rw [h2]
      refine ⟨some b, rfl, some blob, ?_, ?_⟩
      · dsimp only
        unfold Package.findBlob
        rw [hb]
        rfl
      · rw [if_neg (by omega), if_neg (by omega)]
        rfl

/-! ### Histories -/

section
variable {cell : CellId} {pkg : Package} {si : StorageIndex}

theorem addObjects_lengths {g : ObjectGroup} {ids : List ExGuid} {objects objects' : Objects}
    (h : ids.foldlM (Revision.addObject cell.fst cell.snd pkg g) objects = .ok objects') {id : ExGuid}
    (hm : id ∈ ids) (hn : objects.get? id = none) : g.declarations.length = g.objects.length := by
  induction ids generalizing objects with
  | nil => cases hm
  | cons a ids ih =>
    obtain ⟨o1, h1, h2⟩ := foldlM_cons_ok.mp h
    unfold Revision.addObject at h1
    split at h1
    · rename_i hc
      cases h1
      obtain ⟨v, hv⟩ := (contains_iff _ _).mp hc
      rcases List.mem_cons.mp hm with rfl | hm
      · rw [hn] at hv; cases hv
      · exact ih h2 hm hn
    · split at h1
      · cases h1
      · rename_i hl
        exact Decidable.not_not.mp hl

/-- Every identifier that is not there yet can be read. -/
theorem addObjects_succeeds {g : ObjectGroup} {ids : List ExGuid} {objects : Objects}
    (h : ∀ id ∈ ids, objects.get? id = none → g.declarations.length = g.objects.length ∧
      ∃ o, Object.parse id cell.fst cell.snd (Revision.groupMap g) pkg = .ok o) :
    ∃ objects', ids.foldlM (Revision.addObject cell.fst cell.snd pkg g) objects = .ok objects' := by
  induction ids generalizing objects with
  | nil => exact ⟨objects, rfl⟩
  | cons a ids ih =>
    cases ha : objects.get? a with
    | some o =>
      obtain ⟨o', ho'⟩ := ih (objects := objects) fun id hid => h id (by simp [hid])
      refine ⟨o', foldlM_cons_ok.mpr ⟨objects, ?_, ho'⟩⟩
      unfold Revision.addObject
      rw [if_pos ((contains_iff _ _).mpr ⟨o, ha⟩)]
    | none =>
      obtain ⟨hl, o, ho⟩ := h a (by simp) ha
      obtain ⟨o', ho'⟩ := ih (objects := objects.insert a o) fun id hid hn => h id (by simp [hid]) (by
        by_cases hx : id = a
        · subst hx; exact ha
        · rw [Map.get?_insert_ne _ _ _ _ hx] at hn; exact hn)
      refine ⟨o', foldlM_cons_ok.mpr ⟨objects.insert a o, ?_, ho'⟩⟩
      unfold Revision.addObject
      rw [if_neg, if_neg (by simpa using hl), ho]
      intro hc
      obtain ⟨v, hv⟩ := (contains_iff _ _).mp hc
      rw [ha] at hv
      cases hv

/-- What the objects read from the groups `gs` are. -/
def HoldAll (cell : CellId) (pkg : Package) (objects : Objects) (gs : List ObjectGroup) : Prop :=
  Holds cell.fst cell.snd pkg objects gs ∧
  ∀ id pre g post, gs = pre ++ g :: post → (∀ g' ∈ pre, ¬ Declares g' id) → Declares g id →
    g.declarations.length = g.objects.length

theorem HoldAll.add {g : ObjectGroup} {gs : List ObjectGroup} {objects objects' : Objects}
    (hh : HoldAll cell pkg objects gs)
    (h : addGroup cell.fst cell.snd pkg objects g = .ok objects') :
    HoldAll cell pkg objects' (gs ++ [g]) := by
  refine ⟨hh.1.add h, ?_⟩
  intro id pre g' post he hpre hg'
  rcases List.eq_nil_or_concat post with rfl | ⟨post', x, rfl⟩
  · obtain ⟨rfl, hx⟩ := List.append_inj' he rfl
    cases hx
    exact addObjects_lengths h (by simpa [Declares, declared_eq] using hg') ((hh.1 id).2 hpre)
  · rw [List.concat_eq_append] at he
    have he' : gs ++ [g] = (pre ++ g' :: post') ++ [x] := by rw [he]; simp
    obtain ⟨rfl, -⟩ := List.append_inj' he' rfl
    exact hh.2 id pre g' post' rfl hpre hg'

theorem HoldAll.nil : HoldAll cell pkg [] [] :=
  ⟨fun _ => ⟨fun pre _ _ he => by simp at he, fun _ => rfl⟩, fun _ pre _ _ he => by simp at he⟩

theorem parseGroups_all {gids : List ExGuid} {objects objects' : Objects} {gs : List ObjectGroup}
    (hh : HoldAll cell pkg objects gs)
    (h : gids.foldlM (Revision.parseGroup cell.fst cell.snd pkg) objects = .ok objects') :
    HoldAll cell pkg objects' (gs ++ gids.filterMap pkg.objectGroups.get?) ∧
      (∀ gid ∈ gids, ∃ g, pkg.objectGroups.get? gid = some g) := by
  induction gids generalizing objects gs with
  | nil => cases h; simpa using hh
  | cons gid gids ih =>
    obtain ⟨o1, h1, h2⟩ := foldlM_cons_ok.mp h
    obtain ⟨g, hg, ha⟩ := parseGroup_ok.mp h1
    obtain ⟨i1, i2⟩ := ih (hh.add ha) h2
    rw [List.append_assoc] at i1
    rw [List.filterMap_cons, hg]
    refine ⟨i1, ?_⟩
    intro x hx
    rcases List.mem_cons.mp hx with rfl | hx
    · exact ⟨g, hg⟩
    · exact i2 x hx

/-- Every object of the groups can be read where it is first declared. -/
def Readable (cell : CellId) (pkg : Package) (gs : List ObjectGroup) : Prop :=
  ∀ id pre g post, gs = pre ++ g :: post → (∀ g' ∈ pre, ¬ Declares g' id) → Declares g id →
    g.declarations.length = g.objects.length ∧
      ∃ o, Object.parse id cell.fst cell.snd (Revision.groupMap g) pkg = .ok o

theorem HoldAll.absent {objects : Objects} {gs : List ObjectGroup}
    (hh : HoldAll cell pkg objects gs) {id : ExGuid} (hn : objects.get? id = none) :
    ∀ g ∈ gs, ¬ Declares g id := by
  rcases first_declaring gs id with h | ⟨pre, g, post, he, h1, h2⟩
  · exact h
  · obtain ⟨o, ho, -⟩ := (hh.1 id).1 pre g post he h1 h2
    rw [hn] at ho
    cases ho

theorem parseGroups_succeeds {gids : List ExGuid} {objects : Objects} {gs rest : List ObjectGroup}
    (hh : HoldAll cell pkg objects gs)
    (hg : ∀ gid ∈ gids, ∃ g, pkg.objectGroups.get? gid = some g)
    (hr : Readable cell pkg (gs ++ gids.filterMap pkg.objectGroups.get? ++ rest)) :
    ∃ objects', gids.foldlM (Revision.parseGroup cell.fst cell.snd pkg) objects = .ok objects' := by
  induction gids generalizing objects gs with
  | nil => exact ⟨objects, rfl⟩
  | cons gid gids ih =>
    obtain ⟨g, hgg⟩ := hg gid (by simp)
    have hre : gs ++ (gid :: gids).filterMap pkg.objectGroups.get? ++ rest =
        gs ++ g :: (gids.filterMap pkg.objectGroups.get? ++ rest) := by
      rw [List.filterMap_cons, hgg]; simp
    rw [hre] at hr
    obtain ⟨o1, h1⟩ := addObjects_succeeds (cell := cell) (pkg := pkg) (g := g)
      (ids := g.declarations.map (·.objectId)) (objects := objects) fun id hid hn =>
        hr id gs g _ rfl (hh.absent hn) (by simpa [Declares, declared_eq] using hid)
    have hh' := hh.add (g := g) h1
    obtain ⟨o2, h2⟩ := ih hh' (fun x hx => hg x (by simp [hx])) (by
      have : gs ++ [g] ++ gids.filterMap pkg.objectGroups.get? ++ rest =
          gs ++ g :: (gids.filterMap pkg.objectGroups.get? ++ rest) := by simp
      rw [this]; exact hr)
    exact ⟨o2, foldlM_cons_ok.mpr ⟨o1, parseGroup_ok.mpr ⟨g, hgg, h1⟩, h2⟩⟩

theorem roleNumber_eq (role : RevisionRole) : roleNumber role = match role with
    | .defaultContent => 1 | .metadata => 2 | .encryptionKey => 3 | .versionMetadata => 4 := by
  cases role <;> rfl

theorem parseRoots_succeeds {m : RevisionManifest} :
    (∃ d, Revision.parseRoots m = .ok d) ↔
      ∀ r ∈ m.rootDeclare, ∃ role, r.rootId = ⟨rootGuid, roleNumber role⟩ := by
  unfold Revision.parseRoots
  generalize m.rootDeclare = rs
  induction rs with
  | nil => exact ⟨fun _ => by simp, fun _ => ⟨[], rfl⟩⟩
  | cons r rs ih =>
    constructor
    · rintro ⟨d, h⟩
      obtain ⟨x, bs, hx, hbs, rfl⟩ := mapM_cons_ok.mp h
      intro y hy
      rcases List.mem_cons.mp hy with rfl | hy
      · cases hr : RevisionRole.parse y.rootId with
        | error e => rw [hr] at hx; cases hx
        | ok role => exact ⟨role, by rw [roleNumber_eq]; exact role_parse_ok.mp hr⟩
      · exact ih.mp ⟨bs, hbs⟩ y hy
    · intro h
      obtain ⟨bs, hbs⟩ := ih.mpr fun y hy => h y (by simp [hy])
      obtain ⟨role, hr⟩ := h r (by simp)
      rw [roleNumber_eq] at hr
      exact ⟨_, mapM_cons_ok.mpr ⟨(role, r.objectId), bs, by rw [role_parse_ok.mpr hr]; rfl, hbs, rfl⟩⟩

theorem follow_all {n : Nat} {r : ExGuid} {objects objects' : Objects} {roots roots' : Roots}
    {gs : List ObjectGroup} (hh : HoldAll cell pkg objects gs)
    (h : ObjectSpace.followRevisions cell.fst cell.snd si pkg n (some r) objects roots =
      .ok (objects', roots')) :
    ∃ ms, RevisionChain pkg si r ms ∧
      HoldAll cell pkg objects' (gs ++ groupsOf pkg ms) ∧
      (∀ m ∈ ms, ∀ gid ∈ m.groupReferences, ∃ g, pkg.objectGroups.get? gid = some g) ∧
      ∃ ds, ms.mapM Revision.parseRoots = .ok ds ∧ roots' = roots.extend ds.flatten := by
  induction n generalizing r objects roots gs with
  | zero => cases h
  | succ n ih =>
    unfold ObjectSpace.followRevisions at h
    split at h
    · cases h
    · rename_i b o1 r1 hp
      obtain ⟨m, d, hm, hb, hd, hg, rfl⟩ := revision_parse_ok.mp hp
      obtain ⟨hh', hex⟩ := parseGroups_all hh hg
      rcases baseOf_ok.mp hb with ⟨h0, rfl⟩ | ⟨h0, b', rfl, hr⟩
      · have h' : Except.ok (o1, roots.extend d) = (.ok (objects', roots') : Res _) := by
          rw [← h]; cases n <;> rfl
        cases h'
        refine ⟨[m], .oldest r m hm h0, by simpa [groupsOf] using hh', by simpa using hex, [d], ?_,
          by simp⟩
        rw [List.mapM_cons, hd]; rfl
      · obtain ⟨ms, hc, hh2, hex2, ds, hds, hr2⟩ := ih hh' h
        refine ⟨m :: ms, .based r b' m ms hm h0 hr hc, ?_, ?_, d :: ds, ?_, ?_⟩
        · rw [List.append_assoc] at hh2
          simpa [groupsOf] using hh2
        · intro x hx
          rcases List.mem_cons.mp hx with rfl | hx
          · exact hex
          · exact hex2 x hx
        · rw [List.mapM_cons, hd, hds]; rfl
        · rw [hr2, List.flatten_cons, Map.extend_append]

theorem follow_succeeds {r : ExGuid} {ms : List RevisionManifest} (hc : RevisionChain pkg si r ms)
    {n : Nat} (hn : ms.length ≤ n) {objects : Objects} {roots : Roots} {gs : List ObjectGroup}
    (hh : HoldAll cell pkg objects gs)
    (hg : ∀ m ∈ ms, ∀ gid ∈ m.groupReferences, ∃ g, pkg.objectGroups.get? gid = some g)
    (hroots : ∀ m ∈ ms, ∀ d ∈ m.rootDeclare, ∃ role, d.rootId = ⟨rootGuid, roleNumber role⟩)
    (hr : Readable cell pkg (gs ++ groupsOf pkg ms)) :
    ∃ w, ObjectSpace.followRevisions cell.fst cell.snd si pkg n (some r) objects roots = .ok w := by
  induction hc generalizing n objects roots gs with
  | oldest r m hm hb =>
    obtain ⟨n, rfl⟩ : ∃ k, n = k + 1 := ⟨n - 1, by simp at hn; omega⟩
    obtain ⟨d, hd⟩ := parseRoots_succeeds.mpr (hroots m (by simp))
    obtain ⟨o1, ho⟩ := parseGroups_succeeds (rest := []) hh (hg m (by simp))
      (by simpa [groupsOf] using hr)
    have hp := (revision_parse_ok (si := si) (roots := roots)).mpr
      ⟨m, d, hm, baseOf_ok.mpr (.inl ⟨hb, rfl⟩), hd, ho, rfl⟩
    unfold ObjectSpace.followRevisions
    rw [hp]
    cases n <;> exact ⟨_, rfl⟩
  | based r b m ms hm hb hres hc ih =>
    obtain ⟨n, rfl⟩ : ∃ k, n = k + 1 := ⟨n - 1, by simp at hn; omega⟩
    have hsplit : gs ++ groupsOf pkg (m :: ms) =
        gs ++ m.groupReferences.filterMap pkg.objectGroups.get? ++ groupsOf pkg ms := by
      simp [groupsOf]
    rw [hsplit] at hr
    obtain ⟨d, hd⟩ := parseRoots_succeeds.mpr (hroots m (by simp))
    obtain ⟨o1, ho⟩ := parseGroups_succeeds hh (hg m (by simp)) hr
    have hp := (revision_parse_ok (si := si) (roots := roots)).mpr
      ⟨m, d, hm, baseOf_ok.mpr (.inr ⟨hb, b, rfl, hres⟩), hd, ho, rfl⟩
    unfold ObjectSpace.followRevisions
    rw [hp]
    exact ih (by simp at hn; omega) (parseGroups_all hh ho).1 (fun x hx => hg x (by simp [hx]))
      (fun x hx => hroots x (by simp [hx])) hr

/-- Two objects of the same group. -/
theorem object_unique {g : ObjectGroup} {id : ExGuid} {o o' : Object} (h : ObjectIs pkg cell g id o)
    (h' : ObjectIs pkg cell g id o') : o = o' := by
  have e := object_iff.2 h
  rw [object_iff.2 h'] at e
  exact (Except.ok.inj e).symm

theorem history_of_follow {ms : List RevisionManifest} {objects : Objects} {id ctx : ExGuid}
    {ds : List (List (RevisionRole × ExGuid))} (hh : HoldAll cell pkg objects (groupsOf pkg ms))
    (hg : ∀ m ∈ ms, ∀ gid ∈ m.groupReferences, ∃ g, pkg.objectGroups.get? gid = some g)
    (hds : ms.mapM Revision.parseRoots = .ok ds) :
    HistoryIs pkg cell ms ⟨id, ctx, Map.extend [] ds.flatten, objects⟩ := by
  refine ⟨hg, ?_, ?_, ?_, fun id => (hh.1 id).2⟩
  · clear hh hg
    induction ms generalizing ds with
    | nil => intro m hm; cases hm
    | cons m ms ih =>
      obtain ⟨d, d', hr, hm, rfl⟩ := mapM_cons_ok.mp hds
      intro x hx
      rcases List.mem_cons.mp hx with rfl | hx
      · exact parseRoots_succeeds.mp ⟨d, hr⟩
      · exact ih hm x hx
  · intro role
    rw [Map.get?_extend, parseRoots_lastWith hds]
    simp only [Map.get?, Option.or_none]
    cases role <;> rfl
  · intro id pre g post he hpre hg'
    obtain ⟨o, ho, hp⟩ := (hh.1 id).1 pre g post he hpre hg'
    exact ⟨hh.2 id pre g post he hpre hg', o, ho, object_iff.1 hp⟩

theorem history_same {ms : List RevisionManifest} {s s' : ObjectSpace}
    (h : HistoryIs pkg cell ms s) (h' : HistoryIs pkg cell ms s') :
    (∀ role, s.roots.get? role = s'.roots.get? role) ∧ ∀ id, s.getObject id = s'.getObject id := by
  refine ⟨fun role => by rw [h.roots, h'.roots], fun id => ?_⟩
  rcases first_declaring (groupsOf pkg ms) id with hn | ⟨pre, g, post, he, hpre, hg⟩
  · rw [h.absent id hn, h'.absent id hn]
  · obtain ⟨-, o, ho, hi⟩ := h.present id pre g post he hpre hg
    obtain ⟨-, o', ho', hi'⟩ := h'.present id pre g post he hpre hg
    rw [ho, ho', object_unique hi hi']

/-! ### Object spaces -/

theorem leadsTo_iff {id r : ExGuid} :
    pkg.resolveCellRevisionManifestId si id = some r ↔ LeadsTo pkg si id r := by
  unfold Package.resolveCellRevisionManifestId Package.findCellRevisionId LeadsTo
  cases hc : Map.get? pkg.cellManifests id with
  | none => simp [resolve_iff]
  | some c =>
    rw [Option.bind_some]
    cases hr : pkg.resolveRevisionManifestId si c with
    | none =>
      rw [Option.none_or, resolve_iff]
      have hn : ∀ r, ¬ Resolves pkg si c r := by
        intro r h
        rw [(resolve_iff _ _ _ _).mpr h] at hr
        cases hr
      constructor
      · intro h
        refine .inr ⟨?_, h⟩
        rintro ⟨c', r', hc', h'⟩
        cases hc'
        exact hn _ h'
      · rintro (⟨c', hc', h'⟩ | ⟨-, h⟩)
        · cases hc'
          exact absurd h' (hn _)
        · exact h
    | some x =>
      have hx := (resolve_iff _ _ _ _).mp hr
      rw [Option.some_or]
      constructor
      · rintro ⟨⟩
        exact .inl ⟨c, rfl, hx⟩
      · rintro (⟨c', hc', h'⟩ | ⟨h, -⟩)
        · cases hc'
          rw [← hr]
          exact (resolve_iff _ _ _ _).mpr h'
        · exact absurd ⟨c, x, rfl, hx⟩ h

theorem serial_some {ord : Order} {serial : SerialNumber} {r : ExGuid}
    (h : si.findRevisionMappingBySerial ord serial = some r) : UnderSerial si serial r := by
  unfold StorageIndex.findRevisionMappingBySerial at h
  rw [Option.map_eq_some_iff] at h
  obtain ⟨m, hm, rfl⟩ := h
  obtain ⟨a, ha⟩ := mem_values.mp (List.mem_of_find?_eq_some hm)
  exact ⟨a, m, ha, by simpa using List.find?_some hm, rfl⟩

theorem serial_none {ord : Order} {serial : SerialNumber}
    (h : si.findRevisionMappingBySerial ord serial = none) (r : ExGuid) :
    ¬ UnderSerial si serial r := by
  rintro ⟨a, m, ha, hs, -⟩
  unfold StorageIndex.findRevisionMappingBySerial at h
  rw [Option.map_eq_none_iff, List.find?_eq_none] at h
  exact h m (mem_values.mpr ⟨a, ha⟩) (by simpa using hs)

theorem newest_of_first {ord : Order} {m : CellMapping} {r : ExGuid}
    (h : ObjectSpace.firstRevision ord si pkg m = some r) : Newest pkg si m r := by
  unfold ObjectSpace.firstRevision at h
  cases hl : pkg.resolveCellRevisionManifestId si m.id with
  | some x =>
    rw [hl] at h
    cases h
    exact .inl (leadsTo_iff.1 hl)
  | none =>
    rw [hl, Option.none_or] at h
    refine .inr ⟨?_, serial_some h⟩
    rintro ⟨r', h'⟩
    rw [leadsTo_iff.2 h'] at hl
    cases hl

theorem newest_of_none {ord : Order} {m : CellMapping}
    (h : ObjectSpace.firstRevision ord si pkg m = none) : ¬ ∃ r, Newest pkg si m r := by
  unfold ObjectSpace.firstRevision at h
  rw [Option.or_eq_none_iff] at h
  rintro ⟨r, hr | ⟨-, hr⟩⟩
  · rw [leadsTo_iff.2 hr] at h
    cases h.1
  · exact serial_none h.2 r hr

/-- For a settled cell there is only one newest revision. -/
theorem first_of_newest {ord : Order} {m : CellMapping} {r : ExGuid} (hs : Settled pkg si m)
    (h : Newest pkg si m r) : ObjectSpace.firstRevision ord si pkg m = some r := by
  cases hf : ObjectSpace.firstRevision ord si pkg m with
  | none => exact absurd ⟨r, h⟩ (newest_of_none hf)
  | some x =>
    have hx := newest_of_first hf
    rcases h with h | ⟨hn, a, rm, ha, hra, rfl⟩
    · rcases hx with hx | ⟨hx, -⟩
      · have e := leadsTo_iff.2 h
        rw [leadsTo_iff.2 hx] at e
        exact e
      · exact absurd ⟨r, h⟩ hx
    · rcases hx with hx | ⟨-, a', rm', ha', hra', rfl⟩
      · exact absurd ⟨x, hx⟩ hn
      · rcases hs with hs | ⟨-, hs⟩
        · obtain ⟨y, hy⟩ := (leads_iff _ _ _).mp hs
          exact absurd ⟨y, leadsTo_iff.1 hy⟩ hn
        · rw [hs _ _ _ _ ha' ha hra' hra]

theorem space_sound {ord : Order} {m : CellMapping} {c : CellId} {s : ObjectSpace}
    (h : ObjectSpace.parse ord m si pkg = .ok (c, s)) : c = m.cellId ∧ SpaceIs pkg si m s := by
  refine ⟨space_id h, ?_⟩
  unfold ObjectSpace.parse ObjectSpace.parseFuel at h
  dsimp only at h
  cases hf : ObjectSpace.firstRevision ord si pkg m with
  | none =>
    rw [hf] at h
    dsimp only at h
    split at h
    · rename_i hn
      cases h
      refine ⟨rfl, rfl, .inr ⟨newest_of_none hf, ?_, fun _ => rfl, fun _ => rfl⟩⟩
      unfold Package.findCellRevisionId at hn
      cases hc : Map.get? pkg.cellManifests m.id with
      | none => rw [hc] at hn; cases hn
      | some x =>
        rw [hc] at hn
        rw [(ExGuid.isNil_iff x).mp (by simpa using hn)]
    · cases h
  | some r =>
    rw [hf] at h
    dsimp only at h
    split at h
    · cases h
    · rename_i objects roots hfr
      cases h
      obtain ⟨ms, hc, hh, hg, ds, hds, rfl⟩ := follow_all HoldAll.nil hfr
      rw [List.nil_append] at hh
      exact ⟨rfl, rfl, .inl ⟨r, ms, newest_of_first hf, hc, history_of_follow hh hg hds⟩⟩

theorem space_complete {ord : Order} {m : CellMapping} {s : ObjectSpace} (hs : Settled pkg si m)
    (h : SpaceIs pkg si m s) :
    ∃ s', ObjectSpace.parse ord m si pkg = .ok (m.cellId, s') ∧ SameSpace s s' := by
  obtain ⟨hid, hctx, ⟨r, ms, hr, hc, hh⟩ | ⟨hn, hnil, ho, hroots⟩⟩ := h
  · have hf := first_of_newest (ord := ord) hs hr
    have hread : Readable m.cellId pkg ([] ++ groupsOf pkg ms) := by
      intro id pre g post he hpre hg
      obtain ⟨hl, o, -, ho⟩ := hh.present id pre g post he hpre hg
      exact ⟨hl, o, object_iff.2 ho⟩
    obtain ⟨w, hw⟩ := follow_succeeds hc (n := ms.length + (pkg.revisionManifests.length + 1)) (by omega)
      (roots := []) HoldAll.nil hh.groups hh.roles hread
    have hbig : ObjectSpace.parseFuel (ms.length + (pkg.revisionManifests.length + 1)) ord m si pkg =
        .ok (m.cellId, ⟨m.cellId.snd, m.cellId.fst, w.2, w.1⟩) := by
      unfold ObjectSpace.parseFuel
      dsimp only
      rw [hf]
      dsimp only
      rw [hw]
    have hp : ObjectSpace.parse ord m si pkg =
        .ok (m.cellId, ⟨m.cellId.snd, m.cellId.fst, w.2, w.1⟩) := by
      rcases C23_bound_is_exact ord m si pkg with ⟨-, h⟩ | ⟨-, h⟩
      · rw [← h (ms.length + (pkg.revisionManifests.length + 1)) (by omega), hbig]
      · rw [h] at hbig
        cases hbig
    refine ⟨_, hp, ?_⟩
    obtain ⟨-, hid', hctx', ⟨r', ms', hr', hc', hh'⟩ | ⟨hn', -⟩⟩ := space_sound hp
    · have hrr := first_of_newest (ord := ord) hs hr'
      rw [hf] at hrr
      cases hrr
      cases RevisionChain.unique hc hc'
      obtain ⟨h1, h2⟩ := history_same hh hh'
      exact ⟨by rw [hid, hid'], by rw [hctx, hctx'], h1, h2⟩
    · exact absurd ⟨r, hr⟩ hn'
  · have hf : ObjectSpace.firstRevision ord si pkg m = none := by
      cases hf : ObjectSpace.firstRevision ord si pkg m with
      | none => rfl
      | some r => exact absurd ⟨r, newest_of_first hf⟩ hn
    refine ⟨⟨m.cellId.snd, m.cellId.fst, [], []⟩, ?_, hid, hctx, hroots, ho⟩
    unfold ObjectSpace.parse ObjectSpace.parseFuel
    dsimp only
    rw [hf]
    dsimp only
    unfold Package.findCellRevisionId
    rw [hnil, if_pos (by decide)]

/-! ### The header -/

theorem header_optional {ps : PropertySet} {t : PropertyType} {r : Option Nat} :
    StoreHeader.optional StoreHeader.parseU32 (ps.get t.code) = .ok r ↔
      Optional ps t.code Value.u32 r := by
  unfold StoreHeader.optional Optional Value.u32
  cases ps.get t.code with
  | none => simp [eq_comm]
  | some v =>
    cases v <;> simp [StoreHeader.parseU32, eq_comm]

theorem header_guid {ps : PropertySet} {t : PropertyType} {g : Guid} :
    StoreHeader.optional StoreHeader.parseGuid (ps.get t.code) = .ok (some g) ↔
      Required ps t.code Value.guid g := by
  unfold StoreHeader.optional Required Value.guid
  cases ps.get t.code with
  | none => simp
  | some v =>
    cases v with
    | vec data =>
      simp only [StoreHeader.parseGuid, Option.some.injEq, exists_eq_left', PropertyValue.vec.injEq]
      rw [← guid_run]
      cases Guid.parse.run data <;> simp
    | _ => simp [StoreHeader.parseGuid]

theorem headerProps_iff {ps : PropertySet} {h : StoreHeader} :
    (do
      let fi ← StoreHeader.optional StoreHeader.parseGuid (ps.get PropertyType.fileIdentityGuid.code)
      let fileIdentity ← orErr .malformedOneStore fi
      let ai ← StoreHeader.optional StoreHeader.parseGuid
        (ps.get PropertyType.fileAncestorIdentityGuid.code)
      let ancestorIdentity ← orErr .malformedOneStore ai
      let last ← StoreHeader.optional StoreHeader.parseU32
        (ps.get PropertyType.fileLastCodeVersionThatWroteToIt.code)
      let crc ← StoreHeader.optional StoreHeader.parseU32 (ps.get PropertyType.fileNameCrc.code)
      let fileNameCrc ← orErr .malformedOneStore crc
      return (⟨fileIdentity, ancestorIdentity, last, fileNameCrc⟩ : StoreHeader) : Res StoreHeader) =
      .ok h ↔ HeaderProps ps h := by
  simp only [Res.bind_ok_iff, orErr_ok]
  constructor
  · rintro ⟨_, h1, a, rfl, _, h2, b, rfl, c, h3, _, h4, d, rfl, h5⟩
    cases h5
    refine ⟨header_guid.1 h1, header_guid.1 h2, header_optional.1 h3, ?_⟩
    rcases header_optional.1 h4 with ⟨-, h⟩ | ⟨v, a, hv, hr, ha⟩
    · cases h
    · cases ha
      exact ⟨v, hv, hr⟩
  · rintro ⟨h1, h2, h3, v, hv, hr⟩
    exact ⟨_, header_guid.2 h1, _, rfl, _, header_guid.2 h2, _, rfl, _, header_optional.2 h3, _,
      header_optional.2 (.inr ⟨v, _, hv, hr, rfl⟩), _, rfl, rfl⟩

theorem header_iff {g : ObjectGroup} {h : StoreHeader} :
    StoreHeader.parse g = .ok h ↔ HeaderIn g h := by
  unfold StoreHeader.parse
  rw [Res.bind_ok_iff]
  simp only [orErr_ok]
  constructor
  · rintro ⟨⟨d, x⟩, hx, hh⟩
    obtain ⟨hd, pre, post, he, hpre⟩ := List.find?_eq_some_iff_append.mp hx
    rw [Res.bind_ok_iff] at hh
    obtain ⟨data, hdata, hh⟩ := hh
    rw [Res.bind_ok_iff] at hh
    obtain ⟨props, hp, hh⟩ := hh
    cases x with
    | excluded => cases hdata
    | blobReference => cases hdata
    | object refs cells data' =>
      cases hdata
      exact ⟨pre, d, refs, cells, _, post, props, he, fun e hm => by simpa [declared_eq] using hpre e hm,
        by simpa [declared_eq] using hd, props_run.1 hp, headerProps_iff.1 hh⟩
  · rintro ⟨pre, d, refs, cells, data, post, props, he, hpre, hd, hp, hh⟩
    refine ⟨(d, .object refs cells data), ?_, ?_⟩
    · exact List.find?_eq_some_iff_append.mpr ⟨by simpa [declared_eq] using hd, pre, post, he,
        fun e hm => by simpa [declared_eq] using hpre e hm⟩
    · rw [Res.bind_ok_iff]
      refine ⟨data, rfl, ?_⟩
      rw [Res.bind_ok_iff]
      exact ⟨props, props_run.2 hp, headerProps_iff.2 hh⟩

/-- The groups of a revision. -/
theorem groups_mapM {ids : List ExGuid} {gs : List ObjectGroup} :
    (ids.mapM fun r => match pkg.findObjectGroup r with
      | none => (.error .malformedFssHttpB : Res ObjectGroup)
      | some g => .ok g) = .ok gs ↔ ids.map pkg.objectGroups.get? = gs.map some := by
  induction ids generalizing gs with
  | nil => cases gs <;> simp [pure, Except.pure]
  | cons i ids ih =>
    rw [mapM_cons_ok]
    unfold Package.findObjectGroup
    constructor
    · rintro ⟨g, gs', hg, hm, rfl⟩
      rw [List.map_cons, List.map_cons, ih.1 hm]
      cases hi : Map.get? pkg.objectGroups i with
      | none => rw [hi] at hg; cases hg
      | some x => rw [hi] at hg; cases hg; rfl
    · intro h
      cases gs with
      | nil => simp at h
      | cons g gs' =>
        rw [List.map_cons, List.map_cons, List.cons.injEq] at h
        exact ⟨g, gs', by rw [h.1], ih.2 h.2, rfl⟩

theorem header_revision {ord : Order} {id r : ExGuid}
    (h : (pkg.resolveCellRevisionManifestId si id).or
      (((si.cellMappings.values ord 3).find? (fun m => decide (m.id = id))).bind
        (fun m => si.findRevisionMappingBySerial ord m.serial)) = some r) :
    HeaderRevision pkg si id r := by
  cases hl : pkg.resolveCellRevisionManifestId si id with
  | some x =>
    rw [hl] at h
    cases h
    exact .inl (leadsTo_iff.1 hl)
  | none =>
    rw [hl, Option.none_or, Option.bind_eq_some_iff] at h
    obtain ⟨m, hm, hr⟩ := h
    refine .inr ⟨?_, ?_⟩
    · rintro ⟨r', h'⟩
      rw [leadsTo_iff.2 h'] at hl
      cases hl
    · obtain ⟨c, hc⟩ := mem_values.mp (List.mem_of_find?_eq_some hm)
      exact ⟨c, m, hc, by simpa using List.find?_some hm, serial_some hr⟩

theorem revision_header {ord : Order} {c : CellId} {m : CellMapping} {r : ExGuid}
    (hm : (c, m) ∈ si.cellMappings) (hs : Settled pkg si m) (h : HeaderRevision pkg si m.id r) :
    (pkg.resolveCellRevisionManifestId si m.id).or
      (((si.cellMappings.values ord 3).find? (fun x => decide (x.id = m.id))).bind
        (fun x => si.findRevisionMappingBySerial ord x.serial)) = some r := by
  rcases h with h | ⟨hn, c', m', hm', hid, a, rm, ha, hra, rfl⟩
  · rw [leadsTo_iff.2 h]
    rfl
  · cases hl : pkg.resolveCellRevisionManifestId si m.id with
    | some x => exact absurd ⟨x, leadsTo_iff.1 hl⟩ hn
    | none =>
      rw [Option.none_or]
      rcases hs with hs | ⟨h1, h2⟩
      · obtain ⟨y, hy⟩ := (leads_iff _ _ _).mp hs
        rw [hl] at hy
        cases hy
      · cases hf : (si.cellMappings.values ord 3).find? (fun x => decide (x.id = m.id)) with
        | none =>
          rw [List.find?_eq_none] at hf
          exact absurd (by simp) (hf m (mem_values.mpr ⟨c, hm⟩))
        | some x =>
          obtain ⟨k, hk⟩ := mem_values.mp (List.mem_of_find?_eq_some hf)
          rw [Option.bind_some, h1 k x hk (by simpa using List.find?_some hf)]
          have hser : rm.serial = m.serial := by rw [hra, h1 c' m' hm' hid]
          cases hq : si.findRevisionMappingBySerial ord m.serial with
          | none => exact absurd ⟨a, rm, ha, hser, rfl⟩ (serial_none hq _)
          | some y =>
            obtain ⟨a', rm', ha', hra', rfl⟩ := serial_some hq
            rw [h2 a' rm' a rm ha' ha hra' hser]

/-- The header of a store. -/
theorem header_sound {ord : Order} {id : ExGuid} {gs : List ObjectGroup} {g : ObjectGroup}
    {h : StoreHeader} (ho : pkg.findObjects ord id si = .ok gs) (hg : gs.head? = some g)
    (hh : StoreHeader.parse g = .ok h) : HeaderIs pkg si id h := by
  unfold Package.findObjects Package.findRevisionManifest at ho
  dsimp only at ho
  split at ho
  · cases ho
  · rename_i r hr
    cases hrm : Map.get? pkg.revisionManifests r with
    | none => rw [hrm] at ho; cases ho
    | some rm =>
      rw [hrm] at ho
      have hm := groups_mapM.1 ho
      cases gs with
      | nil => cases hg
      | cons g' gs =>
        cases hg
        cases hgr : rm.groupReferences with
        | nil => rw [hgr] at hm; cases hm
        | cons gid gids =>
          rw [hgr, List.map_cons, List.map_cons, List.cons.injEq] at hm
          refine ⟨r, rm, gid, gids, g, header_revision hr, hrm, hgr, hm.1, ?_, header_iff.1 hh⟩
          intro i hi
          have : Map.get? pkg.objectGroups i ∈ gs.map some := hm.2 ▸ List.mem_map_of_mem hi
          obtain ⟨x, -, hx⟩ := List.mem_map.mp this
          exact ⟨x, hx.symm⟩

theorem header_complete {ord : Order} {c : CellId} {m : CellMapping} {h : StoreHeader}
    (hm : (c, m) ∈ si.cellMappings) (hs : Settled pkg si m) (hh : HeaderIs pkg si m.id h) :
    ∃ gs g, pkg.findObjects ord m.id si = .ok gs ∧ gs.head? = some g ∧
      StoreHeader.parse g = .ok h := by
  obtain ⟨r, rm, gid, gids, g, hr, hrm, hgr, hg, hgs, hi⟩ := hh
  have : ∃ gs : List ObjectGroup, gids.map pkg.objectGroups.get? = gs.map some := by
    clear hgr
    induction gids with
    | nil => exact ⟨[], rfl⟩
    | cons i gids ih =>
      obtain ⟨gs, h'⟩ := ih fun i hi => hgs i (List.mem_cons_of_mem _ hi)
      obtain ⟨x, hx⟩ := hgs i (List.mem_cons_self ..)
      exact ⟨x :: gs, by rw [List.map_cons, List.map_cons, h', hx]⟩
  obtain ⟨gs, hgs'⟩ := this
  refine ⟨g :: gs, g, ?_, rfl, header_iff.2 hi⟩
  unfold Package.findObjects Package.findRevisionManifest
  dsimp only
  rw [revision_header hm hs hr]
  dsimp only
  rw [hrm]
  refine groups_mapM.2 ?_
  rw [hgr, List.map_cons, List.map_cons, hg, hgs']

/-! ### The store -/

theorem index_is {ord : Order} {p : Packaging} (h : Store.storageIndexOf ord p = some si) :
    IndexIs p si := by
  unfold Store.storageIndexOf Package.findStorageIndexById Package.findStorageIndex at h
  cases hg : Map.get? p.package.storageIndexes p.storageIndex with
  | some x =>
    rw [hg] at h
    exact .inl (hg.trans h)
  | none =>
    rw [hg] at h
    exact .inr ⟨hg, mem_head_values h⟩

theorem short_head {ord : Order} {i : Nat} {m : Map K V} {k : K} {v : V} (hl : m.length ≤ 1)
    (h : (k, v) ∈ m) : (m.values ord i).head? = some v := by
  match m, hl, h with
  | [e], _, h =>
    cases List.mem_singleton.mp h
    rw [head_values ord Order.id i _ (by simp)]
    rfl

theorem is_index {ord : Order} {p : Packaging} (hu : Unambiguous p) (h : IndexIs p si) :
    Store.storageIndexOf ord p = some si := by
  unfold Store.storageIndexOf Package.findStorageIndexById Package.findStorageIndex
  rcases h with h | ⟨h, k, hk⟩
  · rw [h]
    rfl
  · rw [h, Option.none_or]
    rcases hu.index with ⟨x, hx⟩ | hx
    · rw [h] at hx
      cases hx
    · exact short_head hx hk

theorem other_iff {ord : Order} {hc dc c : CellId}
    (hk : (∀ c m, (c, m) ∈ si.cellMappings → m.cellId = c) ∧ (si.cellMappings.map Prod.fst).Nodup) :
    (∃ m ∈ si.cellMappings.values ord 4, Active [hc, dc] m ∧ m.cellId = c) ↔
      ∃ m, IsOther si hc dc c m := by
  constructor
  · rintro ⟨m, hm, ⟨hn, hd⟩, rfl⟩
    obtain ⟨c, hcm⟩ := mem_values.mp hm
    have := hk.1 c m hcm
    subst this
    simp only [List.mem_cons, List.not_mem_nil, or_false, not_or] at hd
    exact ⟨m, Map.get?_of_mem hk.2 hcm, hn, hd.1, hd.2⟩
  · rintro ⟨m, hg, hn, h1, h2⟩
    have hcm := Map.mem_of_get? hg
    have e := hk.1 c m hcm
    refine ⟨m, mem_values.mpr ⟨c, hcm⟩, ⟨hn, ?_⟩, e⟩
    simp only [List.mem_cons, List.not_mem_nil, or_false, not_or, e]
    exact ⟨h1, h2⟩

theorem indexIs_mem {p : Packaging} (h : IndexIs p si) : ∃ i, (i, si) ∈ p.package.storageIndexes := by
  rcases h with h | ⟨-, h⟩
  · exact ⟨_, Map.mem_of_get? h⟩
  · exact h

/-- Everything a parsed store shows is what the package says. -/
theorem store_sound {ord : Order} {p : Packaging} {s : Store} (hk : Keyed p)
    (h : Store.parse ord p = .ok s) : StoreIs p s := by
  obtain ⟨si, sm, hc, hm, gs, g, hd, dc, dr, sp, h1, h2, h3, h4, h5, h6, h7, h8, h9, h10, rfl⟩ :=
    store_parse_ok.mp h
  obtain ⟨i, hi⟩ := index_mem h1
  have hks := hk i si hi
  have hkey : ∀ m ∈ si.cellMappings.values ord 4, ∀ m',
      si.cellMappings.get? m.cellId = some m' → m'.cellId = m.cellId :=
    fun m _ m' hm' => hks.1 _ m' (Map.mem_of_get? hm')
  refine ⟨si, sm, hc, dc, index_is h1, mem_head_values h2, rfl, h3, ?_, h8, ?_, ?_, ?_⟩
  · unfold StorageIndex.findCellMappingId at h4
    obtain ⟨m, hg, rfl⟩ := Option.map_eq_some_iff.mp h4
    exact ⟨m, hg, header_sound h5 h6 h7⟩
  · unfold Store.parseObjectSpace at h9
    split at h9
    · cases h9
    · rename_i m hg
      exact ⟨m, hg, (space_sound (c := dr.1) (s := dr.2) h9).2⟩
  · intro c m hm'
    obtain ⟨s, hs, hsp⟩ := (spaces_get hkey h10 c).1 ((other_iff hks).2 ⟨m, hm'⟩)
    unfold Store.parseObjectSpace at hs
    rw [hm'.1] at hs
    exact ⟨s, hsp, (space_sound hs).2⟩
  · intro c hn
    exact (spaces_get hkey h10 c).2 fun h => hn ((other_iff hks).1 h)

/-- A store that is what an unambiguous package says is found, whatever the order. -/
theorem store_complete {p : Packaging} {s : Store} (hk : Keyed p) (hu : Unambiguous p)
    (h : StoreIs p s) (ord : Order) : ∃ s', Store.parse ord p = .ok s' ∧ SameContents s s' := by
  obtain ⟨si, sm, hc, dc, hsi, ⟨j, hj⟩, hschema, hhc, ⟨mh, hmh, hhead⟩, hdc, ⟨md, hmd, hdata⟩, hin,
    hout⟩ := h
  obtain ⟨i, hi⟩ := indexIs_mem hsi
  have hks := hk i si hi
  have hkey : ∀ m ∈ si.cellMappings.values ord 4, ∀ m',
      si.cellMappings.get? m.cellId = some m' → m'.cellId = m.cellId :=
    fun m _ m' hm' => hks.1 _ m' (Map.mem_of_get? hm')
  have hroot : ∀ root c m, sm.roots.get? root = some c → si.cellMappings.get? c = some m →
      Settled p.package si m := by
    intro root c m hr hm
    rcases hu.cells i si c m hi (Map.mem_of_get? hm) with ⟨-, hn⟩ | hs
    · exact absurd (Map.mem_of_get? hr) (hn j sm root hj)
    · exact hs
  have hother : ∀ c m, IsOther si hc dc c m → Settled p.package si m := by
    intro c m hm
    rcases hu.cells i si c m hi (Map.mem_of_get? hm.1) with ⟨hn, -⟩ | hs
    · exact absurd hn hm.2.1
    · exact hs
  obtain ⟨gs, g, h5, h6, h7⟩ := header_complete (ord := ord) (Map.mem_of_get? hmh)
    (hroot _ _ _ hhc hmh) hhead
  obtain ⟨dr, h9, hsame⟩ := space_complete (ord := ord) (hroot _ _ _ hdc hmd) hdata
  obtain ⟨sp, h10⟩ := (spaces_ok (ord := ord) (pkg := p.package) (done := [hc, dc]) (start := [])
      hkey).mpr fun m hm ha => by
    obtain ⟨m', hm'⟩ := (other_iff (ord := ord) hks).1 ⟨m, hm, ha, rfl⟩
    obtain ⟨space, -, hspace⟩ := hin _ m' hm'
    obtain ⟨s', hs', -⟩ := space_complete (ord := ord) (hother _ _ hm') hspace
    refine ⟨s', ?_⟩
    unfold Store.parseObjectSpace
    rw [hm'.1]
    dsimp only
    rw [hs', hks.1 _ m' (Map.mem_of_get? hm'.1)]
  have hp : Store.parse ord p = .ok ⟨sm.id, s.header, dr, sp⟩ :=
    store_parse_ok.mpr ⟨si, sm, hc, mh.id, gs, g, s.header, dc, (md.cellId, dr), sp,
      is_index hu hsi, short_head hu.manifest hj, hhc,
      by unfold StorageIndex.findCellMappingId; rw [hmh]; rfl, h5, h6, h7, hdc,
      by unfold Store.parseObjectSpace; rw [hmd]; exact h9, h10, rfl⟩
  refine ⟨_, hp, hschema, rfl, hsame, fun c => ?_⟩
  show SameOption SameSpace (s.objectSpaces.get? c) (sp.get? c)
  have hg := spaces_get hkey h10 c
  by_cases hx : ∃ m, IsOther si hc dc c m
  · obtain ⟨s', hs', hsp⟩ := hg.1 ((other_iff hks).2 hx)
    obtain ⟨m, hm⟩ := hx
    obtain ⟨space, hsp', hspace⟩ := hin c m hm
    obtain ⟨s'', hs'', hsm⟩ := space_complete (ord := ord) (hother _ _ hm) hspace
    unfold Store.parseObjectSpace at hs'
    rw [hm.1] at hs'
    dsimp only at hs'
    rw [hs''] at hs'
    cases hs'
    rw [hsp, hsp']
    exact hsm
  · rw [hout c hx, hg.2 fun h => hx ((other_iff hks).1 h)]
    trivial

end

end OneNote
