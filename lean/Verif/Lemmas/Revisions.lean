/-
Helper lemmas for revision histories.
-/
import Verif.Lemmas.References
import Verif.Spec.Revisions

namespace OneNote

open Spec

theorem declared_eq (d : Declaration) : declared d = (d.objectId, d.partitionId) := by cases d <;> rfl

theorem ExGuid.isNil_iff (e : ExGuid) : e.isNil = true ↔ e = ExGuid.nil := by
  obtain ⟨g, v⟩ := e
  simp [ExGuid.isNil, Guid.isNil, ExGuid.nil]

theorem resolve_iff (pkg : Package) (si : StorageIndex) (id r : ExGuid) :
    pkg.resolveRevisionManifestId si id = some r ↔ Resolves pkg si id r := by
  unfold Package.resolveRevisionManifestId StorageIndex.findRevisionMappingId Resolves Map.contains
  cases Map.get? si.revisionMappings id with
  | some m =>
    simp only [Option.map_some, Option.some_or, Option.some.injEq]
    exact eq_comm
  | none =>
    cases h : Map.get? pkg.revisionManifests id with
    | none => simp
    | some m =>
      simp only [Option.map_none, Option.none_or, Option.isSome_some, if_true, Option.some.injEq,
        and_true]
      exact eq_comm

theorem baseOf_ok {pkg : Package} {si : StorageIndex} {m : RevisionManifest} {b : Option ExGuid} :
    Revision.baseOf pkg si m = .ok b ↔
      (m.baseRevId = ExGuid.nil ∧ b = none) ∨
      (m.baseRevId ≠ ExGuid.nil ∧ ∃ r, b = some r ∧ Resolves pkg si m.baseRevId r) := by
  unfold Revision.baseOf ExGuid.asOption
  by_cases h : m.baseRevId = ExGuid.nil
  · rw [if_pos ((ExGuid.isNil_iff _).mpr h)]
    simp [h, eq_comm]
  · rw [if_neg (fun h' => h ((ExGuid.isNil_iff _).mp h'))]
    simp only [h, false_and, false_or, ne_eq, not_false_eq_true, true_and]
    cases hr : pkg.resolveRevisionManifestId si m.baseRevId with
    | none =>
      simp only [orErr, Except.map, reduceCtorEq, false_iff, not_exists, not_and]
      rintro r - h'
      rw [(resolve_iff _ _ _ _).mpr h'] at hr
      cases hr
    | some r =>
      simp only [orErr, Except.map, Except.ok.injEq]
      constructor
      · rintro rfl; exact ⟨r, rfl, (resolve_iff _ _ _ _).mp hr⟩
      · rintro ⟨r', rfl, h'⟩
        rw [(resolve_iff _ _ _ _).mpr h'] at hr
        cases hr; rfl

theorem baseOf_error {pkg : Package} {si : StorageIndex} {m : RevisionManifest} {e : Err}
    (h : Revision.baseOf pkg si m = .error e) : e = .malformedOneStore := by
  unfold Revision.baseOf at h
  split at h
  · cases h
  · unfold orErr at h
    split at h <;> cases h
    rfl

/-- One group as a whole. -/
def addGroup (ctx sid : ExGuid) (pkg : Package) (objects : Objects) (g : ObjectGroup) :
    Res Objects :=
  (g.declarations.map (·.objectId)).foldlM (Revision.addObject ctx sid pkg g) objects

theorem foldlM_cons_ok {α σ : Type} {f : σ → α → Res σ} {a : α} {l : List α} {s s' : σ} :
    (a :: l).foldlM f s = .ok s' ↔ ∃ s1, f s a = .ok s1 ∧ l.foldlM f s1 = .ok s' := by
  rw [List.foldlM_cons]
  cases h : f s a with
  | error e => simp [bind, Except.bind]
  | ok s1 => simp [bind, Except.bind]

theorem foldlM_append_ok {α σ : Type} {f : σ → α → Res σ} {l l' : List α} {s s' : σ} :
    (l ++ l').foldlM f s = .ok s' ↔ ∃ s1, l.foldlM f s = .ok s1 ∧ l'.foldlM f s1 = .ok s' := by
  rw [List.foldlM_append]
  cases h : l.foldlM f s with
  | error e => simp [bind, Except.bind]
  | ok s1 => simp [bind, Except.bind]

theorem contains_iff {K V : Type} [DecidableEq K] (m : Map K V) (k : K) :
    m.contains k = true ↔ ∃ v, m.get? k = some v := by
  unfold Map.contains
  exact Option.isSome_iff_exists

/-- Adding the objects of a group: present objects stay, the others are read from the group. -/
theorem addObjects_ok {ctx sid : ExGuid} {pkg : Package} {g : ObjectGroup} {ids : List ExGuid}
    {objects objects' : Objects}
    (h : ids.foldlM (Revision.addObject ctx sid pkg g) objects = .ok objects') (id : ExGuid) :
    (∀ o, objects.get? id = some o → objects'.get? id = some o) ∧
    (objects.get? id = none → id ∈ ids → ∃ o, objects'.get? id = some o ∧
      Object.parse id ctx sid (Revision.groupMap g) pkg = .ok o) ∧
    (objects.get? id = none → id ∉ ids → objects'.get? id = none) := by
  induction ids generalizing objects with
  | nil =>
    cases h
    exact ⟨fun o h => h, fun _ (hm : id ∈ []) => absurd hm List.not_mem_nil, fun h _ => h⟩
  | cons a ids ih =>
    obtain ⟨o1, h1, h2⟩ := foldlM_cons_ok.mp h
    obtain ⟨i1, i2, i3⟩ := ih h2
    unfold Revision.addObject at h1
    split at h1
    · rename_i hc
      cases h1
      obtain ⟨v, hv⟩ := (contains_iff _ _).mp hc
      refine ⟨i1, ?_, ?_⟩
      · intro hn hm
        rcases List.mem_cons.mp hm with rfl | hm
        · rw [hn] at hv; cases hv
        · exact i2 hn hm
      · intro hn hm
        exact i3 hn fun h => hm (List.mem_cons_of_mem _ h)
    · rename_i hc
      split at h1
      · cases h1
      · split at h1
        · cases h1
        · rename_i o ho
          cases h1
          by_cases hid : id = a
          · subst hid
            have hg : Map.get? (Map.insert objects id o) id = some o := Map.get?_insert_self _ _ _
            refine ⟨?_, ?_, ?_⟩
            · intro o' ho'
              exact absurd ((contains_iff _ _).mpr ⟨o', ho'⟩) hc
            · intro _ _
              exact ⟨o, i1 o hg, ho⟩
            · intro _ hm
              exact absurd (List.mem_cons_self) hm
          · have hg : Map.get? (Map.insert objects a o) id = Map.get? objects id :=
              Map.get?_insert_ne _ _ _ _ hid
            rw [hg] at i1 i2 i3
            refine ⟨i1, ?_, ?_⟩
            · intro hn hm
              rcases List.mem_cons.mp hm with rfl | hm
              · exact absurd rfl hid
              · exact i2 hn hm
            · intro hn hm
              exact i3 hn fun h => hm (List.mem_cons_of_mem _ h)

theorem addGroup_ok {ctx sid : ExGuid} {pkg : Package} {g : ObjectGroup}
    {objects objects' : Objects} (h : addGroup ctx sid pkg objects g = .ok objects') (id : ExGuid) :
    (∀ o, objects.get? id = some o → objects'.get? id = some o) ∧
    (objects.get? id = none → Declares g id → ∃ o, objects'.get? id = some o ∧
      Object.parse id ctx sid (Revision.groupMap g) pkg = .ok o) ∧
    (objects.get? id = none → ¬ Declares g id → objects'.get? id = none) := by
  have := addObjects_ok h id
  have hm : id ∈ g.declarations.map (·.objectId) ↔ Declares g id := by
    simp [Declares, declared_eq]
  rw [hm] at this
  exact this

/-- The objects hold, for each identifier, what the first declaring group says. -/
def Holds (ctx sid : ExGuid) (pkg : Package) (objects : Objects) (gs : List ObjectGroup) : Prop :=
  ∀ id, (∀ pre g post, gs = pre ++ g :: post → (∀ g' ∈ pre, ¬ Declares g' id) → Declares g id →
      ∃ o, objects.get? id = some o ∧
        Object.parse id ctx sid (Revision.groupMap g) pkg = .ok o) ∧
    ((∀ g ∈ gs, ¬ Declares g id) → objects.get? id = none)

/-- Either some group declares the identifier, and there is a first one, or none does. -/
theorem first_declaring (gs : List ObjectGroup) (id : ExGuid) :
    (∀ g ∈ gs, ¬ Declares g id) ∨
      ∃ pre g post, gs = pre ++ g :: post ∧ (∀ g' ∈ pre, ¬ Declares g' id) ∧ Declares g id := by
  induction gs with
  | nil => left; simp
  | cons g gs ih =>
    by_cases h : Declares g id
    · exact .inr ⟨[], g, gs, rfl, by simp, h⟩
    · rcases ih with ih | ⟨pre, g', post, rfl, h1, h2⟩
      · left
        intro g' hg'
        rcases List.mem_cons.mp hg' with rfl | hg'
        · exact h
        · exact ih g' hg'
      · refine .inr ⟨g :: pre, g', post, rfl, ?_, h2⟩
        intro x hx
        rcases List.mem_cons.mp hx with rfl | hx
        · exact h
        · exact h1 x hx

theorem Holds.add {ctx sid : ExGuid} {pkg : Package} {g : ObjectGroup} {gs : List ObjectGroup}
    {objects objects' : Objects} (hh : Holds ctx sid pkg objects gs)
    (h : addGroup ctx sid pkg objects g = .ok objects') :
    Holds ctx sid pkg objects' (gs ++ [g]) := by
  intro id
  obtain ⟨a1, a2, a3⟩ := addGroup_ok h id
  obtain ⟨h1, h2⟩ := hh id
  constructor
  · intro pre g' post he hpre hg'
    rcases List.eq_nil_or_concat post with rfl | ⟨post', x, rfl⟩
    · have := List.append_inj' he rfl
      obtain ⟨rfl, hx⟩ := this
      cases hx
      exact a2 (h2 hpre) hg'
    · rw [List.concat_eq_append] at he
      have he' : gs ++ [g] = (pre ++ g' :: post') ++ [x] := by rw [he]; simp
      obtain ⟨rfl, -⟩ := List.append_inj' he' rfl
      obtain ⟨o, ho, hp⟩ := h1 pre g' post' rfl hpre hg'
      exact ⟨o, a1 o ho, hp⟩
  · intro hn
    exact a3 (h2 fun g' hg' => hn g' (by simp [hg'])) (hn g (by simp))

theorem parseGroup_ok {ctx sid : ExGuid} {pkg : Package} {gid : ExGuid}
    {objects objects' : Objects} :
    Revision.parseGroup ctx sid pkg objects gid = .ok objects' ↔
      ∃ g, pkg.objectGroups.get? gid = some g ∧ addGroup ctx sid pkg objects g = .ok objects' := by
  unfold Revision.parseGroup Package.findObjectGroup addGroup
  cases Map.get? pkg.objectGroups gid with
  | none => simp [orErr, bind, Except.bind]
  | some g => simp [orErr, bind, Except.bind]

theorem parseGroups_holds {ctx sid : ExGuid} {pkg : Package} {gids : List ExGuid}
    {objects objects' : Objects} {gs : List ObjectGroup} (hh : Holds ctx sid pkg objects gs)
    (h : gids.foldlM (Revision.parseGroup ctx sid pkg) objects = .ok objects') :
    Holds ctx sid pkg objects' (gs ++ gids.filterMap pkg.objectGroups.get?) ∧
      (∀ gid ∈ gids, ∃ g, pkg.objectGroups.get? gid = some g) := by
  induction gids generalizing objects gs with
  | nil => cases h; simpa using hh
  | cons gid gids ih =>
    obtain ⟨o1, h1, h2⟩ := foldlM_cons_ok.mp h
    obtain ⟨g, hg, ha⟩ := parseGroup_ok.mp h1
    obtain ⟨i1, i2⟩ := ih (hh.add ha) h2
    rw [List.append_assoc] at i1
    rw [List.filterMap_cons, hg]
    refine ⟨i1, ?_⟩
    intro x hx
    rcases List.mem_cons.mp hx with rfl | hx
    · exact ⟨g, hg⟩
    · exact i2 x hx

/-- Everything a successfully read revision consists of. -/
theorem revision_parse_ok {ctx sid : ExGuid} {si : StorageIndex} {pkg : Package} {r : ExGuid}
    {objects objects' : Objects} {roots roots' : Roots} {b : Option ExGuid} :
    Revision.parse ctx sid si pkg r objects roots = .ok (b, objects', roots') ↔
      ∃ m d, pkg.revisionManifests.get? r = some m ∧ Revision.baseOf pkg si m = .ok b ∧
        Revision.parseRoots m = .ok d ∧
        m.groupReferences.foldlM (Revision.parseGroup ctx sid pkg) objects = .ok objects' ∧
        roots' = roots.extend d := by
  unfold Revision.parse Package.findRevisionManifest
  cases hm : Map.get? pkg.revisionManifests r with
  | none => simp [orErr, bind, Except.bind]
  | some m =>
    simp only [orErr, bind, Except.bind, pure, Except.pure, Option.some.injEq, exists_and_left,
      exists_eq_left']
    cases hb : Revision.baseOf pkg si m with
    | error e => simp
    | ok b' =>
      cases hd : Revision.parseRoots m with
      | error e => simp
      | ok d =>
        simp only
        cases hg : m.groupReferences.foldlM (Revision.parseGroup ctx sid pkg) objects with
        | error e => simp
        | ok o =>
          simp only [Except.ok.injEq, Prod.mk.injEq, exists_eq_left']
          rw [@eq_comm _ roots']

/-- Following the revisions to the end. -/
theorem follow_chain {ctx sid : ExGuid} {si : StorageIndex} {pkg : Package} {n : Nat}
    {r : ExGuid} {objects objects' : Objects} {roots roots' : Roots} {gs : List ObjectGroup}
    (hh : Holds ctx sid pkg objects gs)
    (h : ObjectSpace.followRevisions ctx sid si pkg n (some r) objects roots =
      .ok (objects', roots')) :
    ∃ ms, RevisionChain pkg si r ms ∧ ms.length ≤ n ∧
      Holds ctx sid pkg objects' (gs ++ groupsOf pkg ms) ∧
      ∃ ds, ms.mapM Revision.parseRoots = .ok ds ∧ roots' = roots.extend ds.flatten := by
  induction n generalizing r objects roots gs with
  | zero => cases h
  | succ n ih =>
    unfold ObjectSpace.followRevisions at h
    split at h
    · cases h
    · rename_i b o1 r1 hp
      obtain ⟨m, d, hm, hb, hd, hg, rfl⟩ := revision_parse_ok.mp hp
      obtain ⟨hh', -⟩ := parseGroups_holds hh hg
      rcases baseOf_ok.mp hb with ⟨h0, rfl⟩ | ⟨h0, b', rfl, hr⟩
      · have h' : Except.ok (o1, roots.extend d) = (.ok (objects', roots') : Res _) := by
          rw [← h]; cases n <;> rfl
        cases h'
        refine ⟨[m], .oldest r m hm h0, by simp, by simpa [groupsOf] using hh', [d], ?_, by simp⟩
        rw [List.mapM_cons, hd]; rfl
      · obtain ⟨ms, hc, hl, hh2, ds, hds, hr2⟩ := ih hh' h
        refine ⟨m :: ms, .based r b' m ms hm h0 hr hc, by simp; omega, ?_, d :: ds, ?_, ?_⟩
        · rw [List.append_assoc] at hh2
          simpa [groupsOf] using hh2
        · rw [List.mapM_cons, hd, hds]; rfl
        · rw [hr2, List.flatten_cons, Map.extend_append]

theorem groupMap_get (g : ObjectGroup) (id : ExGuid) (part : Nat) :
    (Revision.groupMap g).get? (id, part) = storedData g id part := by
  unfold Revision.groupMap storedData
  rw [Map.get?_ofList]
  simp only [declared_eq]

theorem role_parse_ok {id : ExGuid} {role : RevisionRole} :
    RevisionRole.parse id = .ok role ↔
      id = ⟨rootGuid, match role with
        | .defaultContent => 1 | .metadata => 2 | .encryptionKey => 3 | .versionMetadata => 4⟩ := by
  obtain ⟨g, v⟩ := id
  unfold RevisionRole.parse
  have hg : RevisionRole.roleGuid = rootGuid := rfl
  rw [hg]
  by_cases h : g = rootGuid
  · subst h
    rw [if_neg (by simp)]
    simp only [ExGuid.mk.injEq, true_and]
    constructor
    · intro h
      split at h <;> cases h <;> rfl
    · intro h
      subst h
      cases role <;> rfl
  · rw [if_pos (by simpa using h)]
    simp [h]

theorem parseRoots_lastWith {ms : List RevisionManifest} {ds : List (List (RevisionRole × ExGuid))}
    (h : ms.mapM Revision.parseRoots = .ok ds) (role : RevisionRole) :
    lastWith ds.flatten role = lastWith (rootsOf ms) ⟨rootGuid, match role with
        | .defaultContent => 1 | .metadata => 2 | .encryptionKey => 3 | .versionMetadata => 4⟩ := by
  have aux : ∀ (rs : List RootDeclare) (d : List (RevisionRole × ExGuid)),
      (rs.mapM fun r => (RevisionRole.parse r.rootId).map fun role => (role, r.objectId)) = .ok d →
      d.map (fun e => ((⟨rootGuid, match e.1 with
        | .defaultContent => 1 | .metadata => 2 | .encryptionKey => 3 | .versionMetadata => 4⟩ :
          ExGuid), e.2)) = rs.map fun r => (r.rootId, r.objectId) := by
    intro rs
    induction rs with
    | nil => intro d h; cases h; rfl
    | cons r rs ih =>
      intro d h
      obtain ⟨x, bs, hx, hbs, rfl⟩ := mapM_cons_ok.mp h
      cases hr : RevisionRole.parse r.rootId with
      | error e => rw [hr] at hx; cases hx
      | ok role =>
        rw [hr] at hx
        cases hx
        rw [List.map_cons, List.map_cons, ih bs hbs, ← role_parse_ok.mp hr]
  have key : ds.flatten.map (fun e => ((⟨rootGuid, match e.1 with
        | .defaultContent => 1 | .metadata => 2 | .encryptionKey => 3 | .versionMetadata => 4⟩ :
          ExGuid), e.2)) = rootsOf ms := by
    clear role
    induction ms generalizing ds with
    | nil => cases h; rfl
    | cons m ms ih =>
      obtain ⟨d, d', hr, hm, rfl⟩ := mapM_cons_ok.mp h
      rw [List.flatten_cons, List.map_append, ih hm, aux _ _ hr]
      rfl
  rw [← key]
  generalize ds.flatten = l
  rw [← List.reverse_reverse l]
  induction l.reverse with
  | nil => rfl
  | cons e l ih =>
    obtain ⟨k, v⟩ := e
    rw [List.reverse_cons, List.map_append, List.map_cons, List.map_nil,
      Map.lastWith_append_singleton, Map.lastWith_append_singleton, ih]
    by_cases hk : role = k
    · subst hk; simp
    · rw [if_neg hk, if_neg]
      simp only [ExGuid.mk.injEq, true_and]
      cases role <;> cases k <;> first | exact absurd rfl hk | decide

end OneNote
