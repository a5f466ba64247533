/-
The bound on the number of revisions followed is exact.
-/
import Verif.Lemmas.Fine
import Verif.Lemmas.Revisions

namespace OneNote

open Spec

variable {ctx sid : ExGuid} {si : StorageIndex} {pkg : Package}

/-- A revision was read successfully, its objects are in `objects` and its base is `b`. -/
def Processed (si : StorageIndex) (pkg : Package) (objects : Objects) (v b : ExGuid) : Prop :=
  ∃ m d, pkg.revisionManifests.get? v = some m ∧ Revision.baseOf pkg si m = .ok (some b) ∧
    Revision.parseRoots m = .ok d ∧
    ∀ gid ∈ m.groupReferences, ∃ g, pkg.objectGroups.get? gid = some g ∧
      ∀ id, Declares g id → ∃ o, objects.get? id = some o

theorem addObjects_present {g : ObjectGroup} {ids : List ExGuid} {objects : Objects}
    (h : ∀ id ∈ ids, ∃ o, objects.get? id = some o) :
    ids.foldlM (Revision.addObject ctx sid pkg g) objects = .ok objects := by
  induction ids with
  | nil => rfl
  | cons a ids ih =>
    refine foldlM_cons_ok.mpr ⟨objects, ?_, ih fun id hid => h id (by simp [hid])⟩
    unfold Revision.addObject
    rw [if_pos ((contains_iff _ _).mpr (h a (by simp)))]

theorem parseGroups_present {gids : List ExGuid} {objects : Objects}
    (h : ∀ gid ∈ gids, ∃ g, pkg.objectGroups.get? gid = some g ∧
      ∀ id, Declares g id → ∃ o, objects.get? id = some o) :
    gids.foldlM (Revision.parseGroup ctx sid pkg) objects = .ok objects := by
  induction gids with
  | nil => rfl
  | cons gid gids ih =>
    refine foldlM_cons_ok.mpr ⟨objects, ?_, ih fun x hx => h x (by simp [hx])⟩
    obtain ⟨g, hg, hd⟩ := h gid (by simp)
    refine parseGroup_ok.mpr ⟨g, hg, addObjects_present ?_⟩
    intro id hid
    obtain ⟨d, hd1, hd2⟩ := List.mem_map.mp hid
    exact hd id ⟨d, hd1, by rw [declared_eq]; exact hd2⟩

/-- Reading a processed revision again changes nothing. -/
theorem Processed.again {objects : Objects} {v b : ExGuid}
    (h : Processed si pkg objects v b) (roots : Roots) :
    ∃ roots', Revision.parse ctx sid si pkg v objects roots = .ok (some b, objects, roots') := by
  obtain ⟨m, d, hm, hb, hd, hg⟩ := h
  exact ⟨_, revision_parse_ok.mpr ⟨m, d, hm, hb, hd, parseGroups_present hg, rfl⟩⟩

/-- A closed set of processed revisions is never left. -/
theorem loop_forever {objects : Objects} (V : ExGuid → Prop)
    (hV : ∀ v, V v → ∃ b, V b ∧ Processed si pkg objects v b) (n : Nat) (r : ExGuid) (hr : V r)
    (roots : Roots) :
    ObjectSpace.followRevisions ctx sid si pkg n (some r) objects roots = .error .fuel := by
  induction n generalizing r roots with
  | zero => rfl
  | succ n ih =>
    obtain ⟨b, hb, hp⟩ := hV r hr
    obtain ⟨roots', h⟩ := hp.again (ctx := ctx) (sid := sid) roots
    unfold ObjectSpace.followRevisions
    rw [h]
    exact ih b hb roots'

theorem parseGroups_grow {gids : List ExGuid} {objects objects' : Objects}
    (h : gids.foldlM (Revision.parseGroup ctx sid pkg) objects = .ok objects') :
    (∀ id o, objects.get? id = some o → objects'.get? id = some o) ∧
    ∀ gid ∈ gids, ∃ g, pkg.objectGroups.get? gid = some g ∧
      ∀ id, Declares g id → ∃ o, objects'.get? id = some o := by
  induction gids generalizing objects with
  | nil => cases h; exact ⟨fun _ _ h => h, by simp⟩
  | cons gid gids ih =>
    obtain ⟨o1, h1, h2⟩ := foldlM_cons_ok.mp h
    obtain ⟨g, hg, ha⟩ := parseGroup_ok.mp h1
    obtain ⟨i1, i2⟩ := ih h2
    refine ⟨fun id o ho => i1 id o ((addGroup_ok ha id).1 o ho), ?_⟩
    intro x hx
    rcases List.mem_cons.mp hx with rfl | hx
    · refine ⟨g, hg, fun id hid => ?_⟩
      obtain ⟨a1, a2, -⟩ := addGroup_ok ha id
      cases hc : Map.get? objects id with
      | some o => exact ⟨o, i1 id o (a1 o hc)⟩
      | none =>
        obtain ⟨o, ho, -⟩ := a2 hc hid
        exact ⟨o, i1 id o ho⟩
    · exact i2 x hx

theorem Processed.grow {objects objects' : Objects} {v b : ExGuid}
    (h : Processed si pkg objects v b)
    (hg : ∀ id o, objects.get? id = some o → objects'.get? id = some o) :
    Processed si pkg objects' v b := by
  obtain ⟨m, d, hm, hb, hd, hgs⟩ := h
  refine ⟨m, d, hm, hb, hd, fun gid hgid => ?_⟩
  obtain ⟨g, h1, h2⟩ := hgs gid hgid
  refine ⟨g, h1, fun id hid => ?_⟩
  obtain ⟨o, ho⟩ := h2 id hid
  exact ⟨o, hg id o ho⟩

/-- Running out of fuel after more steps than there are revisions means never ending. -/
theorem fuel_forever (n : Nat) (vs : List ExGuid) (r : ExGuid) (objects : Objects) (roots : Roots)
    (hnd : vs.Nodup)
    (hvs : ∀ v ∈ vs, ∃ b, (b ∈ vs ∨ b = r) ∧ Processed si pkg objects v b)
    (hn : pkg.revisionManifests.length < n + vs.length)
    (h : ObjectSpace.followRevisions ctx sid si pkg n (some r) objects roots = .error .fuel)
    (n' : Nat) :
    ObjectSpace.followRevisions ctx sid si pkg n' (some r) objects roots = .error .fuel := by
  by_cases hr : r ∈ vs
  · refine loop_forever (· ∈ vs) (fun v hv => ?_) n' r hr roots
    obtain ⟨b, hb | rfl, hp⟩ := hvs v hv
    · exact ⟨b, hb, hp⟩
    · exact ⟨b, hr, hp⟩
  · induction n generalizing vs r objects roots n' with
    | zero =>
      have hsub : vs ⊆ pkg.revisionManifests.map Prod.fst := by
        intro v hv
        obtain ⟨b, -, m, d, hm, -⟩ := hvs v hv
        exact List.mem_map.mpr ⟨_, Map.mem_of_get? hm, rfl⟩
      have := hnd.length_le_of_subset hsub
      rw [List.length_map] at this
      omega
    | succ n ih =>
      unfold ObjectSpace.followRevisions at h
      split at h
      · rename_i e he
        cases h
        exact absurd he (fine_revision _ _ _ _ _ _ _).1
      · rename_i b o1 r1 hp
        cases b with
        | none => cases n <;> cases h
        | some b =>
          cases n' with
          | zero => rfl
          | succ n' =>
            unfold ObjectSpace.followRevisions
            rw [hp]
            obtain ⟨m, d, hm, hb, hd, hg, rfl⟩ := revision_parse_ok.mp hp
            obtain ⟨g1, g2⟩ := parseGroups_grow hg
            have hvs' : ∀ v ∈ r :: vs, ∃ b', (b' ∈ r :: vs ∨ b' = b) ∧
                Processed si pkg o1 v b' := by
              intro v hv
              rcases List.mem_cons.mp hv with rfl | hv
              · exact ⟨b, .inr rfl, m, d, hm, hb, hd, g2⟩
              · obtain ⟨b', hb', hpv⟩ := hvs v hv
                exact ⟨b', .inl (by rcases hb' with h | rfl <;> simp [*]), hpv.grow g1⟩
            have hnd' : (r :: vs).Nodup := List.nodup_cons.mpr ⟨hr, hnd⟩
            by_cases hb' : b ∈ r :: vs
            · refine loop_forever (· ∈ r :: vs) (fun v hv => ?_) n' b hb' _
              obtain ⟨b', hb1 | rfl, hp'⟩ := hvs' v hv
              · exact ⟨b', hb1, hp'⟩
              · exact ⟨b', hb', hp'⟩
            · exact ih (r :: vs) b o1 _ hnd' hvs' (by simp; omega) h n' hb'

/-- With more fuel than needed the result does not change. -/
theorem follow_more {n : Nat} {b : Option ExGuid} {objects : Objects} {roots : Roots}
    {res : Res (Objects × Roots)}
    (h : ObjectSpace.followRevisions ctx sid si pkg n b objects roots = res)
    (hne : res ≠ .error .fuel) (k : Nat) :
    ObjectSpace.followRevisions ctx sid si pkg (n + k) b objects roots = res := by
  induction n generalizing b objects roots with
  | zero =>
    cases b with
    | none =>
      rw [← h]
      cases k <;> rfl
    | some r => exact absurd h.symm hne
  | succ n ih =>
    cases b with
    | none => rw [← h, Nat.add_right_comm]; rfl
    | some r =>
      rw [Nat.add_right_comm]
      unfold ObjectSpace.followRevisions at h ⊢
      split at h
      · exact h
      · rename_i b' o1 r1 hp
        exact ih h

theorem RevisionChain.unique {r : ExGuid} {ms ms' : List RevisionManifest}
    (h : RevisionChain pkg si r ms) (h' : RevisionChain pkg si r ms') : ms = ms' := by
  induction h generalizing ms' with
  | oldest r m hm hb =>
    cases h' with
    | oldest _ m' hm' _ => rw [hm] at hm'; cases hm'; rfl
    | based _ _ m' _ hm' hb' => rw [hm] at hm'; cases hm'; exact absurd hb hb'
  | based r b m ms hm hb hr _ ih =>
    cases h' with
    | oldest _ m' hm' hb' => rw [hm] at hm'; cases hm'; exact absurd hb' hb
    | based _ b' m' ms' hm' hb' hr' h' =>
      rw [hm] at hm'; cases hm'
      have : some b = some b' :=
        ((resolve_iff _ _ _ _).mpr hr).symm.trans ((resolve_iff _ _ _ _).mpr hr')
      cases this
      rw [ih h']

/-- A finite chain is followed to its end (or to an error). -/
theorem chain_ends {r : ExGuid} {ms : List RevisionManifest} (h : RevisionChain pkg si r ms)
    (objects : Objects) (roots : Roots) :
    ObjectSpace.followRevisions ctx sid si pkg ms.length (some r) objects roots ≠
      .error .fuel := by
  induction h generalizing objects roots with
  | oldest r m hm hb =>
    unfold ObjectSpace.followRevisions
    simp only [List.length_cons, List.length_nil]
    split
    · rename_i e he
      intro h
      cases h
      exact absurd he (fine_revision _ _ _ _ _ _ _).1
    · rename_i b o1 r1 hp
      obtain ⟨m', d, hm', hb', -⟩ := revision_parse_ok.mp hp
      rw [hm] at hm'
      cases hm'
      rcases baseOf_ok.mp hb' with ⟨-, rfl⟩ | ⟨h0, -⟩
      · intro h; cases h
      · exact absurd hb h0
  | based r b m ms hm hb hr _ ih =>
    unfold ObjectSpace.followRevisions
    simp only [List.length_cons]
    split
    · rename_i e he
      intro h
      cases h
      exact absurd he (fine_revision _ _ _ _ _ _ _).1
    · rename_i b' o1 r1 hp
      obtain ⟨m', d, hm', hb', -⟩ := revision_parse_ok.mp hp
      rw [hm] at hm'
      cases hm'
      rcases baseOf_ok.mp hb' with ⟨h0, -⟩ | ⟨-, b2, rfl, hr2⟩
      · exact absurd h0 hb
      · have : some b = some b2 :=
          ((resolve_iff _ _ _ _).mpr hr).symm.trans ((resolve_iff _ _ _ _).mpr hr2)
        cases this
        exact ih o1 r1

end OneNote
