/-
Results that do not depend on the iteration order of hash maps.
-/
import Verif.Lemmas.Yields
import Verif.Lemmas.Follow
import Verif.Spec.Determinism

namespace OneNote

open Spec

variable {α β K V : Type}

theorem keyed_of_parse {bs r : Bytes} {p : Packaging} (h : Packaging.parse bs = .ok (p, r)) :
    Keyed p := fun i si hi =>
  have := (yields_packaging _ _ _ h).1 i si hi
  ⟨this.1, this.2.1⟩

/-- The first match does not depend on the order if all matches agree. -/
theorem find_perm {l l' : List α} (hp : l.Perm l') (q : α → Bool) (f : α → β)
    (hu : ∀ a ∈ l, ∀ b ∈ l, q a = true → q b = true → f a = f b) :
    (l.find? q).map f = (l'.find? q).map f := by
  cases h : l.find? q with
  | none =>
    have : l'.find? q = none := by
      rw [List.find?_eq_none] at h ⊢
      exact fun x hx => h x (hp.mem_iff.mpr hx)
    rw [this]
  | some a =>
    cases h' : l'.find? q with
    | none =>
      rw [List.find?_eq_none] at h'
      exact absurd (List.find?_some h) (h' a (hp.mem_iff.mp (List.mem_of_find?_eq_some h)))
    | some b =>
      simp only [Option.map_some]
      rw [hu a (List.mem_of_find?_eq_some h) b (hp.mem_iff.mpr (List.mem_of_find?_eq_some h'))
        (List.find?_some h) (List.find?_some h')]

theorem values_perm (ord ord' : Order) (i : Nat) (m : Map K V) :
    (m.values ord i).Perm (m.values ord' i) := by
  unfold Map.values
  exact ((ord.isPerm i m).trans (ord'.isPerm i m).symm).map _

theorem mem_values {ord : Order} {i : Nat} {m : Map K V} {v : V} :
    v ∈ m.values ord i ↔ ∃ k, (k, v) ∈ m := by
  unfold Map.values
  rw [List.mem_map]
  constructor
  · rintro ⟨⟨k, v⟩, h, rfl⟩; exact ⟨k, (ord.isPerm i m).mem_iff.mp h⟩
  · rintro ⟨k, h⟩; exact ⟨(k, v), (ord.isPerm i m).mem_iff.mpr h, rfl⟩

theorem head_values (ord ord' : Order) (i : Nat) (m : Map K V) (h : m.length ≤ 1) :
    (m.values ord i).head? = (m.values ord' i).head? := by
  have hp := values_perm ord ord' i m
  have hl : (m.values ord i).length ≤ 1 := by
    unfold Map.values; rw [List.length_map, (ord.isPerm i m).length_eq]; exact h
  generalize m.values ord i = l at hp hl
  generalize m.values ord' i = l' at hp
  match l, hl with
  | [], _ => rw [List.nil_perm.mp hp]
  | [a], _ => rw [List.singleton_perm.mp hp]

theorem mem_head_values {ord : Order} {i : Nat} {m : Map K V} {v : V}
    (h : (m.values ord i).head? = some v) : ∃ k, (k, v) ∈ m :=
  mem_values.mp (List.mem_of_mem_head? h)

theorem leads_iff (pkg : Package) (si : StorageIndex) (id : ExGuid) :
    LeadsToRevision pkg si id ↔ ∃ r, pkg.resolveCellRevisionManifestId si id = some r := by
  unfold LeadsToRevision Package.resolveCellRevisionManifestId Package.findCellRevisionId
  constructor
  · rintro (⟨c, r, hc, hr⟩ | ⟨r, hr⟩)
    · exact ⟨r, by rw [hc, Option.bind_some, (resolve_iff _ _ _ _).mpr hr]; rfl⟩
    · rw [(resolve_iff _ _ _ _).mpr hr]
      cases (Map.get? pkg.cellManifests id).bind (pkg.resolveRevisionManifestId si) with
      | none => exact ⟨r, rfl⟩
      | some x => exact ⟨x, rfl⟩
  · rintro ⟨r, h⟩
    cases hc : Map.get? pkg.cellManifests id with
    | none =>
      rw [hc] at h
      exact .inr ⟨r, (resolve_iff _ _ _ _).mp h⟩
    | some c =>
      rw [hc, Option.bind_some] at h
      cases hr : pkg.resolveRevisionManifestId si c with
      | some x => exact .inl ⟨c, x, rfl, (resolve_iff _ _ _ _).mp hr⟩
      | none => rw [hr] at h; exact .inr ⟨r, (resolve_iff _ _ _ _).mp h⟩

theorem serial_settled (ord ord' : Order) {si : StorageIndex} {s : SerialNumber}
    (h : ∀ a r a' r', (a, r) ∈ si.revisionMappings → (a', r') ∈ si.revisionMappings →
     r.serial = s → r'.serial = s → r.revisionMapping = r'.revisionMapping) :
    si.findRevisionMappingBySerial ord s = si.findRevisionMappingBySerial ord' s := by
  unfold StorageIndex.findRevisionMappingBySerial
  refine find_perm (values_perm _ _ _ _) _ _ fun a ha b hb hqa hqb => ?_
  obtain ⟨x, hx⟩ := mem_values.mp ha
  obtain ⟨y, hy⟩ := mem_values.mp hb
  exact h x a y b hx hy (by simpa using hqa) (by simpa using hqb)

theorem first_settled (ord ord' : Order) {pkg : Package} {si : StorageIndex} {m : CellMapping}
    (h : Settled pkg si m) :
    ObjectSpace.firstRevision ord si pkg m = ObjectSpace.firstRevision ord' si pkg m := by
  unfold ObjectSpace.firstRevision
  rcases h with h | ⟨-, h⟩
  · obtain ⟨r, hr⟩ := (leads_iff _ _ _).mp h
    rw [hr]; rfl
  · rw [serial_settled ord ord' h]

theorem space_settled (ord ord' : Order) {pkg : Package} {si : StorageIndex} {m : CellMapping}
    (h : Settled pkg si m) :
    ObjectSpace.parse ord m si pkg = ObjectSpace.parse ord' m si pkg := by
  unfold ObjectSpace.parse ObjectSpace.parseFuel
  rw [first_settled ord ord' h]

theorem objects_settled (ord ord' : Order) {pkg : Package} {si : StorageIndex} {c : CellId}
    {m : CellMapping} (hm : (c, m) ∈ si.cellMappings) (h : Settled pkg si m) :
    pkg.findObjects ord m.id si = pkg.findObjects ord' m.id si := by
  have key : (pkg.resolveCellRevisionManifestId si m.id).or
      (((si.cellMappings.values ord 3).find? (fun x => decide (x.id = m.id))).bind
        (fun m => si.findRevisionMappingBySerial ord m.serial)) =
      (pkg.resolveCellRevisionManifestId si m.id).or
      (((si.cellMappings.values ord' 3).find? (fun x => decide (x.id = m.id))).bind
        (fun m => si.findRevisionMappingBySerial ord' m.serial)) := by
    rcases h with h | ⟨h1, h2⟩
    · obtain ⟨r, hr⟩ := (leads_iff _ _ _).mp h
      rw [hr]; rfl
    · congr 1
      have e : ∀ o : Order, ((si.cellMappings.values o 3).find? (fun x => decide (x.id = m.id))).bind
          (fun m => si.findRevisionMappingBySerial o m.serial) =
          si.findRevisionMappingBySerial o m.serial := by
        intro o
        cases hf : (si.cellMappings.values o 3).find? (fun x => decide (x.id = m.id)) with
        | none =>
          rw [List.find?_eq_none] at hf
          exact absurd (by simp) (hf m (mem_values.mpr ⟨c, hm⟩))
        | some x =>
          obtain ⟨k, hk⟩ := mem_values.mp (List.mem_of_find?_eq_some hf)
          have hx := List.find?_some hf
          rw [Option.bind_some, h1 k x hk (by simpa using hx)]
      rw [e ord, e ord', serial_settled ord ord' h2]
  unfold Package.findObjects
  simp only [key]

/-! ### The loop over the cells -/

/-- The cells the loop reads. -/
def Active (done : List CellId) (m : CellMapping) : Prop := m.id ≠ ExGuid.nil ∧ m.cellId ∉ done

instance (done m) : Decidable (Active done m) := inferInstanceAs (Decidable (_ ∧ _))

theorem space_id {ord : Order} {m : CellMapping} {si : StorageIndex} {pkg : Package} {id : CellId}
    {s : ObjectSpace} (h : ObjectSpace.parse ord m si pkg = .ok (id, s)) : id = m.cellId := by
  unfold ObjectSpace.parse ObjectSpace.parseFuel at h
  simp only at h
  split at h
  · split at h
    · cases h; rfl
    · cases h
  · split at h
    · cases h
    · cases h; rfl

theorem addSpace_ok {ord : Order} {si : StorageIndex} {pkg : Package} {done : List CellId}
    {spaces spaces' : Map CellId ObjectSpace} {m : CellMapping} :
    Store.addSpace ord si pkg done spaces m = .ok spaces' ↔
      (¬ Active done m ∧ spaces' = spaces) ∨
      (Active done m ∧ ∃ id s, Store.parseObjectSpace ord m.cellId si pkg = .ok (id, s) ∧
        spaces' = spaces.insert id s) := by
  unfold Store.addSpace
  by_cases h1 : m.id.isNil = true
  · have ha : ¬ Active done m := fun h => h.1 ((ExGuid.isNil_iff _).mp h1)
    rw [if_pos h1]
    constructor
    · intro h; cases h; exact .inl ⟨ha, rfl⟩
    · rintro (⟨-, rfl⟩ | ⟨h, -⟩)
      · rfl
      · exact absurd h ha
  · have h1' : m.id ≠ ExGuid.nil := fun h => h1 ((ExGuid.isNil_iff _).mpr h)
    rw [if_neg h1]
    by_cases h2 : m.cellId ∈ done
    · have ha : ¬ Active done m := fun h => h.2 h2
      rw [if_pos h2]
      constructor
      · intro h; cases h; exact .inl ⟨ha, rfl⟩
      · rintro (⟨-, rfl⟩ | ⟨h, -⟩)
        · rfl
        · exact absurd h ha
    · have ha : Active done m := ⟨h1', h2⟩
      rw [if_neg h2]
      constructor
      · intro h
        split at h
        · cases h
        · rename_i id s hs
          cases h
          exact .inr ⟨ha, id, s, hs, rfl⟩
      · rintro (⟨h, -⟩ | ⟨-, id, s, hs, rfl⟩)
        · exact absurd ha h
        · rw [hs]

/-- The outcome of the loop, cell by cell. -/
theorem spaces_ok {ord : Order} {si : StorageIndex} {pkg : Package} {done : List CellId}
    {l : List CellMapping} {start : Map CellId ObjectSpace}
    (hk : ∀ m ∈ l, ∀ m', si.cellMappings.get? m.cellId = some m' → m'.cellId = m.cellId) :
    (∃ spaces, l.foldlM (Store.addSpace ord si pkg done) start = .ok spaces) ↔
      ∀ m ∈ l, Active done m → ∃ s, Store.parseObjectSpace ord m.cellId si pkg = .ok (m.cellId, s) := by
  have hid : ∀ m ∈ l, ∀ id s, Store.parseObjectSpace ord m.cellId si pkg = .ok (id, s) →
      id = m.cellId := by
    intro m hm id s h
    unfold Store.parseObjectSpace at h
    split at h
    · cases h
    · rename_i m' hm'
      rw [space_id h, hk m hm m' hm']
  clear hk
  induction l generalizing start with
  | nil => exact ⟨fun _ => by simp, fun _ => ⟨start, rfl⟩⟩
  | cons m l ih =>
    have hid' : ∀ m ∈ l, ∀ id s, Store.parseObjectSpace ord m.cellId si pkg = .ok (id, s) →
        id = m.cellId := fun x hx => hid x (by simp [hx])
    constructor
    · rintro ⟨spaces, h⟩
      obtain ⟨s1, h1, h2⟩ := foldlM_cons_ok.mp h
      have := (ih hid').mp ⟨spaces, h2⟩
      intro x hx ha
      rcases List.mem_cons.mp hx with rfl | hx
      · rcases addSpace_ok.mp h1 with ⟨h, -⟩ | ⟨-, id, s, hs, -⟩
        · exact absurd ha h
        · have := hid x (by simp) id s hs
          subst this
          exact ⟨s, hs⟩
      · exact this x hx ha
    · intro h
      have hrest := fun start => (ih (start := start) hid').mpr fun x hx => h x (by simp [hx])
      by_cases ha : Active done m
      · obtain ⟨s, hs⟩ := h m (by simp) ha
        obtain ⟨sp, hsp⟩ := hrest (start.insert m.cellId s)
        exact ⟨sp, foldlM_cons_ok.mpr ⟨_, addSpace_ok.mpr (.inr ⟨ha, _, s, hs, rfl⟩), hsp⟩⟩
      · obtain ⟨sp, hsp⟩ := hrest start
        exact ⟨sp, foldlM_cons_ok.mpr ⟨_, addSpace_ok.mpr (.inl ⟨ha, rfl⟩), hsp⟩⟩

theorem spaces_get {ord : Order} {si : StorageIndex} {pkg : Package} {done : List CellId}
    {l : List CellMapping} {start spaces : Map CellId ObjectSpace}
    (hk : ∀ m ∈ l, ∀ m', si.cellMappings.get? m.cellId = some m' → m'.cellId = m.cellId)
    (h : l.foldlM (Store.addSpace ord si pkg done) start = .ok spaces) (id : CellId) :
    ((∃ m ∈ l, Active done m ∧ m.cellId = id) →
      ∃ s, Store.parseObjectSpace ord id si pkg = .ok (id, s) ∧ spaces.get? id = some s) ∧
    ((¬ ∃ m ∈ l, Active done m ∧ m.cellId = id) → spaces.get? id = start.get? id) := by
  induction l generalizing start with
  | nil => cases h; exact ⟨by simp, fun _ => rfl⟩
  | cons m l ih =>
    obtain ⟨s1, h1, h2⟩ := foldlM_cons_ok.mp h
    have hk' : ∀ m ∈ l, ∀ m', si.cellMappings.get? m.cellId = some m' → m'.cellId = m.cellId :=
      fun x hx => hk x (by simp [hx])
    obtain ⟨i1, i2⟩ := ih hk' h2
    constructor
    · rintro ⟨x, hx, ha, rfl⟩
      by_cases hl : ∃ m ∈ l, Active done m ∧ m.cellId = x.cellId
      · exact i1 hl
      · rcases List.mem_cons.mp hx with rfl | hx
        · rcases addSpace_ok.mp h1 with ⟨h, -⟩ | ⟨-, id, s, hs, rfl⟩
          · exact absurd ha h
          · have : id = x.cellId := by
              unfold Store.parseObjectSpace at hs
              split at hs
              · cases hs
              · rename_i m' hm'
                rw [space_id hs, hk x (by simp) m' hm']
            subst this
            exact ⟨s, hs, by rw [i2 hl, Map.get?_insert_self]⟩
        · exact absurd ⟨x, hx, ha, rfl⟩ hl
    · intro hn
      have hl : ¬ ∃ m ∈ l, Active done m ∧ m.cellId = id := by
        rintro ⟨x, hx, h⟩
        exact hn ⟨x, by simp [hx], h⟩
      rw [i2 hl]
      rcases addSpace_ok.mp h1 with ⟨-, rfl⟩ | ⟨ha, id', s, hs, rfl⟩
      · rfl
      · have : id' = m.cellId := by
          unfold Store.parseObjectSpace at hs
          split at hs
          · cases hs
          · rename_i m' hm'
            rw [space_id hs, hk m (by simp) m' hm']
        subst this
        refine Map.get?_insert_ne _ _ _ _ ?_
        rintro rfl
        exact hn ⟨m, by simp, ha, rfl⟩

end OneNote
