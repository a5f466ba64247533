/-
Invariants of parsed values.
-/
import Verif.Lemmas.Size

namespace OneNote

variable {α β σ : Type}

/-- Every value the parser returns satisfies `Q`. -/
def Yields (p : P α) (Q : α → Prop) : Prop := ∀ s a r, p s = .ok (a, r) → Q a

theorem Yields.pure {a : α} {Q : α → Prop} (h : Q a) : Yields (pure a) Q := by
  intro s a' r h'
  cases h'
  exact h

theorem Yields.fail {e : Err} {Q : α → Prop} : Yields (P.fail e : P α) Q := by
  intro s a r h
  cases h

theorem Yields.bind {p : P α} {f : α → P β} {Q : β → Prop} (hf : ∀ a, Yields (f a) Q) :
    Yields (p >>= f) Q := by
  intro s b r h
  rw [P.bind_eq_ok] at h
  obtain ⟨a, r', -, h2⟩ := h
  exact hf a _ _ _ h2

theorem Yields.bind' {p : P α} {f : α → P β} {Q : β → Prop} {R : α → Prop} (hp : Yields p R)
    (hf : ∀ a, R a → Yields (f a) Q) : Yields (p >>= f) Q := by
  intro s b r h
  rw [P.bind_eq_ok] at h
  obtain ⟨a, r', h1, h2⟩ := h
  exact hf a (hp _ _ _ h1) _ _ _ h2

theorem loopEnd_yields (ty : ObjectType) {body : σ → P σ} {Q : σ → Prop}
    (hb : ∀ a, Q a → Yields (body a) Q) (n : Nat) (acc : σ) (h0 : Q acc) :
    Yields (loopEnd ty body n acc) Q := by
  induction n generalizing acc with
  | zero => exact Yields.fail
  | succ n ih =>
    unfold loopEnd
    refine Yields.bind fun b => ?_
    split
    · exact Yields.bind fun _ => Yields.pure h0
    · exact Yields.bind' (hb acc h0) fun a ha => ih a ha

theorem Yields.untilEnd8 (ty : ObjectType) {body : σ → P σ} {Q : σ → Prop}
    (hb : ∀ a, Q a → Yields (body a) Q) {acc : σ} (h0 : Q acc) :
    Yields (untilEnd8 ty body acc) Q := by
  intro s v r h
  rw [untilEnd8_eq] at h
  exact loopEnd_yields ty hb _ acc h0 _ _ _ h

theorem Map.mem_insert {K V : Type} [DecidableEq K] {m : Map K V} {k : K} {v : V} {e : K × V}
    (h : e ∈ m.insert k v) : e ∈ m ∨ e = (k, v) := by
  unfold Map.insert at h
  rcases List.mem_append.mp h with h | h
  · exact .inl (List.mem_filter.mp h).1
  · exact .inr (by simpa using h)

/-- A storage index read from a file: unique keys, and cell mappings stored under their own ids. -/
def IndexOk (si : StorageIndex) : Prop :=
  (∀ c m, (c, m) ∈ si.cellMappings → m.cellId = c) ∧ (si.cellMappings.map Prod.fst).Nodup ∧
  (si.revisionMappings.map Prod.fst).Nodup

theorem yields_index : Yields StorageIndex.parse IndexOk := by
  refine Yields.untilEnd8 _ (fun si h => ?_) ⟨by simp [StorageIndex.empty], by simp [StorageIndex.empty], by simp [StorageIndex.empty]⟩
  unfold StorageIndex.parseItem
  refine Yields.bind fun hd => ?_
  generalize hd.objectType = ty
  split
  · exact Yields.bind fun _ => Yields.bind fun _ => Yields.pure h
  · refine Yields.bind fun c => Yields.bind fun i => Yields.bind fun s => Yields.pure ?_
    refine ⟨fun c' m hm => ?_, Map.nodup_insert _ _ _ h.2.1, h.2.2⟩
    rcases Map.mem_insert hm with hm | hm
    · exact h.1 c' m hm
    · cases hm; rfl
  · refine Yields.bind fun c => Yields.bind fun i => Yields.bind fun s => Yields.pure ?_
    exact ⟨h.1, h.2.1, Map.nodup_insert _ _ _ h.2.2⟩
  · exact Yields.fail

/-- A package read from a file: unique identifiers per kind of element. -/
def PackageOk (pkg : Package) : Prop :=
  (∀ i si, (i, si) ∈ pkg.storageIndexes → IndexOk si) ∧
  (pkg.storageIndexes.map Prod.fst).Nodup ∧ (pkg.storageManifests.map Prod.fst).Nodup ∧
  (pkg.cellManifests.map Prod.fst).Nodup ∧ (pkg.revisionManifests.map Prod.fst).Nodup ∧
  (pkg.objectGroups.map Prod.fst).Nodup ∧ (pkg.blobs.map Prod.fst).Nodup

theorem yields_package : Yields Package.parse PackageOk := by
  unfold Package.parse
  refine Yields.bind fun _ => Yields.bind fun pad => ?_
  split
  · exact Yields.fail
  refine Yields.untilEnd8 _ (fun pkg h => ?_) (by simp [PackageOk, Package.empty])
  obtain ⟨h0, h1, h2, h3, h4, h5, h6⟩ := h
  unfold Package.parseElement
  refine Yields.bind fun _ => Yields.bind fun id => Yields.bind fun _ => Yields.bind fun t => ?_
  split
  · refine Yields.bind' yields_index fun x hx => Yields.pure ⟨fun i si hi => ?_, Map.nodup_insert _ _ _ h1, h2, h3, h4, h5, h6⟩
    rcases Map.mem_insert hi with hi | hi
    · exact h0 i si hi
    · cases hi; exact hx
  · exact Yields.bind fun x => Yields.pure ⟨h0, h1, Map.nodup_insert _ _ _ h2, h3, h4, h5, h6⟩
  · exact Yields.bind fun x => Yields.pure ⟨h0, h1, h2, Map.nodup_insert _ _ _ h3, h4, h5, h6⟩
  · exact Yields.bind fun x => Yields.pure ⟨h0, h1, h2, h3, Map.nodup_insert _ _ _ h4, h5, h6⟩
  · exact Yields.bind fun x => Yields.pure ⟨h0, h1, h2, h3, h4, Map.nodup_insert _ _ _ h5, h6⟩
  · exact Yields.bind fun x => Yields.pure ⟨h0, h1, h2, h3, h4, h5, h6⟩
  · exact Yields.bind fun x => Yields.pure ⟨h0, h1, h2, h3, h4, h5, Map.nodup_insert _ _ _ h6⟩
  · exact Yields.fail

theorem yields_legacy (a b c d : Guid) :
    Yields (Packaging.parseLegacy a b c d) fun p => PackageOk p.package := by
  unfold Packaging.parseLegacy
  refine Yields.bind fun pad => ?_
  split
  · exact Yields.fail
  refine Yields.bind fun _ => Yields.bind fun _ => Yields.bind fun _ => ?_
  exact Yields.bind' yields_package fun x hx => Yields.bind fun _ => Yields.pure hx

theorem yields_packaging : Yields Packaging.parse fun p => PackageOk p.package := by
  unfold Packaging.parse
  refine Yields.bind fun start => Yields.bind fun a => Yields.bind fun b => Yields.bind fun c =>
    Yields.bind fun d => ?_
  split
  · exact yields_legacy _ _ _ _
  split
  · exact Yields.fail
  split
  · exact yields_legacy _ _ _ _
  unfold Packaging.parsePackaging Packaging.parseEmbedded
  exact Yields.bind fun _ => Yields.bind fun _ => Yields.bind fun _ => Yields.bind fun _ =>
    Yields.bind fun _ => Yields.bind fun _ => yields_legacy _ _ _ _

end OneNote
