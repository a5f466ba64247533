/-
C07: The container parser terminates on every input, with a number of loop
iterations bounded by the input length.
-/
import Verif.Lemmas.Good
import Verif.Spec.Loop

namespace OneNote

open Spec

theorem loopRun_of_eats {σ : Type} (ty : ObjectType) (body : σ → P σ) (he : ∀ a, Eats (body a))
    (n : Nat) (acc : σ) (s : Bytes) (hn : s.length < n) :
    ∃ k, k ≤ s.length ∧ LoopRun ty body acc s k (loopUntilEnd8 ty body n acc s) := by
  induction n generalizing acc s with
  | zero => omega
  | succ n ih =>
    unfold loopUntilEnd8
    cases hh : ObjectHeader.hasEnd8 ty s with
    | error e =>
      rw [P.bind_err hh]
      exact ⟨0, by omega, .headErr _ _ _ hh⟩
    | ok w =>
      obtain ⟨b, s'⟩ := w
      rw [P.bind_ok hh]
      have hs : s' = s ∧ 0 < s.length := by
        unfold ObjectHeader.hasEnd8 at hh
        cases s with
        | nil => cases hh
        | cons x t =>
          rw [P.bind_ok (peekU8_cons _ _)] at hh
          cases hh
          exact ⟨rfl, by simp⟩
      obtain ⟨rfl, hpos⟩ := hs
      cases b with
      | true => exact ⟨0, by omega, .done _ _ _ hh⟩
      | false =>
        simp only [Bool.false_eq_true, if_false]
        cases hb : body acc s' with
        | error e =>
          rw [P.bind_err hb]
          exact ⟨1, by omega, .bodyErr _ _ _ _ hh hb⟩
        | ok w =>
          obtain ⟨acc', s''⟩ := w
          rw [P.bind_ok hb]
          have hl := he acc _ _ _ hb
          obtain ⟨k, hk, hr⟩ := ih acc' s'' (by omega)
          exact ⟨k + 1, by omega, .step _ _ _ _ _ _ _ hh hb hr⟩

/-- The meaning of a loop is a single result: `LoopRun` is deterministic. -/
theorem C07_loop_deterministic {σ : Type} (ty : ObjectType) (body : σ → P σ) (acc : σ) (s : Bytes)
    (k k' : Nat) (res res' : Res (σ × Bytes)) (h : LoopRun ty body acc s k res)
    (h' : LoopRun ty body acc s k' res') : k = k' ∧ res = res' := by
  induction h generalizing k' res' with
  | headErr acc s e hh =>
    cases h' with
    | headErr _ _ e' hh' => rw [hh] at hh'; cases hh'; exact ⟨rfl, rfl⟩
    | done _ _ _ hh' => rw [hh] at hh'; cases hh'
    | bodyErr _ _ _ _ hh' => rw [hh] at hh'; cases hh'
    | step _ _ _ _ _ _ _ hh' => rw [hh] at hh'; cases hh'
  | done acc s s' hh =>
    cases h' with
    | headErr _ _ e' hh' => rw [hh] at hh'; cases hh'
    | done _ _ _ hh' => rw [hh] at hh'; cases hh'; exact ⟨rfl, rfl⟩
    | bodyErr _ _ _ _ hh' => rw [hh] at hh'; cases hh'
    | step _ _ _ _ _ _ _ hh' => rw [hh] at hh'; cases hh'
  | bodyErr acc s s' e hh hb =>
    cases h' with
    | headErr _ _ e' hh' => rw [hh] at hh'; cases hh'
    | done _ _ _ hh' => rw [hh] at hh'; cases hh'
    | bodyErr _ _ _ _ hh' hb' =>
      rw [hh] at hh'; cases hh'
      rw [hb] at hb'; cases hb'
      exact ⟨rfl, rfl⟩
    | step _ _ _ _ _ _ _ hh' hb' => rw [hh] at hh'; cases hh'; rw [hb] at hb'; cases hb'
  | step acc s s' acc' s'' k res hh hb hr ih =>
    cases h' with
    | headErr _ _ e' hh' => rw [hh] at hh'; cases hh'
    | done _ _ _ hh' => rw [hh] at hh'; cases hh'
    | bodyErr _ _ _ _ hh' hb' => rw [hh] at hh'; cases hh'; rw [hb] at hb'; cases hb'
    | step _ _ _ _ _ _ _ hh' hb' hr' =>
      rw [hh] at hh'; cases hh'
      rw [hb] at hb'; cases hb'
      obtain ⟨rfl, rfl⟩ := ih _ _ hr'
      exact ⟨rfl, rfl⟩

/-- A loop of the container parser: for every accumulator and every input the (fuel-free) loop
ends after at most as many iterations as there are unread bytes, and the model's bounded loop
computes exactly its result. -/
def LoopTerminates {σ : Type} (ty : ObjectType) (body : σ → P σ) : Prop :=
  ∀ acc s, ∃ k, k ≤ s.length ∧
    LoopRun ty body acc s k (loopUntilEnd8 ty body (s.length + 1) acc s)

/-- All seven header-driven loops of the container parser terminate within the input length. -/
theorem C07_loops_terminate :
    LoopTerminates .dataElementPackage Package.parseElement ∧
    LoopTerminates .dataElement StorageIndex.parseItem ∧
    LoopTerminates .dataElement StorageManifest.parseItem ∧
    LoopTerminates .dataElement RevisionManifest.parseItem ∧
    LoopTerminates .objectGroupDeclaration ObjectGroup.parseDeclaration ∧
    LoopTerminates .objectGroupMetadataBlock ObjectGroup.parseMetadataItem ∧
    LoopTerminates .objectGroupData ObjectGroup.parseDataItem :=
  ⟨fun _ _ => loopRun_of_eats _ _ Eats.element _ _ _ (by omega),
   fun _ _ => loopRun_of_eats _ _ Eats.storageIndexItem _ _ _ (by omega),
   fun _ _ => loopRun_of_eats _ _ Eats.storageManifestItem _ _ _ (by omega),
   fun _ _ => loopRun_of_eats _ _ Eats.revisionManifestItem _ _ _ (by omega),
   fun _ _ => loopRun_of_eats _ _ Eats.declaration _ _ _ (by omega),
   fun _ _ => loopRun_of_eats _ _ Eats.metadataItem _ _ _ (by omega),
   fun _ _ => loopRun_of_eats _ _ Eats.dataItem _ _ _ (by omega)⟩

/-- On every byte string the whole container parser returns a value or one of the code's own
errors; it never runs out of loop budget (and never panics). -/
theorem C07_container_terminates (s : Bytes) :
    Packaging.parse s ≠ .error .fuel ∧ Packaging.parse s ≠ .error .panic :=
  ⟨Good.packaging.noFuel s, Good.packaging.noPanic s⟩

/-- A count-driven loop (`for _ in 0..count`) over extended GUIDs succeeds only if the count is at
most the number of bytes consumed, so a huge declared count also stops early. -/
theorem C07_count_bounded (n : Nat) (s rest : Bytes) (l : List ExGuid)
    (h : replicateP ExGuid.parse n s = .ok (l, rest)) : n + rest.length ≤ s.length := by
  induction n generalizing s l with
  | zero => cases h; omega
  | succ n ih =>
    unfold replicateP at h
    rw [P.bind_eq_ok] at h
    obtain ⟨a, r1, h1, h2⟩ := h
    rw [P.bind_eq_ok] at h2
    obtain ⟨as, r2, h2, h3⟩ := h2
    cases h3
    have := Eats.exguid _ _ _ h1
    have := ih _ _ h2
    omega

/-- A package with one cell manifest element: the element loop runs once. -/
example : ∃ k, k ≤ 12 ∧ LoopRun .dataElementPackage Package.parseElement Package.empty
    [0x0C, 0x56, 0x00, 0x00, 0x07, 0x58, 0x00, 0x00, 0x05, 0x55, 0x00, 0x00] k
    (.ok ({ Package.empty with cellManifests := [(ExGuid.nil, ExGuid.nil)] }, [0x55, 0, 0])) :=
  C07_loops_terminate.1 Package.empty
    [0x0C, 0x56, 0x00, 0x00, 0x07, 0x58, 0x00, 0x00, 0x05, 0x55, 0x00, 0x00]

#print axioms C07_loop_deterministic
#print axioms C07_loops_terminate
#print axioms C07_container_terminates
#print axioms C07_count_bounded

end OneNote
