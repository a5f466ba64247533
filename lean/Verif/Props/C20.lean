/-
C20: Identifier mapping lookup.

`es` and `ss` are the entries recorded for objects and for object spaces, in file order.
-/
import Verif.Lemmas.MappingTable

namespace OneNote

open MappingTable

/-- The compact id was recorded once, at position `j`: that entry is returned, whatever position is
asked for. -/
theorem C20_once (es : List (CompactId × ExGuid)) (ss : List (CompactId × CellId))
    (cid : CompactId) (i j : Nat) :
    (∀ x, es[j]? = some (cid, x) → (∀ k y, es[k]? = some (cid, y) → k = j) →
      (fromEntries es ss).getObject i cid = some x) ∧
    (∀ x, ss[j]? = some (cid, x) → (∀ k y, ss[k]? = some (cid, y) → k = j) →
      (fromEntries es ss).getObjectSpace i cid = some x) :=
  ⟨fun _ h hu => lookup_once i h hu, fun _ h hu => lookup_once i h hu⟩

/-- The compact id was recorded at two different positions (at least): the entry recorded at the
asked position is returned, and nothing if that position holds another compact id or none. -/
theorem C20_several (es : List (CompactId × ExGuid)) (ss : List (CompactId × CellId))
    (cid : CompactId) (i j k : Nat) (hne : j ≠ k) :
    (∀ y z, es[j]? = some (cid, y) → es[k]? = some (cid, z) →
      ∀ x, (fromEntries es ss).getObject i cid = some x ↔ es[i]? = some (cid, x)) ∧
    (∀ y z, ss[j]? = some (cid, y) → ss[k]? = some (cid, z) →
      ∀ x, (fromEntries es ss).getObjectSpace i cid = some x ↔ ss[i]? = some (cid, x)) :=
  ⟨fun _ _ hj hk x => lookup_several hj hk hne i x, fun _ _ hj hk x => lookup_several hj hk hne i x⟩

/-- The entry at the asked position is found if it was recorded for the compact id. -/
theorem C20_own_position (es : List (CompactId × ExGuid)) (ss : List (CompactId × CellId))
    (cid : CompactId) (i : Nat) :
    (∀ x, es[i]? = some (cid, x) → (fromEntries es ss).getObject i cid = some x) ∧
    (∀ x, ss[i]? = some (cid, x) → (fromEntries es ss).getObjectSpace i cid = some x) :=
  ⟨fun _ h => lookup_at h, fun _ h => lookup_at h⟩

/-- Nothing is returned for a compact id that was not recorded. -/
theorem C20_absent (es : List (CompactId × ExGuid)) (ss : List (CompactId × CellId))
    (cid : CompactId) (i : Nat) :
    ((∀ x, (cid, x) ∉ es) → (fromEntries es ss).getObject i cid = none) ∧
    ((∀ x, (cid, x) ∉ ss) → (fromEntries es ss).getObjectSpace i cid = none) :=
  ⟨lookup_none i, lookup_none i⟩

/-- What is returned was recorded for that compact id, never for another one. -/
theorem C20_never_foreign (es : List (CompactId × ExGuid)) (ss : List (CompactId × CellId))
    (cid : CompactId) (i : Nat) :
    (∀ x, (fromEntries es ss).getObject i cid = some x → (cid, x) ∈ es) ∧
    (∀ x, (fromEntries es ss).getObjectSpace i cid = some x → (cid, x) ∈ ss) :=
  ⟨fun _ h => lookup_mem h, fun _ h => lookup_mem h⟩

/-- A table with a repeated and a single compact id: all four cases occur. -/
example :
    let a : CompactId := ⟨1, 0⟩
    let b : CompactId := ⟨2, 0⟩
    let x : ExGuid := ⟨Guid.nil, 1⟩
    let y : ExGuid := ⟨Guid.nil, 2⟩
    let z : ExGuid := ⟨Guid.nil, 3⟩
    let t := fromEntries [(a, x), (b, y), (a, z)] []
    t.getObject 0 a = some x ∧ t.getObject 2 a = some z ∧ t.getObject 1 a = none ∧
      t.getObject 7 b = some y ∧ t.getObject 0 ⟨3, 0⟩ = none := by decide +kernel

#print axioms C20_once
#print axioms C20_several
#print axioms C20_own_position
#print axioms C20_absent
#print axioms C20_never_foreign

end OneNote
