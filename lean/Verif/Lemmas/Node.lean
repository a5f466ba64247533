/-
Reading a node: what a successful sequence of steps says about each step.
-/
import Verif.Model.Nodes
import Verif.Lemmas.Bits

namespace OneNote

theorem Res.bind_ok {x : Res α} {f : α → Res β} {b : β} (h : (x >>= f) = .ok b) :
    ∃ a, x = .ok a ∧ f a = .ok b := by
  cases x with
  | ok a => exact ⟨a, rfl, h⟩
  | error e => cases h

theorem Res.bind_ok' {x : Res α} {f : α → Res β} {b : β} (h : Except.bind x f = .ok b) :
    ∃ a, x = .ok a ∧ f a = .ok b := Res.bind_ok h

theorem required_ok {x : Option α} {a : α} (h : required x = .ok a) : x = some a := by
  cases x with
  | none => cases h
  | some b => cases h; rfl

theorem optM_ok {f : α → Res β} {x : Option α} {y : Option β} (h : optM f x = .ok y) :
    (x = none ∧ y = none) ∨ ∃ a b, x = some a ∧ y = some b ∧ f a = .ok b := by
  cases x with
  | none => cases h; exact .inl ⟨rfl, rfl⟩
  | some a =>
    simp only [optM] at h
    cases hf : f a with
    | ok b => rw [hf] at h; cases h; exact .inr ⟨a, b, rfl, rfl, hf⟩
    | error e => rw [hf] at h; cases h

theorem propAs_ok {to : PropertyValue → Option α} {t : PropertyType} {o : Object} {x : Option α}
    (h : propAs to t o = .ok x) :
    (o.props.get t = none ∧ x = none) ∨
      ∃ v a, o.props.get t = some v ∧ to v = some a ∧ x = some a := by
  unfold propAs at h
  split at h
  · rename_i hn; cases h; exact .inl ⟨hn, rfl⟩
  · rename_i v hv
    split at h
    · rename_i a ha; cases h; exact .inr ⟨v, a, hv, ha, rfl⟩
    · cases h

theorem toU16_some {v : PropertyValue} {n : Nat} (h : v.toU16 = some n) : v = .u16 n := by
  cases v <;> simp_all [PropertyValue.toU16]

theorem toU32_some {v : PropertyValue} {n : Nat} (h : v.toU32 = some n) : v = .u32 n := by
  cases v <;> simp_all [PropertyValue.toU32]

theorem toU8_some {v : PropertyValue} {n : Nat} (h : v.toU8 = some n) : v = .u8 n := by
  cases v <;> simp_all [PropertyValue.toU8]

theorem toU64_some {v : PropertyValue} {n : Nat} (h : v.toU64 = some n) : v = .u64 n := by
  cases v <;> simp_all [PropertyValue.toU64]

theorem toBool_some {v : PropertyValue} {b : Bool} (h : v.toBool = some b) : v = .bool b := by
  cases v <;> simp_all [PropertyValue.toBool]

theorem toVec_some {v : PropertyValue} {b : Bytes} (h : v.toVec = some b) : v = .vec b := by
  cases v <;> simp_all [PropertyValue.toVec]

end OneNote
