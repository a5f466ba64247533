/-
What is read back from the fields of written documents.
-/
import Verif.Lemmas.WriteNode
import Verif.Lemmas.WriteValues

namespace OneNote.Writer

open Spec Spec.Writer Spec.Storable Spec.Fields Spec.Document Spec.Objects

/-- Find a field by its word. -/
macro "field" : tactic =>
  `(tactic| repeat (first | exact List.mem_cons_self | apply List.mem_cons_of_mem))

/-- The words of the fields are different, or a word is not among them. -/
macro "words" : tactic =>
  `(tactic| (simp only [List.map_cons, List.map_nil]; decide +kernel))

@[simp] theorem ok_val (v : Option Scalar) : FieldOk (.val v) := trivial
@[simp] theorem ok_one (t : Option Tree) : FieldOk (.one t) := trivial
@[simp] theorem ok_many (ts : List Tree) : FieldOk (.many ts) := trivial
@[simp] theorem ok_cells (cs : List CellId) : FieldOk (.cells cs) := trivial

theorem zero8 : Bits 8 0 := by decide
theorem zero32 : Bits 32 0 := by decide
theorem zero64 : Bits 64 0 := by decide

section
variable {α : Type} {ps : PropertySet} {w : Nat} {R : Reading α} {enc : α → Scalar}

/-- An optional field. -/
theorem opt {x : Option α} {P : α → Prop}
    (h : ps.get w = (x.map enc).map fun s => s.val.value) (hr : ∀ {a}, P a → R (enc a).val.value a)
    (ok : Opt P x) : Optional ps w R x := by
  cases x with
  | none => exact .inl ⟨h, rfl⟩
  | some a => exact .inr ⟨_, a, h, hr (ok a rfl), rfl⟩

/-- An optional field, all values of which can be stored. -/
theorem opt' {x : Option α} (h : ps.get w = (x.map enc).map fun s => s.val.value)
    (hr : ∀ a, R (enc a).val.value a) : Optional ps w R x := by
  cases x with
  | none => exact .inl ⟨h, rfl⟩
  | some a => exact .inr ⟨_, a, h, hr a, rfl⟩

theorem req {s : Scalar} {a : α} (h : ps.get w = (some s).map fun s => s.val.value)
    (hr : R s.val.value a) : Required ps w R a := ⟨_, h, hr⟩

theorem dflt {s : Scalar} {a d : α} (h : ps.get w = (some s).map fun s => s.val.value)
    (hr : R s.val.value a) : Default ps w R d a := .inr ⟨_, h, hr⟩

theorem gone (h : ps.get w = none) : Optional ps w R none := .inl ⟨h, rfl⟩

theorem gone' {d : α} (h : ps.get w = none) : Default ps w R d d := .inl ⟨h, rfl⟩

end

theorem layout_field {ps : PropertySet} {w : Nat} {a : Option LayoutAlignment}
    (h : ps.get w = (a.map Scalar.layout).map fun s => s.val.value) :
    Default ps w Value.layout none a := by
  cases a with
  | none => exact .inl ⟨h, rfl⟩
  | some a => exact .inr ⟨_, h, reads_layout a⟩

/-! ### Nested property sets -/

theorem inner_keys {fields : List (Nat × Option Val)} :
    ((inner fields).map fun e => key e.1).Sublist (fields.map fun f => key f.1) := by
  induction fields with
  | nil => exact List.Sublist.refl _
  | cons f fields ih =>
    unfold inner at ih ⊢
    rw [List.filterMap_cons]
    cases hf : f.2 with
    | none => exact List.Sublist.cons _ ih
    | some v => exact List.Sublist.cons_cons _ ih

theorem set_keys (s : List (Nat × Val)) :
    (s.map fun e => (key e.1, e.2.value)).map Prod.fst = s.map fun e => key e.1 := by
  rw [List.map_map]
  rfl

theorem get_inner {fields : List (Nat × Option Val)} (hn : (fields.map fun f => key f.1).Nodup)
    {w : Nat} {v : Option Val} (h : (w, v) ∈ fields) :
    (setValue (inner fields)).get w = v.map Val.value := by
  have hk : (((inner fields).map fun e => (key e.1, e.2.value)).map Prod.fst).Nodup := by
    rw [set_keys]
    exact inner_keys.nodup hn
  cases v with
  | some v =>
    refine get_setOf hk (List.mem_map.2 ⟨(w, v), ?_, rfl⟩)
    exact List.mem_filterMap.2 ⟨_, h, rfl⟩
  | none =>
    refine get_setOf_none fun hm => ?_
    rw [set_keys] at hm
    obtain ⟨pre, post, rfl⟩ := List.append_of_mem h
    have he : inner (pre ++ (w, none) :: post) = inner (pre ++ post) := by
      unfold inner
      rw [List.filterMap_append, List.filterMap_append]
      rfl
    rw [he] at hm
    have hm := inner_keys.subset hm
    rw [List.map_append, List.mem_append] at hm
    rw [List.map_append, List.nodup_append, List.map_cons, List.nodup_cons] at hn
    rcases hm with hm | hm
    · exact hn.2.2 _ hm _ List.mem_cons_self rfl
    · exact hn.2.1.1 hm

/-- How many identifiers of a stream belong to a value. -/
def Val.ids (s : Stream) (v : Val) : Nat := idsCounted s v.value

theorem idsCountedSet_eq (s : Stream) (ps : PropertySet) :
    idsCountedSet s ps = (ps.map fun e => idsCounted s e.2.2).sum := by
  induction ps with
  | nil => rfl
  | cons e ps ih =>
    obtain ⟨a, b, c⟩ := e
    rw [idsCountedSet, ih]
    rfl

theorem counted_set {l : List (Nat × PropertyValue)} (hn : (l.map Prod.fst).Nodup) (s : Stream) :
    idsCountedSet s (setOf l) = (l.map fun e => idsCounted s e.2).sum := by
  rw [idsCountedSet_eq, setOf_distinct hn, List.map_map]
  have h2 : ((fun (e : Nat × (Nat × PropertyValue)) => idsCounted s e.2.2) ∘
      fun (e : (Nat × PropertyValue) × Nat) => (e.1.1, (e.2, e.1.2))) =
      (fun e : Nat × PropertyValue => idsCounted s e.2) ∘ Prod.fst := rfl
  rw [h2, ← List.map_map, List.zipIdx_map_fst]

/-- How many identifiers of a stream belong to the fields of a nested set. -/
theorem counted_inner {fields : List (Nat × Option Val)} (hn : (fields.map fun f => key f.1).Nodup)
    (s : Stream) : idsCountedSet s (setValue (inner fields)) =
      (fields.map fun f => (f.2.map fun v => idsCounted s v.value).getD 0).sum := by
  unfold setValue
  rw [counted_set (by rw [set_keys]; exact inner_keys.nodup hn)]
  clear hn
  induction fields with
  | nil => rfl
  | cons f fields ih =>
    unfold inner at ih ⊢
    rw [List.filterMap_cons, List.map_cons, List.sum_cons, ← ih]
    cases f.2 with
    | none => exact (Nat.zero_add _).symm
    | some v => rfl

end OneNote.Writer
