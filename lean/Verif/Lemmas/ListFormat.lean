/-
List formats that are shown.
-/
import Verif.Lemmas.Shown
import Verif.Lemmas.Utf16
import Verif.Lemmas.Readings3
import Verif.Spec.ListFormat

namespace OneNote.Lists

open Spec Spec.StoreContents Spec.Document Spec.Shown Spec.Fields Spec.Lists

mutual

theorem item_list {space : ObjectSpace} {l : ListFormat} {i : OutlineItem} (h : Spec.Lists.InItem l i) :
    ∀ {id : ExGuid}, ItemIs space id i → ∃ id', ListIs space id' l := by
  intro id hi
  match h with
  | .group hm hin =>
    cases hi with
    | group _ _ he =>
      obtain ⟨_, _, hx⟩ := each_mem he hm
      exact item_list hin hx
  | .element hin =>
    cases hi with
    | element he => exact element_list hin he

theorem element_list {space : ObjectSpace} {l : ListFormat} {e : OutlineElement}
    (h : Spec.Lists.InElement l e) :
    ∀ {id : ExGuid}, ElementIs space id e → ∃ id', ListIs space id' l := by
  intro id hi
  match h with
  | .here hm =>
    cases hi with
    | mk _ _ _ _ hl =>
      obtain ⟨x, _, hx⟩ := each_mem hl hm
      exact ⟨x, hx⟩
  | .child hm hin =>
    cases hi with
    | mk _ _ hc _ _ =>
      obtain ⟨_, _, hx⟩ := each_mem hc hm
      exact item_list hin hx
  | .cell ht hr hk he hin =>
    cases hi with
    | mk _ _ _ hc _ =>
      obtain ⟨_, _, hx⟩ := each_mem hc ht
      cases hx with
      | table _ _ hrows _ =>
        obtain ⟨_, _, hx⟩ := each_mem hrows hr
        cases hx with
        | mk _ _ hcells =>
          obtain ⟨_, _, hx⟩ := each_mem hcells hk
          cases hx with
          | mk _ _ hes =>
            obtain ⟨_, _, hx⟩ := each_mem hes he
            exact element_list hin hx

end

theorem list_object {store : Store} {name : Text} {s : Section} (hs : SectionIs store name s)
    {l : ListFormat} (h : ListOf l s) :
    ∃ cell space id, store.objectSpace cell = some space ∧ ListIs space id l := by
  obtain ⟨p, hp, o, ho, i, hi, hl⟩ := h
  obtain ⟨cell, space, hsp, hpage⟩ := page_space hs hp
  obtain ⟨id, _, _, items, _, _, hitems, rfl⟩ := outline_object hpage ho
  obtain ⟨x, _, hx⟩ := each_mem hitems hi
  obtain ⟨id', h'⟩ := item_list hl hx
  exact ⟨cell, space, id', hsp, h'⟩

/-- The stored units are determined. -/
theorem units_unique {o : Object} {n m : Nat} {us vs : List Nat} (h : FormatUnits o n us)
    (h' : FormatUnits o m vs) : n = m ∧ us = vs := by
  obtain ⟨v, hv, t, rfl, ht, hb⟩ := h
  obtain ⟨w, hw, t', rfl, ht', hb'⟩ := h'
  have hd := PropertyValue.vec.inj (Option.some.inj (hv.symm.trans hw))
  have key : ∀ (ns : List Nat) (tail : Bytes), tail.length < 2 → (∀ n ∈ ns, n < 2 ^ 16) →
      chunks2 (ns.flatMap (leBytes 2) ++ tail) = ns := by
    intro ns tail ht hn
    have := chunks2_units ns hn tail
    unfold unitBytes at this
    rw [this, chunks2_short (by omega), List.append_nil]
  have h1 := key _ _ ht hb
  rw [hd, key _ _ ht' hb'] at h1
  cases h1
  exact ⟨rfl, rfl⟩

theorem text_unique {a b : Text} (h : a.flatMap utf16Units = b.flatMap utf16Units) : a = b :=
  Option.some.inj ((decodeUtf16_text a).symm.trans ((congrArg decodeUtf16 h).trans (decodeUtf16_text b)))

theorem lossy_text (t : Text) : Value.Lossy (t.flatMap utf16Units) t := by
  induction t with
  | nil => exact .nil
  | cons c t ih => exact .char c ih

end OneNote.Lists
