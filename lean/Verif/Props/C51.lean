/-
C51: A small file shows a small document.
-/
import Verif.Lemmas.Amount
import Verif.Lemmas.Doubling
import Verif.Lemmas.Unshared

namespace OneNote

open Spec

/-- **Refuted**: a file of a few hundred bytes for each level shows, and so makes the parser build, a
document that doubles with each level. In the file every outline group has the next one as its child
twice; the parser follows each reference anew. -/
theorem C51_doubling_refuted (n : Nat) (hn : n < 2 ^ 31) (name : Text) :
    ∃ data fuel s, data.length ≤ 5000 + 500 * n ∧
      (∀ ord, parseSectionBuffer fuel ord data name = .ok s) ∧ 2 ^ n ≤ itemsShown s := by
  obtain ⟨p, hp, hi, -⟩ := Doubling.page_is n
  obtain ⟨hplain, s, hs, he⟩ := Written.section_written (Doubling.nodup n) (Doubling.good n)
    (Doubling.fitting hn) hp name
  obtain ⟨fuel, hf⟩ := C47_section_complete _ name s hplain hs
  refine ⟨_, fuel, s, Doubling.file_length n, hf, ?_⟩
  rw [itemsShown, he]
  simpa using hi

/-- The document is not even bounded by the thousandth power of the size of the file. -/
theorem C51_power_refuted : ¬ ∀ fuel ord data name s,
    parseSectionBuffer fuel ord data name = .ok s → itemsShown s ≤ data.length ^ 1000 := by
  intro h
  obtain ⟨data, fuel, s, hl, hp, hi⟩ := C51_doubling_refuted 30000 (by decide) ['N']
  have h1 := h fuel Order.id data ['N'] s (hp _)
  have h2 : data.length ^ 1000 ≤ (2 ^ 24) ^ 1000 := Nat.pow_le_pow_left (by omega) 1000
  rw [← Nat.pow_mul] at h2
  have h3 : 2 ^ (24 * 1000) < 2 ^ 30000 := Nat.pow_lt_pow_right (by decide) (by decide)
  exact absurd (Nat.le_trans hi (Nat.le_trans h1 h2)) (Nat.not_le.2 h3)

/-- **What holds**: no single list is longer than the file. This is for every list of page series,
pages, contents, outlines, items, list formats, rows and cells at any depth. What is missing is a
bound on their number. -/
theorem C51_lists_partial (fuel : Nat) (ord : Order) (data : Bytes) (name : Text) (s : Section)
    (h : parseSectionBuffer fuel ord data name = .ok s) (n : Nat) (hl : ListIn n s) :
    n ≤ data.length :=
  Amount.file_few (C47_section_sound fuel ord data name s h) hl

/-- **If no part of a page is referred to twice, the document is small**: a page shows no more titles,
outlines, groups, elements, contents, table rows and cells than the file has bytes, and the section at
most the third power of it. -/
theorem C51_unshared_partial (fuel : Nat) (ord : Order) (data : Bytes) (name : Text) (s : Section)
    (h : parseSectionBuffer fuel ord data name = .ok s) (store : Store)
    (hst : readStore ord data = .ok store)
    (hu : ∀ cell space, store.objectSpace cell = some space → Parts.Unshared space) :
    (∀ p, Shown.PageOf p s → Parts.onPage p ≤ data.length) ∧ Parts.shown s ≤ data.length ^ 3 ∧
      itemsShown s ≤ data.length ^ 3 := by
  have hs : Document.SectionIs store name s := by
    obtain ⟨store', hr, -, hi⟩ := (C43_buffer ord data name s).1 ⟨fuel, h⟩
    rw [hst] at hr
    cases hr
    exact hi
  have h1 : ∀ p, Shown.PageOf p s → Parts.onPage p ≤ data.length := by
    intro p hp
    obtain ⟨cell, space, hc, hi⟩ := page_space hs hp
    exact Unshared.file_parts (readStore_sound hst) hc (hu _ _ hc) hi
  refine ⟨h1, (fun h => ⟨h, Nat.le_trans (Unshared.shown_le s) h⟩) ?_⟩
  have hl := C51_lists_partial fuel ord data name s h
  have h2 : ∀ n ∈ s.pageSeries.map fun series => (series.pages.map Parts.onPage).sum,
      n ≤ data.length * data.length := by
    intro n hn
    obtain ⟨series, hm, rfl⟩ := List.mem_map.1 hn
    have := Unshared.sum_le (l := series.pages.map Parts.onPage) (n := data.length) fun x hx => by
      obtain ⟨p, hp, rfl⟩ := List.mem_map.1 hx
      exact h1 p ⟨series, hm, hp⟩
    rw [List.length_map] at this
    exact Nat.le_trans this (Nat.mul_le_mul_right _ (hl _ (.pages hm rfl)))
  have h3 := Unshared.sum_le h2
  rw [List.length_map] at h3
  refine Nat.le_trans h3 (Nat.le_trans (Nat.mul_le_mul_right _ (hl _ (.series rfl))) ?_)
  rw [Nat.pow_succ, Nat.pow_two, Nat.mul_comm]
  exact Nat.le_refl _

/-- A file of 37 000 bytes shows more than 2^64 outline groups. -/
example : ∃ data fuel s, data.length ≤ 37000 ∧
    (∀ ord, parseSectionBuffer fuel ord data ['N'] = .ok s) ∧ 2 ^ 64 ≤ itemsShown s := by
  obtain ⟨data, fuel, s, hl, hp, hi⟩ := C51_doubling_refuted 64 (by decide) ['N']
  exact ⟨data, fuel, s, hl, hp, hi⟩

/-- A file with an outline with three items. -/
private def objects : List SampleObject :=
  [outlineW 3001 [3002, 3002, 3002], outlineElementW 3002 [] [] []]

example : ∃ data fuel s, parseSectionBuffer fuel Order.id data ['N'] = .ok s ∧ ListIn 3 s := by
  have h : (parseSectionBuffer 2 Order.id (sectionFile none [3001] objects) ['N']).toOption.map
      (fun s => s.pageSeries.map fun x => x.pages.map fun p => p.contents.map fun
        | .outline o => o.items.length
        | _ => 0) = some [[[3]]] := by
    decide +kernel
  obtain ⟨s, hs, he⟩ := Option.map_eq_some_iff.1 h
  refine ⟨_, 2, s, toOption_some hs, ?_⟩
  obtain ⟨x, hx, he⟩ := List.map_eq_singleton_iff.1 he
  obtain ⟨p, hp, he⟩ := List.map_eq_singleton_iff.1 he
  obtain ⟨c, hc, he⟩ := List.map_eq_singleton_iff.1 he
  cases c with
  | outline o =>
    have h1 : x ∈ s.pageSeries := by rw [hx]; exact .head _
    have h2 : p ∈ x.pages := by rw [hp]; exact .head _
    have h3 : .outline o ∈ p.contents := by rw [hc]; exact .head _
    exact .items ⟨x, h1, h2⟩ (.inl h3) he
  | _ => cases he

/-- A page with an outline with two elements, one of which has a child. -/
private def tidy : List SampleObject :=
  [outlineW 3001 [3002, 3003], outlineElementW 3002 [3004] [] [], outlineElementW 3003 [] [] [],
    outlineElementW 3004 [] [] []]

/-- No part of its pages is referred to twice. -/
example : ∃ data fuel store s, parseSectionBuffer fuel Order.id data ['N'] = .ok s ∧
    readStore Order.id data = .ok store ∧
    (∀ cell space, store.objectSpace cell = some space → Parts.Unshared space) ∧
    Parts.shown s = 4 := by
  have h : (parseSectionBuffer 4 Order.id (sectionFile none [3001] tidy) ['N']).toOption.map Parts.shown =
      some 4 := by
    decide +kernel
  have hs : (readStore Order.id (sectionFile none [3001] tidy)).toOption.map (fun store =>
      decide (∀ e ∈ store.objectSpaces, Unshared.Check e.2
        ([2002, 2003, 3001, 3002, 3003, 3004].map sx))) = some true := by
    decide +kernel
  obtain ⟨s, hp, hn⟩ := Option.map_eq_some_iff.1 h
  obtain ⟨store, hr, hc⟩ := Option.map_eq_some_iff.1 hs
  refine ⟨_, _, store, s, toOption_some hp, toOption_some hr, fun cell space h => ?_, hn⟩
  exact Unshared.unshared_of (of_decide_eq_true hc _ (Map.mem_of_get? h))

#print axioms C51_doubling_refuted
#print axioms C51_power_refuted
#print axioms C51_lists_partial
#print axioms C51_unshared_partial

end OneNote
