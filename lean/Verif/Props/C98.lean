/-
C98: The number or bullet of a list item has the stored format.
-/
import Verif.Spec.Tags
import Verif.Spec.SampleFile
import Verif.Lemmas.ListFormat
import Verif.Lemmas.Leaves
import Verif.Lemmas.Terminates
import Verif.Props.C43

namespace OneNote

open Spec Spec.Document Spec.Fields Spec.Objects Spec.Lists Spec.Tags Spec.Shown Lists

/-- An object has at most one stored format. -/
theorem C98_unique (o : Object) (a b : Text) (ha : StoredFormat o a) (hb : StoredFormat o b) : a = b := by
  obtain ⟨n, us, h1, _, h2⟩ := ha
  obtain ⟨m, vs, h3, _, h4⟩ := hb
  obtain ⟨rfl, rfl⟩ := units_unique h1 h3
  exact text_unique (h2.symm.trans h4)

/-! ### Formats that are not the stored ones -/

/-- A section file with a list item whose format has the stored length `n` and the units `us`. -/
private def file (n : Nat) (us : List Nat) : Bytes :=
  sectionFile none [3001] [outlineW 3001 [3002], outlineElementW 3002 [] [] [3003],
    objectW 3003 .numberListNode
      [(.lastModifiedTime, .u32 0), (.numberListFormat, .vec ((n :: us).flatMap (leBytes 2)))] []]

/-- A list format that shows the text. -/
private def showing (t : Text) : ListFormat :=
  { listFont := none, listRestart := none, listFormat := t, bold := false, italic := false
    font := none, fontSize := none, fontColor := none }

private def lists (s : Section) : List ListFormat :=
  s.pageSeries.flatMap fun series => series.pages.flatMap fun p => p.contents.flatMap fun
    | .outline o => o.items.flatMap fun
      | .element e => e.listContents
      | _ => []
    | _ => []

private theorem lists_shown {s : Section} {l : ListFormat} (h : l ∈ lists s) : ListOf l s := by
  obtain ⟨series, hs, h⟩ := List.mem_flatMap.1 h
  obtain ⟨p, hp, h⟩ := List.mem_flatMap.1 h
  obtain ⟨c, hc, h⟩ := List.mem_flatMap.1 h
  refine ⟨p, ⟨series, hs, hp⟩, ?_⟩
  cases c with
  | outline o =>
    obtain ⟨i, hi, h⟩ := List.mem_flatMap.1 h
    cases i with
    | group g => cases h
    | element e => exact ⟨o, .inl hc, _, hi, .element (.here h)⟩
  | _ => cases h

private structure Found where
  s : Section
  store : Store
  space : ObjectSpace
  o : Object
  l : ListFormat

private def found (data : Bytes) : Option Found := do
  let s ← (parseSectionBuffer 2 Order.id data []).toOption
  let store ← (readStore Order.id data).toOption
  let space ← store.objectSpace pageCell
  let o ← space.getObject (sx 3003)
  let l ← (parseList space (sx 3003)).toOption
  some ⟨s, store, space, o, l⟩

private def stored (o : Object) : Option Bytes :=
  match o.props.properties.get Word.numberListFormat with
  | some (.vec d) => some d
  | _ => none

private theorem stored_units {o : Object} {n : Nat} {us : List Nat} (hb : ∀ u ∈ n :: us, u < 2 ^ 16)
    (h : stored o = some ((n :: us).flatMap (leBytes 2))) : FormatUnits o n us := by
  unfold stored at h
  split at h
  · rename_i hv
    cases h
    exact ⟨_, hv, [], by rw [List.append_nil], by decide, hb⟩
  · cases h

private def summary (f : Found) := (decide (lists f.s = [f.l]), stored f.o, f.l)

private theorem facts {data : Bytes} {n : Nat} {us : List Nat} {text : Text}
    (hb : ∀ u ∈ n :: us, u < 2 ^ 16)
    (h : (found data).map summary = some (true, some ((n :: us).flatMap (leBytes 2)), showing text)) :
    ∃ s store space o l, parseSectionBuffer 2 Order.id data [] = .ok s ∧ ListOf l s ∧
    readStore Order.id data = .ok store ∧ StoredIn store space (sx 3003) o ∧
    ListIs space (sx 3003) l ∧ FormatUnits o n us ∧ l = showing text := by
  obtain ⟨f, hf, h⟩ := Option.map_eq_some_iff.1 h
  simp only [summary, Prod.mk.injEq, decide_eq_true_eq] at h
  obtain ⟨h1, h2, h3⟩ := h
  unfold found at hf
  obtain ⟨s, e1, hf⟩ := Option.bind_eq_some_iff.1 hf
  obtain ⟨store, e2, hf⟩ := Option.bind_eq_some_iff.1 hf
  obtain ⟨space, e3, hf⟩ := Option.bind_eq_some_iff.1 hf
  obtain ⟨o, e4, hf⟩ := Option.bind_eq_some_iff.1 hf
  obtain ⟨l, e5, hf⟩ := Option.bind_eq_some_iff.1 hf
  injection hf with hf
  subst hf
  exact ⟨s, store, space, o, l, toOption_some e1, lists_shown (by rw [h1]; exact .head _),
    toOption_some e2, ⟨⟨pageCell, e3⟩, e4⟩, list_iff.1 (toOption_some e5), stored_units hb h2, h3⟩

/-- **Refuted**: a list item that stores the format `#.` and a unit that does not belong to it is shown
with the format `#.x`. -/
theorem C98_length_refuted : ∃ data s l store space id o,
    parseSectionBuffer 2 Order.id data [] = .ok s ∧ ListOf l s ∧
    readStore Order.id data = .ok store ∧ StoredIn store space id o ∧ ListIs space id l ∧
    StoredFormat o ['#', '.'] ∧ l.listFormat = ['#', '.', 'x'] ∧ ¬ StoredFormat o l.listFormat := by
  obtain ⟨s, store, space, o, l, e1, e2, e3, e4, e5, e6, e7⟩ :=
    facts (data := file 2 [0x23, 0x2E, 0x78]) (n := 2) (us := [0x23, 0x2E, 0x78])
      (text := ['#', '.', 'x']) (by decide) (by decide +kernel)
  have hs : StoredFormat o ['#', '.'] := ⟨_, _, e6, by decide, by decide⟩
  refine ⟨_, s, l, store, space, _, o, e1, e2, e3, e4, e5, hs, congrArg (·.listFormat) e7,
    fun h => ?_⟩
  have := C98_unique o _ _ h hs
  rw [e7] at this
  exact absurd this (by decide)

/-- **Refuted**: a list item whose stored units are not a text, one half of a pair of surrogates, is
shown like one that stores U+FFFD. -/
theorem C98_surrogate_refuted : ∃ data data' s s' l store space id o,
    parseSectionBuffer 2 Order.id data [] = .ok s ∧ ListOf l s ∧
    readStore Order.id data = .ok store ∧ StoredIn store space id o ∧ ListIs space id l ∧
    FormatUnits o 1 [0xD800] ∧ (∀ t, ¬ StoredFormat o t) ∧
    parseSectionBuffer 2 Order.id data' [] = .ok s' ∧ ListOf l s' ∧
    ∃ store' space' id' o', readStore Order.id data' = .ok store' ∧ StoredIn store' space' id' o' ∧
      ListIs space' id' l ∧ StoredFormat o' [Char.ofNat 0xFFFD] := by
  obtain ⟨s, store, space, o, l, e1, e2, e3, e4, e5, e6, e7⟩ :=
    facts (data := file 1 [0xD800]) (n := 1) (us := [0xD800])
      (text := [Char.ofNat 0xFFFD]) (by decide) (by decide +kernel)
  obtain ⟨s', store', space', o', l', f1, f2, f3, f4, f5, f6, f7⟩ :=
    facts (data := file 1 [0xFFFD]) (n := 1) (us := [0xFFFD])
      (text := [Char.ofNat 0xFFFD]) (by decide) (by decide +kernel)
  obtain rfl := f7.trans e7.symm
  refine ⟨_, _, s, s', l', store, space, _, o, e1, e2, e3, e4, e5, e6, ?_, f1, f2, store', space', _, o',
    f3, f4, f5, ⟨_, _, f6, by decide, by decide⟩⟩
  rintro t ⟨n, us, h1, _, h2⟩
  obtain ⟨rfl, rfl⟩ := units_unique h1 e6
  have := decodeUtf16_text t
  rw [← h2] at this
  exact absurd this (by rw [show decodeUtf16 _ = none from by decide]; exact nofun)

/-! ### What holds -/

/-- **What holds**: every list format that is shown is stored by an object of the file, and shows all
stored units after the length. If the length counts all of them and they are the UTF-16 of a text, that
text is shown, and it is the stored format. -/
theorem C98_partial (fuel : Nat) (ord : Order) (data : Bytes) (name : Text) (s : Section)
    (h : parseSectionBuffer fuel ord data name = .ok s) (l : ListFormat) (hl : ListOf l s) :
    ∃ store space id o n us, readStore ord data = .ok store ∧ StoredIn store space id o ∧
      ListIs space id l ∧ FormatUnits o n us ∧ Value.Lossy us l.listFormat ∧
      ∀ t, us = t.flatMap utf16Units →
        l.listFormat = t ∧ (n = us.length → StoredFormat o l.listFormat) := by
  obtain ⟨store, hr, -, hs⟩ := (C43_buffer ord data name s).1 ⟨fuel, h⟩
  obtain ⟨cell, space, id, hsp, hi⟩ := list_object hs hl
  obtain ⟨o, node, ho, hn, rfl⟩ := _root_.id hi
  obtain ⟨v, hv, n, us, hu, hloss⟩ := hn.listFormat
  refine ⟨store, space, id, o, n, us, hr, ⟨⟨cell, hsp⟩, ho⟩, hi, ⟨v, hv, hu⟩, hloss, ?_⟩
  rintro t rfl
  have ht : node.listFormat = t :=
    (lossy_sound hloss).symm.trans (lossy_sound (lossy_text t))
  exact ⟨ht, fun hl => ⟨n, _, ⟨v, hv, hu⟩, by omega, by rw [hl, List.take_length, ht]⟩⟩

/-- A list item with the stored format `#.`, which is shown. -/
example : ∃ data s l, parseSectionBuffer 2 Order.id data [] = .ok s ∧ ListOf l s ∧
    l.listFormat = ['#', '.'] := by
  obtain ⟨s, store, space, o, l, e1, e2, e3, e4, e5, e6, e7⟩ :=
    facts (data := file 2 [0x23, 0x2E]) (n := 2) (us := [0x23, 0x2E])
      (text := ['#', '.']) (by decide) (by decide +kernel)
  exact ⟨_, s, l, e1, e2, congrArg (·.listFormat) e7⟩

#print axioms C98_unique
#print axioms C98_length_refuted
#print axioms C98_surrogate_refuted
#print axioms C98_partial

end OneNote
