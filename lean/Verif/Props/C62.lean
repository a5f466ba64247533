/-
C62: A paragraph shows its text.
-/
import Verif.Spec.Paragraph
import Verif.Spec.Tags
import Verif.Spec.Runs
import Verif.Spec.SampleFile
import Verif.Lemmas.Shown
import Verif.Lemmas.Terminates
import Verif.Lemmas.Utf16
import Verif.Props.C43

namespace OneNote

open Spec Spec.Document Spec.Fields Spec.Objects Spec.Paragraph Spec.Tags Spec.Shown

/-- A paragraph has one stored text. -/
theorem C62_unique (o : Object) (a b : Text) (ha : StoredText o a) (hb : StoredText o b) : a = b := by
  rcases ha with ⟨v, hv, ra⟩ | ⟨h0, v, hv, ra⟩ | ⟨h0, h1, rfl⟩ <;>
  rcases hb with ⟨w, hw, rb⟩ | ⟨h0', w, hw, rb⟩ | ⟨h0', h1', rfl⟩
  · rw [hv] at hw
    cases hw
    obtain ⟨ta, rfl, na, ea⟩ := ra
    obtain ⟨tb, hd, nb, eb⟩ := rb
    have hd := PropertyValue.vec.inj hd
    have k1 := ((C31_decode_iff _).1 a).2 ⟨na, ta, rfl, ea⟩
    have k2 := ((C31_decode_iff _).1 b).2 ⟨nb, tb, hd, eb⟩
    rw [k1] at k2
    exact Except.ok.inj k2
  · rw [hv] at h0'
    cases h0'
  · rw [hv] at h0'
    cases h0'
  · rw [hw] at h0
    cases h0
  · rw [hv] at hw
    cases hw
    obtain ⟨d, rfl, rfl⟩ := ra
    obtain ⟨d', hd, rfl⟩ := rb
    rw [PropertyValue.vec.inj hd]
  · rw [hv] at h1'
    cases h1'
  · rw [hw] at h0
    cases h0
  · rw [hw] at h1
    cases h1
  · rfl

/-! ### A text that is lost -/

/-- A section file with a paragraph `ab` with two runs. The second run is a line break between
drawings, if `broken` says so. -/
private def file (broken : Bool) : Bytes :=
  sectionFile none [3001] [outlineW 3001 [3002], outlineElementW 3002 [] [3003] [],
    objectW 3003 .richTextNode
      [(.lastModifiedTime, .u32 0), (.textRunFormatting, .objectIds 2), (.paragraphStyle, .objectId),
       (.textRunIndex, .vec (leBytes 4 1)), (.richEditTextUnicode, stringW ['a', 'b']),
       (.textRunData, .propertyValues 0x44000001 [[], []])] [3005, 3004, 3005],
    objectW 3004 .paragraphStyleObject
      [(.textRunIsEmbeddedObject, .bool broken), (.embeddedObjectType, .u32 0x00020027)],
    objectW 3005 .paragraphStyleObject []]

private def texts (s : Section) : List RichText :=
  s.pageSeries.flatMap fun series => series.pages.flatMap fun p => p.contents.flatMap fun
    | .outline o => o.items.flatMap fun
      | .element e => e.contents.flatMap fun
        | .richText t => [t]
        | _ => []
      | _ => []
    | _ => []

private theorem texts_shown {s : Section} {t : RichText} (h : t ∈ texts s) : TextOf t s := by
  obtain ⟨series, hs, h⟩ := List.mem_flatMap.1 h
  obtain ⟨p, hp, h⟩ := List.mem_flatMap.1 h
  obtain ⟨c, hc, h⟩ := List.mem_flatMap.1 h
  refine ⟨p, ⟨series, hs, hp⟩, ?_⟩
  cases c with
  | outline o =>
    obtain ⟨i, hi, h⟩ := List.mem_flatMap.1 h
    cases i with
    | group g => cases h
    | element e =>
      obtain ⟨x, hx, h⟩ := List.mem_flatMap.1 h
      cases x with
      | richText r =>
        obtain rfl := List.mem_singleton.1 h
        exact ⟨o, .inl hc, _, hi, .element (.here hx)⟩
      | _ => cases h
  | _ => cases h

private structure Found where
  s : Section
  store : Store
  space : ObjectSpace
  o : Object
  t : RichText

private def found (broken : Bool) : Option Found := do
  let s ← (parseSectionBuffer 2 Order.id (file broken) []).toOption
  let store ← (readStore Order.id (file broken)).toOption
  let space ← store.objectSpace pageCell
  let o ← space.getObject (sx 3003)
  let t ← (parseRichText space (sx 3003)).toOption
  some ⟨s, store, space, o, t⟩

/-- The UTF-16 text that is stored. -/
private def stored (o : Object) : Option Bytes :=
  match o.props.properties.get Word.richEditTextUnicode with
  | some (.vec d) => some d
  | _ => none

private theorem stored_text {o : Object} (h : stored o = some (utf16 ['a', 'b'] ++ [0, 0])) :
    StoredText o ['a', 'b'] := by
  unfold stored at h
  split at h
  · rename_i hv
    cases h
    exact .inl ⟨_, hv, [0, 0], rfl, by decide, .inr ⟨[], rfl⟩⟩
  · cases h

private def summary (f : Found) := (decide (texts f.s = [f.t]), stored f.o, f.t.text)

private theorem facts {broken : Bool} {text : Text}
    (h : (found broken).map summary = some (true, some (utf16 ['a', 'b'] ++ [0, 0]), text)) :
    ∃ s store space o t, parseSectionBuffer 2 Order.id (file broken) [] = .ok s ∧ TextOf t s ∧
    readStore Order.id (file broken) = .ok store ∧ StoredIn store space (sx 3003) o ∧
    TextIs space (sx 3003) t ∧ StoredText o ['a', 'b'] ∧ t.text = text := by
  obtain ⟨f, hf, h⟩ := Option.map_eq_some_iff.1 h
  simp only [summary, Prod.mk.injEq, decide_eq_true_eq] at h
  obtain ⟨h1, h2, h3⟩ := h
  unfold found at hf
  obtain ⟨s, e1, hf⟩ := Option.bind_eq_some_iff.1 hf
  obtain ⟨store, e2, hf⟩ := Option.bind_eq_some_iff.1 hf
  obtain ⟨space, e3, hf⟩ := Option.bind_eq_some_iff.1 hf
  obtain ⟨o, e4, hf⟩ := Option.bind_eq_some_iff.1 hf
  obtain ⟨t, e5, hf⟩ := Option.bind_eq_some_iff.1 hf
  injection hf with hf
  subst hf
  exact ⟨s, store, space, o, t, toOption_some e1, texts_shown (by rw [h1]; exact .head _),
    toOption_some e2, ⟨⟨pageCell, e3⟩, e4⟩, (C43_text _ _ _).1 (toOption_some e5), stored_text h2, h3⟩

/-- **Refuted**: a paragraph that stores `ab` is shown without text. -/
theorem C62_refuted : ∃ data s t store space id o,
    parseSectionBuffer 2 Order.id data [] = .ok s ∧ TextOf t s ∧
    readStore Order.id data = .ok store ∧ StoredIn store space id o ∧ TextIs space id t ∧
    StoredText o ['a', 'b'] ∧ t.text = [] ∧ ¬ StoredText o t.text := by
  obtain ⟨s, store, space, o, t, e1, e2, e3, e4, e5, e6, e7⟩ :=
    facts (broken := true) (text := []) (by decide +kernel)
  refine ⟨_, s, t, store, space, _, o, e1, e2, e3, e4, e5, e6, e7, fun hs => ?_⟩
  have := C62_unique o _ _ hs e6
  rw [e7] at this
  cases this

/-! ### What holds -/

private theorem text_stored {o : Object} {r : Option Text} (h : IsText o r) : StoredText o (r.getD []) := by
  rcases h with ⟨⟨t, rfl⟩, ⟨_, h0⟩ | ⟨v, a, hv, ha, he⟩⟩ | ⟨h0, ⟨h1, rfl⟩ | ⟨v, a, hv, ha, rfl⟩⟩
  · cases h0
  · cases he
    exact .inl ⟨v, hv, ha⟩
  · exact .inr (.inr ⟨h0, h1, rfl⟩)
  · exact .inr (.inl ⟨h0, v, hv, ha⟩)

/-- Among the runs is one that is embedded. -/
private theorem embedded_run {runs : List (Object × ParagraphStyleObject)}
    {ds : List (Option Nat × EmbeddedInkData)} (h : Embedded runs ds) (hd : ds ≠ []) :
    ∃ r ∈ runs, r.2.textRunIsEmbeddedObject = true := by
  induction h with
  | nil => exact absurd rfl hd
  | object h _ _ _ => exact ⟨_, .head _, h⟩
  | other _ _ ih =>
    obtain ⟨r, hr, h⟩ := ih hd
    exact ⟨r, .tail _ hr, h⟩

private theorem embedded_none {space : ObjectSpace} {all left : List ExGuid} {es : List EmbeddedObject}
    (h : EmbeddedAre space all left [] es) : es = [] := by
  cases h
  rfl

/-- **What holds**: every paragraph that is shown is stored in the file and shows exactly the stored
text, unless it has embedded objects: then some run has a format that says so, and no text is shown. -/
theorem C62_text_partial (fuel : Nat) (ord : Order) (data : Bytes) (name : Text) (s : Section)
    (h : parseSectionBuffer fuel ord data name = .ok s) (t : RichText) (ht : TextOf t s) :
    ∃ store space id o, readStore ord data = .ok store ∧ StoredIn store space id o ∧
      TextIs space id t ∧
      ((t.embeddedObjects = [] ∧ StoredText o t.text) ∨
       (t.embeddedObjects ≠ [] ∧ t.text = [] ∧ HasRunData o ∧ HasEmbedded space o)) := by
  obtain ⟨store, hr, -, hs⟩ := (C43_buffer ord data name s).1 ⟨fuel, h⟩
  obtain ⟨p, hp, hc⟩ := ht
  obtain ⟨cell, space, hsp, hpage⟩ := page_space hs hp
  obtain ⟨id, hi⟩ := content_object hpage hc
  cases hi with
  | text hi =>
    obtain ⟨o, n, _, styles, inners, embedded, tags, h1, h2, -, h4, h5, -, h6, h7, -, h8, h9, -⟩ :=
      _root_.id hi
    refine ⟨store, space, id, o, hr, ⟨⟨cell, hsp⟩, h1⟩, hi, ?_⟩
    by_cases he : t.embeddedObjects = []
    · refine .inl ⟨he, ?_⟩
      rw [h8 he]
      exact text_stored h2.text
    · refine .inr ⟨he, h9 he, ?_⟩
      have hd : embedded ≠ [] := by
        rintro rfl
        exact he (embedded_none h7)
      obtain ⟨⟨inner, style⟩, hm, hb⟩ := embedded_run h6 hd
      obtain ⟨m1, m2⟩ := List.of_mem_zip hm
      constructor
      · rcases h5 with ⟨_, rfl⟩ | ⟨kind, sets, hg, _⟩
        · cases m1
        · exact ⟨_, hg⟩
      · obtain ⟨k, hk, rfl⟩ := List.getElem_of_mem m2
        obtain ⟨hl, f⟩ := (each_iff _ _ _).1 h4
        obtain ⟨so, s1, s2⟩ := f k (by omega) hk
        refine ⟨_, _, so, h2.textRunFormatting, List.getElem_mem (by omega : k < _), s1, ?_⟩
        rcases s2.textRunIsEmbeddedObject with ⟨_, h0⟩ | ⟨v, hv, hb'⟩
        · rw [show styles[k].textRunIsEmbeddedObject = true from hb] at h0
          cases h0
        · have hb' : v = .bool styles[k].textRunIsEmbeddedObject := hb'
          rw [hv, hb', show styles[k].textRunIsEmbeddedObject = true from hb]

/-- The same paragraph when the run is not marked as embedded: the text is shown. -/
example : ∃ data s t, parseSectionBuffer 2 Order.id data [] = .ok s ∧ TextOf t s ∧
    t.text = ['a', 'b'] := by
  obtain ⟨s, store, space, o, t, e1, e2, e3, e4, e5, e6, e7⟩ :=
    facts (broken := false) (text := ['a', 'b']) (by decide +kernel)
  exact ⟨_, s, t, e1, e2, e7⟩

#print axioms C62_unique
#print axioms C62_refuted
#print axioms C62_text_partial

end OneNote
