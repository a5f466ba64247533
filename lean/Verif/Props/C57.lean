/-
C57: A text can be split at its run positions.
-/
import Verif.Spec.Runs
import Verif.Spec.SampleFile
import Verif.Props.C43
import Verif.Lemmas.Utf16
import Verif.Lemmas.Shown
import Verif.Lemmas.Terminates

namespace OneNote

open Spec Spec.Document Spec.Objects Spec.Fields

/-! ### Texts whose runs do not fit -/

/-- The texts in the outline elements directly in the outlines of the pages. -/
private def texts (s : Section) : List RichText :=
  s.pageSeries.flatMap fun series => series.pages.flatMap fun p => p.contents.flatMap fun
    | .outline o => o.items.flatMap fun
      | .element e => e.contents.flatMap fun
        | .richText t => [t]
        | _ => []
      | _ => []
    | _ => []

private theorem texts_shown {s : Section} {t : RichText} (h : t ∈ texts s) : TextOf t s := by
  obtain ⟨series, hs, h⟩ := List.mem_flatMap.1 h
  obtain ⟨p, hp, h⟩ := List.mem_flatMap.1 h
  obtain ⟨c, hc, h⟩ := List.mem_flatMap.1 h
  refine ⟨p, ⟨series, hs, hp⟩, ?_⟩
  cases c with
  | outline o =>
    obtain ⟨i, hi, h⟩ := List.mem_flatMap.1 h
    cases i with
    | group g => cases h
    | element e =>
      obtain ⟨x, hx, h⟩ := List.mem_flatMap.1 h
      cases x with
      | richText r =>
        obtain rfl := List.mem_singleton.1 h
        exact ⟨o, .inl hc, _, hi, .element (.here hx)⟩
      | _ => cases h
  | _ => cases h

/-- A section file with one paragraph with two formats: the text, the position where the first run
ends and whether the first run is a (missing) drawing. -/
private def file (text : Text) (position : Nat) (ink : Bool) : Bytes :=
  sectionFile none [3001] [outlineW 3001 [3002], outlineElementW 3002 [] [3003] [],
    objectW 3003 .richTextNode
      [(.lastModifiedTime, .u32 0), (.textRunFormatting, .objectIds 2),
       (.textRunDataObject, .objectIds 1), (.paragraphStyle, .objectId),
       (.textRunIndex, .vec (leBytes 4 position)), (.richEditTextUnicode, stringW text),
       (.textRunData, .propertyValues 0x44000001 [[], []])] [3004, 3006, 3005, 3006],
    objectW 3004 .paragraphStyleObject [(.textRunIsEmbeddedObject, .bool ink)],
    objectW 3005 .inkDataNode [(.inkStrokes, .objectIds 0)],
    objectW 3006 .paragraphStyleObject []]

private def summary (s : Section) : List (Text × List Nat × Nat) :=
  (texts s).map fun t => (t.text, t.textRunIndices, t.textRunFormatting.length)

private theorem shown_of {data : Bytes} {x : Text × List Nat × Nat}
    (h : (parseSectionBuffer 2 Order.id data []).toOption.map summary = some [x]) :
    ∃ s t, parseSectionBuffer 2 Order.id data [] = .ok s ∧ TextOf t s ∧
      (t.text, t.textRunIndices, t.textRunFormatting.length) = x := by
  obtain ⟨s, hs, he⟩ := Option.map_eq_some_iff.1 h
  obtain ⟨t, ht, hx⟩ := List.map_eq_singleton_iff.1 he
  exact ⟨s, t, toOption_some hs, texts_shown (by rw [ht]; exact .head _), hx⟩

/-- **Refuted**: a text of two characters with a run position 5 is shown. -/
theorem C57_beyond_refuted : ∃ data s t, parseSectionBuffer 2 Order.id data [] = .ok s ∧ TextOf t s ∧
    ¬ RunsFit t.text.length t.textRunIndices t.textRunFormatting.length := by
  obtain ⟨s, t, h1, h2, h3⟩ := shown_of (data := file ['a', 'b'] 5 false)
    (x := (['a', 'b'], [5], 2)) (by decide +kernel)
  simp only [Prod.mk.injEq] at h3
  refine ⟨_, s, t, h1, h2, ?_⟩
  rw [h3.1, h3.2.1, h3.2.2]
  decide

/-- **Refuted**: also when the stored runs fit the stored text. As the first run is a drawing, the
text is shown as empty, but with the run positions. -/
theorem C57_drawing_refuted : ∃ stored position s t, RunsFit stored.length [position] 2 ∧
    parseSectionBuffer 2 Order.id (file stored position true) [] = .ok s ∧ TextOf t s ∧
    ¬ RunsFit t.text.length t.textRunIndices t.textRunFormatting.length := by
  obtain ⟨s, t, h1, h2, h3⟩ := shown_of (data := file ['a', 'b'] 1 true)
    (x := ([], [1], 2)) (by decide +kernel)
  simp only [Prod.mk.injEq] at h3
  refine ⟨_, _, s, t, by decide, h1, h2, ?_⟩
  rw [h3.1, h3.2.1, h3.2.2]
  decide

/-- **Refuted**: the stored positions count units of UTF-16. A text of one character, a smiling face,
is shown with the run position 2. -/
theorem C57_units_refuted : ∃ stored position s t,
    RunsFit (stored.flatMap utf16Units).length [position] 2 ∧
    parseSectionBuffer 2 Order.id (file stored position false) [] = .ok s ∧ TextOf t s ∧
    t.text = stored ∧ ¬ RunsFit t.text.length t.textRunIndices t.textRunFormatting.length := by
  obtain ⟨s, t, h1, h2, h3⟩ := shown_of (data := file [Char.ofNat 0x1F600] 2 false)
    (x := ([Char.ofNat 0x1F600], [2], 2)) (by decide +kernel)
  simp only [Prod.mk.injEq] at h3
  refine ⟨_, _, s, t, by decide, h1, h2, h3.1, ?_⟩
  rw [h3.1, h3.2.1, h3.2.2]
  decide

/-! ### What holds -/

/-- Without characters above U+FFFF each character is one code unit. -/
private theorem units_length (t : Text) (h : ∀ c ∈ t, c.toNat < 0x10000) :
    (t.flatMap utf16Units).length = t.length := by
  induction t with
  | nil => rfl
  | cons c t ih =>
    have hc : utf16Units c = [c.toNat] := if_pos (h c (.head _))
    rw [List.flatMap_cons, hc, List.length_append, ih fun d hd => h d (.tail _ hd)]
    simp only [List.length_cons, List.length_nil]
    omega

/-- **Positions in characters are positions in the stored code units exactly for texts without
characters above U+FFFF.** -/
theorem C57_positions (t : Text) :
    (∀ n, n ≤ (t.flatMap utf16Units).length →
      (t.take n).flatMap utf16Units = (t.flatMap utf16Units).take n) ↔
    ∀ c ∈ t, c.toNat < 0x10000 := by
  constructor
  · intro h c hc
    induction t with
    | nil => cases hc
    | cons d t ih =>
      have hd : d.toNat < 0x10000 := by
        have h1 := h 1 (by
          rw [List.flatMap_cons, List.length_append]
          have : 1 ≤ (utf16Units d).length := by unfold utf16Units; split <;> simp
          omega)
        simp only [List.take_succ_cons, List.take_zero, List.flatMap_cons, List.flatMap_nil,
          List.append_nil] at h1
        have hl := congrArg List.length h1
        rw [List.length_take] at hl
        apply Decidable.byContradiction
        intro hn
        have : (utf16Units d).length = 2 := by unfold utf16Units; rw [if_neg hn]; rfl
        omega
      cases hc with
      | head => exact hd
      | tail _ hc =>
        have hu : utf16Units d = [d.toNat] := if_pos hd
        refine ih (fun n hn => ?_) hc
        have := h (n + 1) (by
          rw [List.flatMap_cons, hu, List.length_append]
          simp only [List.length_cons, List.length_nil]
          omega)
        rw [List.take_succ_cons, List.flatMap_cons, List.flatMap_cons, hu] at this
        simpa using this
  · intro h n _
    induction t generalizing n with
    | nil => simp
    | cons d t ih =>
      have hu : utf16Units d = [d.toNat] := if_pos (h d (.head _))
      cases n with
      | zero => simp
      | succ n =>
        rw [List.take_succ_cons, List.flatMap_cons, List.flatMap_cons, hu,
          ih (fun c hc => h c (.tail _ hc)) n]
        · rfl
        · have := units_length t fun c hc => h c (.tail _ hc)
          rename_i hn
          rw [List.flatMap_cons, hu, List.length_append] at hn
          simp only [List.length_cons, List.length_nil] at hn
          omega

/-- **What holds**: a paragraph without drawings shows the stored text, the stored positions and one
format for each reference that is resolved. If there are no characters above U+FFFF and the stored
runs fit the stored text, the shown ones fit the shown text. -/
theorem C57_runs_partial (space : ObjectSpace) (id : ExGuid) (t : RichText) (o : Object)
    (stored : Text) (tail : Bytes) (h : parseRichText space id = .ok t) (ho : At space id o)
    (hs : o.props.get .richEditTextUnicode = some (.vec (utf16 stored ++ tail)))
    (ht : EndsText tail) (hz : nul ∉ stored) (he : t.embeddedObjects = [])
    (hb : ∀ c ∈ stored, c.toNat < 0x10000) :
    t.text = stored ∧
    Default o.props.properties Word.textRunIndex Value.u32s [] t.textRunIndices ∧
    (∃ refs, Refs o Word.textRunFormatting refs ∧ t.textRunFormatting.length = refs.length) ∧
    (RunsFit (stored.flatMap utf16Units).length t.textRunIndices t.textRunFormatting.length →
      RunsFit t.text.length t.textRunIndices t.textRunFormatting.length) := by
  obtain ⟨o', n, paragraph, styles, inners, embedded, tags, h1, h2, -, h4, -, -, -, -, -, h5, -, h6⟩ :=
    (C43_text space id t).1 h
  unfold At at ho h1
  rw [ho] at h1
  cases h1
  have hi : t.textRunIndices = n.textRunIndices := by rw [h6]
  have hf : t.textRunFormatting.length = n.textRunFormatting.length := by
    have hl : t.textRunFormatting = styles.map shown := by rw [h6]
    rw [hl, List.length_map, ← ((each_iff _ _ _).1 h4).1]
  have htext : n.text = some stored := by
    have hs : o.props.properties.get Word.richEditTextUnicode = some (.vec (utf16 stored ++ tail)) := hs
    rcases h2.text with ⟨-, hn | ⟨v, a, hv, hr, ha⟩⟩ | ⟨hn, _⟩
    · rw [hs] at hn; cases hn.1
    · rw [hs] at hv
      cases hv
      obtain ⟨tail', hv, hz', ht'⟩ := hr
      have hv := PropertyValue.vec.inj hv
      have k1 := ((C31_decode_iff _).1 stored).2 ⟨hz, tail, rfl, ht⟩
      have k2 := ((C31_decode_iff _).1 a).2 ⟨hz', tail', hv, ht'⟩
      rw [k1] at k2
      cases k2
      exact ha
    · rw [hs] at hn; cases hn
  have htt : t.text = stored := by rw [h5 he, htext]; rfl
  refine ⟨htt, hi ▸ h2.textRunIndices, ⟨_, h2.textRunFormatting, hf⟩, fun hr => ?_⟩
  rw [htt, ← units_length stored hb]
  exact hr

/-- Every text of a section is read from an object in the object space of its page, so that the
theorem above is about every text shown. -/
theorem C57_every_text (fuel : Nat) (ord : Order) (data : Bytes) (name : Text) (s : Section)
    (h : parseSectionBuffer fuel ord data name = .ok s) (t : RichText) (ht : TextOf t s) :
    ∃ store cell space id, readStore ord data = .ok store ∧ store.objectSpace cell = some space ∧
      parseRichText space id = .ok t := by
  obtain ⟨store, hr, -, hs⟩ := (C43_buffer ord data name s).1 ⟨fuel, h⟩
  obtain ⟨p, hp, hc⟩ := ht
  obtain ⟨cell, space, hsp, hpage⟩ := page_space hs hp
  obtain ⟨id, hi⟩ := content_object hpage hc
  cases hi with
  | text hi => exact ⟨store, cell, space, id, hr, hsp, (C43_text space id t).2 hi⟩

/-- A paragraph that meets the hypotheses. -/
example : ∃ data s t, parseSectionBuffer 2 Order.id data [] = .ok s ∧ TextOf t s ∧
    t.text = ['a', 'b'] ∧ RunsFit t.text.length t.textRunIndices t.textRunFormatting.length := by
  obtain ⟨s, t, h1, h2, h3⟩ := shown_of (data := file ['a', 'b'] 1 false)
    (x := (['a', 'b'], [1], 2)) (by decide +kernel)
  simp only [Prod.mk.injEq] at h3
  refine ⟨_, s, t, h1, h2, h3.1, ?_⟩
  rw [h3.1, h3.2.1, h3.2.2]
  decide

#print axioms C57_beyond_refuted
#print axioms C57_drawing_refuted
#print axioms C57_units_refuted
#print axioms C57_positions
#print axioms C57_runs_partial
#print axioms C57_every_text

end OneNote
