/-
C67: Formulas and drawings belong to their runs.
-/
import Verif.Spec.FormulaRuns
import Verif.Spec.Tags
import Verif.Spec.Runs
import Verif.Spec.SampleFile
import Verif.Lemmas.Shown
import Verif.Lemmas.Terminates
import Verif.Props.C43

namespace OneNote

open Spec Spec.Document Spec.Fields Spec.Objects Spec.Shown Spec.Tags Spec.FormulaRuns

private theorem formulas_runs {runs : List (Object × ParagraphStyleObject)} {ms : List MathInlineObject}
    (h : Formulas runs ms) :
    ms.length = formulas (runs.map fun r => shown r.2) ∧
    ∀ k m, ms[k]? = some m → ∃ i r, runs[i]? = some r ∧ r.2.mathFormatting = true ∧ MathIs r.1 m ∧
      formulas ((runs.map fun r => shown r.2).take i) = k := by
  induction h with
  | nil => exact ⟨rfl, fun k m h => nomatch h⟩
  | formula hs hm _ ih =>
    obtain ⟨hl, ih⟩ := ih
    refine ⟨?_, ?_⟩
    · simp only [List.map_cons, List.length_cons, formulas] at *
      rw [List.countP_cons, hl, if_pos (show (shown _).mathFormatting = true from hs)]
    · intro k m hk
      cases k with
      | zero =>
        cases hk
        exact ⟨0, _, rfl, hs, hm, rfl⟩
      | succ k =>
        obtain ⟨i, r, h1, h2, h3, h4⟩ := ih k m hk
        refine ⟨i + 1, r, h1, h2, h3, ?_⟩
        simp only [List.map_cons, List.take_succ_cons, formulas] at *
        rw [List.countP_cons, h4, if_pos (show (shown _).mathFormatting = true from hs)]
  | @other o style _ _ hs _ ih =>
    obtain ⟨hl, ih⟩ := ih
    have hs' : ¬ (shown style).mathFormatting = true := by
      rw [show (shown style).mathFormatting = style.mathFormatting from rfl, hs]
      exact Bool.false_ne_true
    refine ⟨?_, ?_⟩
    · simp only [List.map_cons, formulas] at *
      rw [List.countP_cons, hl, if_neg hs']
      rfl
    · intro k m hk
      obtain ⟨i, r, h1, h2, h3, h4⟩ := ih k m hk
      refine ⟨i + 1, r, h1, h2, h3, ?_⟩
      simp only [List.map_cons, List.take_succ_cons, formulas] at *
      rw [List.countP_cons, h4, if_neg hs']
      rfl

private theorem map_zip {α β γ : Type} (f : β → γ) : ∀ (as : List α) (bs : List β),
    (as.zip bs).map (fun r => f r.2) = (bs.map f).take as.length
  | [], bs => by simp
  | _ :: _, [] => rfl
  | a :: as, b :: bs => by
    simp only [List.zip_cons_cons, List.map_cons, List.length_cons, List.take_succ_cons]
    rw [map_zip f as bs]

private theorem zip_get {α β : Type} {as : List α} {bs : List β} {i : Nat} {r : α × β}
    (h : (as.zip bs)[i]? = some r) : as[i]? = some r.1 ∧ bs[i]? = some r.2 :=
  List.getElem?_zip_eq_some.1 h

private theorem run_data {o : Object} {inners : List Object} (h : Nested o Word.textRunData inners) :
    ∃ sets, RunData o sets ∧ sets.length = inners.length ∧
      ∀ (i : Nat) (inner : Object), inners[i]? = some inner → ∃ set, sets[i]? = some set ∧ inner.props.properties = set := by
  rcases h with ⟨h0, rfl⟩ | ⟨kind, sets, h0, h⟩
  · exact ⟨[], .inl ⟨h0, rfl⟩, rfl, fun i x h => by simp at h⟩
  · obtain ⟨hl, f⟩ := (each_iff _ _ _).1 h
    refine ⟨sets, .inr ⟨kind, h0⟩, hl, ?_⟩
    intro i inner hi
    obtain ⟨h2, rfl⟩ := List.getElem?_eq_some_iff.1 hi
    obtain ⟨_, _, _, _, e⟩ := f i (by omega) h2
    exact ⟨sets[i], List.getElem?_eq_getElem (by omega), by rw [e]⟩

/-- **What holds**: the `k`-th formula of a text is the one that is stored for its `k`-th run that is a
formula. No run has two; every run has one if data is stored for every run. -/
theorem C67_formulas_partial (fuel : Nat) (ord : Order) (data : Bytes) (name : Text) (s : Section)
    (h : parseSectionBuffer fuel ord data name = .ok s) (t : RichText) (ht : TextOf t s) :
    ∃ store space id o sets, readStore ord data = .ok store ∧ StoredIn store space id o ∧
      TextIs space id t ∧ RunData o sets ∧
      (∀ k m, t.mathInlineObjects[k]? = some m →
        ∃ i set, NthFormula t.textRunFormatting k i ∧ sets[i]? = some set ∧ FormulaIs set m) ∧
      t.mathInlineObjects.length ≤ formulas t.textRunFormatting ∧
      (t.textRunFormatting.length ≤ sets.length →
        t.mathInlineObjects.length = formulas t.textRunFormatting) := by
  obtain ⟨store, hr, -, hs⟩ := (C43_buffer ord data name s).1 ⟨fuel, h⟩
  obtain ⟨p, hp, hc⟩ := ht
  obtain ⟨cell, space, hsp, hpage⟩ := page_space hs hp
  obtain ⟨id, hi⟩ := content_object hpage hc
  cases hi with
  | text hi =>
    obtain ⟨o, n, _, styles, inners, embedded, tags, h1, h2, -, h4, h5, h6, -, -, -, -, -, ht⟩ :=
      _root_.id hi
    have hst : t.textRunFormatting = styles.map shown := by rw [ht]
    obtain ⟨sets, r1, r2, r3⟩ := run_data h5
    obtain ⟨hl, hf⟩ := formulas_runs h6
    rw [map_zip shown] at hl hf
    refine ⟨store, space, id, o, sets, hr, ⟨⟨cell, hsp⟩, h1⟩, hi, r1, ?_, ?_, ?_⟩
    · intro k m hk
      obtain ⟨i, r, g1, g2, g3, g4⟩ := hf k m hk
      obtain ⟨z1, z2⟩ := zip_get g1
      obtain ⟨set, s1, s2⟩ := r3 i _ z1
      refine ⟨i, set, ⟨⟨shown r.2, ?_, g2⟩, ?_⟩, s1, r.1, s2, g3⟩
      · rw [hst, List.getElem?_map, z2]
        rfl
      · have hi : i < inners.length := (List.getElem?_eq_some_iff.1 z1).1
        rw [List.take_take, Nat.min_eq_left (by omega)] at g4
        rw [hst]
        exact g4
    · rw [hl, hst]
      exact (List.take_sublist _ _).countP_le
    · intro hle
      rw [hst] at hle
      rw [hl, hst, List.take_of_length_le (by omega)]

private theorem drawings_refs {space : ObjectSpace} {all left : List ExGuid}
    {ds : List (Option Nat × EmbeddedInkData)} {es : List EmbeddedObject}
    (h : EmbeddedAre space all left ds es) :
    ∀ (k : Nat) (c : EmbeddedInkContainer), (drawings es)[k]? = some c → all = [] ∨ ∃ id, left[k]? = some id ∧
      InkDataIs space id none none c.ink.inkStrokes c.ink.boundingBox := by
  induction h with
  | nil => exact fun k c h => nomatch h
  | lineBreak _ ih => exact ih
  | space _ _ _ ih => exact ih
  | ink hd _ _ ih =>
    intro k c hk
    cases k with
    | zero =>
      cases hk
      exact .inr ⟨_, rfl, hd⟩
    | succ k => exact ih k c hk
  | skipped h0 _ _ => exact fun _ _ _ => .inl h0

private theorem drawings_none {space : ObjectSpace} {left : List ExGuid}
    {ds : List (Option Nat × EmbeddedInkData)} {es : List EmbeddedObject}
    (h : EmbeddedAre space [] left ds es) (hl : left = []) : drawings es = [] := by
  induction h with
  | nil => rfl
  | lineBreak _ ih => exact ih hl
  | space _ _ _ ih => exact ih hl
  | ink => cases hl
  | skipped _ _ ih => exact ih hl

/-- The `k`-th drawing in a text is the one that its `k`-th reference to a drawing leads to: the
spaces and line breaks between drawings do not shift them. -/
theorem C67_drawings (fuel : Nat) (ord : Order) (data : Bytes) (name : Text) (s : Section)
    (h : parseSectionBuffer fuel ord data name = .ok s) (t : RichText) (ht : TextOf t s) :
    ∃ store space id o refs, readStore ord data = .ok store ∧ StoredIn store space id o ∧
      TextIs space id t ∧ Refs o Word.textRunDataObject refs ∧
      ∀ (k : Nat) (c : EmbeddedInkContainer), (drawings t.embeddedObjects)[k]? = some c → ∃ d, refs[k]? = some d ∧
        InkDataIs space d none none c.ink.inkStrokes c.ink.boundingBox := by
  obtain ⟨store, hr, -, hs⟩ := (C43_buffer ord data name s).1 ⟨fuel, h⟩
  obtain ⟨p, hp, hc⟩ := ht
  obtain ⟨cell, space, hsp, hpage⟩ := page_space hs hp
  obtain ⟨id, hi⟩ := content_object hpage hc
  cases hi with
  | text hi =>
    obtain ⟨o, n, _, styles, inners, embedded, tags, h1, h2, -, h4, h5, h6, -, h7, -, -, -, ht⟩ :=
      _root_.id hi
    refine ⟨store, space, id, o, n.textRunDataObject, hr, ⟨⟨cell, hsp⟩, h1⟩, hi,
      h2.textRunDataObject, ?_⟩
    intro k c hk
    rcases drawings_refs h7 k c hk with h0 | h0
    · rw [h0] at h7
      rw [drawings_none h7 rfl] at hk
      cases hk
    · exact h0

/-! ### A formula that is lost -/

/-- A section file with a text of three runs: the second and the third are formulas (a fraction and a
matrix). The data of the third run is stored if `all` says so. -/
private def file (all : Bool) : Bytes :=
  sectionFile none [3001] [outlineW 3001 [3002], outlineElementW 3002 [] [3003] [],
    objectW 3003 .richTextNode
      [(.lastModifiedTime, .u32 0), (.textRunFormatting, .objectIds 3), (.paragraphStyle, .objectId),
       (.textRunIndex, .vec (leBytes 4 1 ++ leBytes 4 2)),
       (.richEditTextUnicode, stringW ['a', 'b', 'c']),
       (.textRunData, .propertyValues 0x44000001 ([[], nestedW [(.mathInlineObjectType, .u32 16)]] ++
         if all then [nestedW [(.mathInlineObjectType, .u32 20)]] else []))] [3005, 3004, 3004, 3005],
    objectW 3004 .paragraphStyleObject [(.mathFormatting, .bool true)],
    objectW 3005 .paragraphStyleObject []]

private def texts (s : Section) : List RichText :=
  s.pageSeries.flatMap fun series => series.pages.flatMap fun p => p.contents.flatMap fun
    | .outline o => o.items.flatMap fun
      | .element e => e.contents.flatMap fun
        | .richText t => [t]
        | _ => []
      | _ => []
    | _ => []

private theorem texts_shown {s : Section} {t : RichText} (h : t ∈ texts s) : TextOf t s := by
  obtain ⟨series, hs, h⟩ := List.mem_flatMap.1 h
  obtain ⟨p, hp, h⟩ := List.mem_flatMap.1 h
  obtain ⟨c, hc, h⟩ := List.mem_flatMap.1 h
  refine ⟨p, ⟨series, hs, hp⟩, ?_⟩
  cases c with
  | outline o =>
    obtain ⟨i, hi, h⟩ := List.mem_flatMap.1 h
    cases i with
    | group g => cases h
    | element e =>
      obtain ⟨x, hx, h⟩ := List.mem_flatMap.1 h
      cases x with
      | richText r =>
        obtain rfl := List.mem_singleton.1 h
        exact ⟨o, .inl hc, _, hi, .element (.here hx)⟩
      | _ => cases h
  | _ => cases h

private theorem facts {all : Bool} {flags : List Bool} {kinds : List MathObjectType}
    (h : (parseSectionBuffer 2 Order.id (file all) []).toOption.map (fun s => (texts s).map fun t =>
      (t.textRunFormatting.map (·.mathFormatting), t.mathInlineObjects.map (·.objectType)))
      = some [(flags, kinds)]) :
    ∃ s t, parseSectionBuffer 2 Order.id (file all) [] = .ok s ∧ TextOf t s ∧
      t.textRunFormatting.map (·.mathFormatting) = flags ∧
      t.mathInlineObjects.map (·.objectType) = kinds := by
  obtain ⟨s, hs, h⟩ := Option.map_eq_some_iff.1 h
  cases ha : texts s with
  | nil => rw [ha] at h; cases h
  | cons t ts =>
    rw [ha] at h
    injection h with h
    injection h with h1 h2
    exact ⟨s, t, toOption_some hs, texts_shown (by rw [ha]; exact .head _), h1, h2⟩

private theorem formulas_flags (runs : List ParagraphStyling) :
    formulas runs = (runs.map (·.mathFormatting)).countP _root_.id := by
  rw [List.countP_map]
  rfl

/-- **Refuted**: a text with two runs that are formulas is shown with one formula. -/
theorem C67_refuted : ∃ data s t, parseSectionBuffer 2 Order.id data [] = .ok s ∧ TextOf t s ∧
    formulas t.textRunFormatting = 2 ∧ t.mathInlineObjects.length = 1 := by
  obtain ⟨s, t, h1, h2, h3, h4⟩ := facts (all := false) (flags := [false, true, true])
    (kinds := [.fraction]) (by decide +kernel)
  refine ⟨_, s, t, h1, h2, by rw [formulas_flags, h3]; rfl, ?_⟩
  have := congrArg List.length h4
  rwa [List.length_map] at this

/-- With data for every run both are shown. -/
example : ∃ data s t, parseSectionBuffer 2 Order.id data [] = .ok s ∧ TextOf t s ∧
    formulas t.textRunFormatting = 2 ∧
    t.mathInlineObjects.map (·.objectType) = [.fraction, .matrix] := by
  obtain ⟨s, t, h1, h2, h3, h4⟩ := facts (all := true) (flags := [false, true, true])
    (kinds := [.fraction, .matrix]) (by decide +kernel)
  exact ⟨_, s, t, h1, h2, by rw [formulas_flags, h3]; rfl, h4⟩

#print axioms C67_formulas_partial
#print axioms C67_drawings
#print axioms C67_refuted

end OneNote
