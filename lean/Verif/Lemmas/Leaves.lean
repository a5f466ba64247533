/-
The parts of a document without outlines in them are what the stored objects say.
-/
import Verif.Lemmas.Objects2
import Verif.Lemmas.Tree
import Verif.Lemmas.Toc
import Verif.Props.C29
import Verif.Spec.Document

namespace OneNote

open Spec Spec.Fields Spec.Objects Spec.Document

variable {space : ObjectSpace} {id : ExGuid}

theorem at_iff {o : Object} : space.object id = .ok o ↔ At space id o := ObjectSpace.object_ok

theorem pure_ok_iff {α : Type} {a b : α} : (pure a : Res α) = .ok b ↔ b = a :=
  ⟨fun h => by cases h; rfl, fun h => by rw [h]; rfl⟩

theorem each_congr {α β : Type} {R S : α → β → Prop} (h : ∀ x y, R x y ↔ S x y) {xs : List α}
    {ys : List β} : Each R xs ys ↔ Each S xs ys :=
  ⟨fun e => each_mono e fun x y _ => (h x y).1, fun e => each_mono e fun x y _ => (h x y).2⟩

theorem mapM_iff {α β : Type} {f : α → Res β} {R : α → β → Prop} (h : ∀ x y, f x = .ok y ↔ R x y)
    {xs : List α} {ys : List β} : xs.mapM f = .ok ys ↔ Each R xs ys :=
  mapM_each.trans (each_congr h)

theorem optM_iff {α β : Type} {f : α → Res β} {R : α → β → Prop} (h : ∀ x y, f x = .ok y ↔ R x y)
    {a : Option α} {b : Option β} : optM f a = .ok b ↔ Maybe R a b := by
  cases a with
  | none =>
    constructor
    · intro e; cases e; exact .inl ⟨rfl, rfl⟩
    · rintro (⟨_, rfl⟩ | ⟨_, _, e, _⟩)
      · rfl
      · cases e
  | some a =>
    constructor
    · intro e
      unfold optM at e
      simp only at e
      cases hf : f a with
      | error _ => rw [hf] at e; cases e
      | ok y =>
        rw [hf] at e
        cases e
        exact .inr ⟨a, y, rfl, rfl, (h _ _).1 hf⟩
    · rintro (⟨e, _⟩ | ⟨x, y, e, rfl, hr⟩)
      · cases e
      · cases e
        unfold optM
        simp only
        rw [(h _ _).2 hr]

/-! ### Note tags -/

theorem definition_iff {d : NoteTagDefinition} :
    parseNoteTagDefinition space id = .ok d ↔ DefinitionIs space id d := by
  simp only [parseNoteTagDefinition, bind_ok_iff, at_iff, NoteTagDefinition.parse_iff, DefinitionIs]

theorem noteTag_iff {n : NoteTagData} {t : NoteTag} :
    parseNoteTag space n = .ok t ↔ NoteTagIs space n t := by
  simp only [parseNoteTag, bind_ok_iff, pure_ok_iff, optM_iff fun _ _ => definition_iff]
  constructor
  · rintro ⟨_, h, rfl⟩
    exact ⟨rfl, rfl, h⟩
  · rintro ⟨h1, h2, h3⟩
    refine ⟨_, h3, ?_⟩
    rw [← h1, ← h2]

theorem noteTags_iff {ns : List NoteTagData} {ts : List NoteTag} :
    parseNoteTags space ns = .ok ts ↔ Each (NoteTagIs space) ns ts :=
  mapM_iff fun _ _ => noteTag_iff

/-! ### Images and files -/

theorem iframe_iff {f : IFrame} : parseIFrame space id = .ok f ↔ IFrameIs space id f := by
  simp only [parseIFrame, bind_ok_iff, at_iff, IFrameNode.parse_iff, IFrameIs]

theorem picture_iff {p : PictureContainer} :
    parseImageContainer space id = .ok p ↔ PictureIs space id p := by
  simp only [parseImageContainer, bind_ok_iff, at_iff, PictureContainer.parse_iff, PictureIs]

theorem image_iff {i : Image} : parseImage space id = .ok i ↔ ImageIs space id i := by
  simp only [parseImage, bind_ok_iff, at_iff, pure_ok_iff, ImageNode.parse_iff, noteTags_iff,
    optM_iff fun _ _ => picture_iff, mapM_iff fun _ _ => iframe_iff, ImageIs]
  constructor
  · rintro ⟨o, h1, n, h2, p, h3, e, h4, t, h5, h6⟩
    exact ⟨o, n, p, e, t, h1, h2, h3, h4, h5, h6⟩
  · rintro ⟨o, n, p, e, t, h1, h2, h3, h4, h5, h6⟩
    exact ⟨o, h1, n, h2, p, h3, e, h4, t, h5, h6⟩

theorem file_iff {f : EmbeddedFile} : parseEmbeddedFile space id = .ok f ↔ FileIs space id f := by
  simp only [parseEmbeddedFile, bind_ok_iff, at_iff, pure_ok_iff, EmbeddedFileNode.parse_iff,
    noteTags_iff, fileContainer_iff, FileIs]
  constructor
  · rintro ⟨o, h1, n, h2, p, h3, e, h4, t, h5, h6⟩
    exact ⟨o, n, p, e, t, h1, h2, h3, h4, h5, h6⟩
  · rintro ⟨o, n, p, e, t, h1, h2, h3, h4, h5, h6⟩
    exact ⟨o, h1, n, h2, p, h3, e, h4, t, h5, h6⟩

/-! ### Ink -/

theorem firstAt_of_find {dims : List InkDimension} {g : Guid} {i : Nat}
    (h : findDimension dims g = .ok i) : Ink.FirstAt dims g i := by
  have hi := orErr_some h
  rw [List.findIdx?_eq_some_iff_getElem] at hi
  obtain ⟨hlt, hp, hn⟩ := hi
  refine ⟨⟨dims[i], List.getElem?_eq_getElem hlt, by simpa using hp⟩, ?_⟩
  intro j hj d hd
  rw [List.getElem?_eq_getElem (by omega)] at hd
  have := hn j hj
  cases hd
  simpa using this

theorem points_iff {numbers : List Int} {dims : List InkDimension} {sx sy : Option F32}
    {points : List InkPoint} :
    parseInkPath numbers dims sx sy = .ok points ↔ PointsAre numbers dims sx sy points := by
  constructor
  · intro h
    have h' := h
    unfold parseInkPath at h'
    obtain ⟨i, hi, h'⟩ := Res.bind_ok h'
    obtain ⟨j, hj, _⟩ := Res.bind_ok h'
    have hi : Ink.FirstAt dims Ink.xId i := firstAt_of_find hi
    have hj : Ink.FirstAt dims Ink.yId j := firstAt_of_find hj
    obtain ⟨ps, hp, hl, hk⟩ := C29_points numbers dims sx sy i j hi hj
    rw [h] at hp
    cases hp
    exact ⟨i, j, hi, hj, hl, hk⟩
  · rintro ⟨i, j, hi, hj, hl, hk⟩
    obtain ⟨ps, hp, hl', hk'⟩ := C29_points numbers dims sx sy i j hi hj
    rw [hp]
    congr 1
    refine List.ext_getElem? fun k => ?_
    by_cases hlt : k < numbers.length / dims.length
    · obtain ⟨x, y, hx, hy, he⟩ := hk k hlt
      obtain ⟨x', y', hx', hy', he'⟩ := hk' k hlt
      rw [hx] at hx'
      rw [hy] at hy'
      cases hx'
      cases hy'
      rw [he, he']
    · rw [List.getElem?_eq_none (by omega), List.getElem?_eq_none (by omega)]

theorem stroke_iff {sx sy : Option F32} {s : InkStroke} :
    parseInkStroke space sx sy id = .ok s ↔ StrokeIs space sx sy id s := by
  simp only [parseInkStroke, bind_ok_iff, at_iff, pure_ok_iff, InkStrokeNode.parse_iff,
    StrokeProperties.parse_iff, points_iff, StrokeIs]
  constructor
  · rintro ⟨o, h1, n, h2, p, h3, e, h4, t, h5, h6⟩
    exact ⟨o, n, p, e, t, h1, h2, h3, h4, h5, h6⟩
  · rintro ⟨o, n, p, e, t, h1, h2, h3, h4, h5, h6⟩
    exact ⟨o, h1, n, h2, p, h3, e, h4, t, h5, h6⟩

theorem box_eq (sx sy : Option F32) : inkBoundingBox sx sy = box sx sy := by
  funext ⟨a, b, c, d⟩
  simp only [inkBoundingBox, box, scaleOf_eq]

theorem inkData_iff {sx sy : Option F32} {strokes : List InkStroke} {bounds : Option InkBoundingBox} :
    parseInkData space id sx sy = .ok (strokes, bounds) ↔ InkDataIs space id sx sy strokes bounds := by
  simp only [parseInkData, bind_ok_iff, at_iff, pure_ok_iff, InkDataNode.parse_iff,
    mapM_iff fun _ _ => stroke_iff, InkDataIs, Prod.mk.injEq, box_eq]
  constructor
  · rintro ⟨o, h1, n, h2, s, h3, rfl, rfl⟩
    exact ⟨o, n, h1, h2, h3, rfl⟩
  · rintro ⟨o, n, h1, h2, h3, h4⟩
    exact ⟨o, h1, n, h2, strokes, h3, rfl, h4⟩

theorem ink_iff {i : Ink} : parseInk space id = .ok i ↔ InkIs space id i := by
  simp only [parseInk, bind_ok_iff, at_iff, InkContainerNode.parse_iff, InkIs]
  constructor
  · rintro ⟨o, h1, n, h2, h⟩
    refine ⟨o, n, h1, h2, ?_⟩
    cases hd : n.inkData with
    | none =>
      rw [hd] at h
      cases h
      exact ⟨rfl, rfl, .inl ⟨rfl, rfl, rfl⟩⟩
    | some data =>
      rw [hd] at h
      obtain ⟨⟨s, b⟩, h3, h⟩ := Res.bind_ok h
      cases h
      exact ⟨rfl, rfl, .inr ⟨data, rfl, inkData_iff.1 h3⟩⟩
  · rintro ⟨o, n, h1, h2, h3, h4, h⟩
    refine ⟨o, h1, n, h2, ?_⟩
    obtain ⟨s, b, oh, ov⟩ := i
    dsimp only at h3 h4 h
    subst h3 h4
    rcases h with ⟨hd, rfl, rfl⟩ | ⟨data, hd, h⟩
    · rw [hd]
      rfl
    · rw [hd]
      simp only
      rw [inkData_iff.2 h]
      rfl

/-! ### Lists -/

theorem list_iff {l : ListFormat} : parseList space id = .ok l ↔ ListIs space id l := by
  simp only [parseList, bind_ok_iff, at_iff, pure_ok_iff, NumberListNode.parse_iff, ListIs]
  constructor
  · rintro ⟨o, h1, n, h2, h3⟩
    exact ⟨o, n, h1, h2, h3⟩
  · rintro ⟨o, n, h1, h2, h3⟩
    exact ⟨o, h1, n, h2, h3⟩

/-! ### Rich text -/

theorem style_iff {n : ParagraphStyleObject} :
    parseStyleObject space id = .ok n ↔ StyleIs space id n := by
  simp only [parseStyleObject, bind_ok_iff, at_iff, ParagraphStyleObject.parse_iff, StyleIs]

theorem math_iff {o : Object} {m : MathInlineObject} :
    (∃ n, MathInlineData.parse o = .ok n ∧ parseMathInlineObject n = .ok m) ↔ MathIs o m := by
  simp only [MathInlineData.parse_iff, parseMathInlineObject, bind_ok_iff, pure_ok_iff,
    required_ok_iff, mathType_iff, MathIs]
  constructor
  · rintro ⟨n, h1, t, h2, rfl⟩
    exact ⟨n, h1, h2, rfl, rfl, rfl, rfl, rfl, rfl⟩
  · rintro ⟨n, h1, h2, h3, h4, h5, h6, h7, h8⟩
    refine ⟨n, h1, m.objectType, h2, ?_⟩
    rw [← h3, ← h4, ← h5, ← h6, ← h7, ← h8]

theorem formulas_iff {runs : List (Object × ParagraphStyleObject)} {ms : List MathInlineObject} :
    (∃ xs, runs.mapM parseMathRun = .ok xs ∧ (xs.filterMap fun x => x) = ms) ↔ Formulas runs ms := by
  induction runs generalizing ms with
  | nil =>
    constructor
    · rintro ⟨xs, h, rfl⟩
      cases h
      exact .nil
    · intro h
      cases h
      exact ⟨[], rfl, rfl⟩
  | cons run runs ih =>
    obtain ⟨o, style⟩ := run
    simp only [List.mapM_cons, bind_ok_iff, pure_ok_iff]
    constructor
    · rintro ⟨xs, ⟨x, hx, xs', hxs, rfl⟩, rfl⟩
      unfold parseMathRun at hx
      split at hx
      · rename_i hm
        obtain ⟨n, hn, hx⟩ := Res.bind_ok hx
        obtain ⟨m, hm', hx⟩ := Res.bind_ok hx
        cases hx
        exact .formula hm (math_iff.1 ⟨n, hn, hm'⟩) (ih.1 ⟨_, hxs, rfl⟩)
      · rename_i hm
        cases hx
        exact .other (by simpa using hm) (ih.1 ⟨_, hxs, rfl⟩)
    · intro h
      cases h with
      | formula hm hmath hr =>
        obtain ⟨n, hn, hp⟩ := math_iff.2 hmath
        obtain ⟨xs, hxs, rfl⟩ := ih.2 hr
        refine ⟨_, ⟨some _, ?_, xs, hxs, rfl⟩, rfl⟩
        unfold parseMathRun
        rw [if_pos hm]
        simp only
        rw [hn]
        show (parseMathInlineObject n >>= _) = _
        rw [hp]
        rfl
      | other hm hr =>
        obtain ⟨xs, hxs, rfl⟩ := ih.2 hr
        refine ⟨_, ⟨none, ?_, xs, hxs, rfl⟩, rfl⟩
        unfold parseMathRun
        rw [if_neg (by simpa using hm)]
        rfl

theorem embedded_iff {runs : List (Object × ParagraphStyleObject)}
    {ds : List (Option Nat × EmbeddedInkData)} :
    (∃ xs, runs.mapM parseEmbeddedRun = .ok xs ∧ (xs.filterMap fun x => x) = ds) ↔
      Embedded runs ds := by
  induction runs generalizing ds with
  | nil =>
    constructor
    · rintro ⟨xs, h, rfl⟩
      cases h
      exact .nil
    · intro h
      cases h
      exact ⟨[], rfl, rfl⟩
  | cons run runs ih =>
    obtain ⟨o, style⟩ := run
    simp only [List.mapM_cons, bind_ok_iff, pure_ok_iff]
    constructor
    · rintro ⟨xs, ⟨x, hx, xs', hxs, rfl⟩, rfl⟩
      unfold parseEmbeddedRun at hx
      split at hx
      · rename_i hm
        obtain ⟨n, hn, hx⟩ := Res.bind_ok hx
        cases hx
        exact .object hm (EmbeddedInkData.parse_iff.1 hn) (ih.1 ⟨_, hxs, rfl⟩)
      · rename_i hm
        cases hx
        exact .other (by simpa using hm) (ih.1 ⟨_, hxs, rfl⟩)
    · intro h
      cases h with
      | object hm hd hr =>
        obtain ⟨xs, hxs, rfl⟩ := ih.2 hr
        refine ⟨_, ⟨some _, ?_, xs, hxs, rfl⟩, rfl⟩
        unfold parseEmbeddedRun
        rw [if_pos hm]
        simp only
        rw [EmbeddedInkData.parse_iff.2 hd]
        rfl
      | other hm hr =>
        obtain ⟨xs, hxs, rfl⟩ := ih.2 hr
        refine ⟨_, ⟨none, ?_, xs, hxs, rfl⟩, rfl⟩
        unfold parseEmbeddedRun
        rw [if_neg (by simpa using hm)]
        rfl

theorem displayBox_iff {d : EmbeddedInkData} {b : Option InkBoundingBox} :
    displayBox d = b ↔ BoxIs d b := by
  unfold displayBox BoxIs
  cases d.startX <;> cases d.startY <;> cases d.height <;> cases d.width <;>
    simp [eq_comm]

theorem space_iff {d : EmbeddedInkData} {s : EmbeddedInkSpace} :
    parseEmbeddedInkSpace d = .ok s ↔ d.spaceWidth = some s.width ∧ d.spaceHeight = some s.height := by
  simp only [parseEmbeddedInkSpace, bind_ok_iff, required_ok_iff, pure_ok_iff]
  constructor
  · rintro ⟨w, hw, h, hh, rfl⟩
    exact ⟨hw, hh⟩
  · rintro ⟨hw, hh⟩
    exact ⟨_, hw, _, hh, rfl⟩

theorem embeddedInk_iff {d : EmbeddedInkData} {c : EmbeddedInkContainer} :
    parseEmbeddedInkData space id d = .ok c ↔ ∃ strokes bounds b,
      InkDataIs space id none none strokes bounds ∧ BoxIs d b ∧
      c = ⟨⟨strokes, bounds, d.offsetHoriz, d.offsetVert⟩, b⟩ := by
  simp only [parseEmbeddedInkData, bind_ok_iff]
  constructor
  · rintro ⟨⟨s, b⟩, h, h'⟩
    cases h'
    exact ⟨s, b, _, inkData_iff.1 h, displayBox_iff.1 rfl, rfl⟩
  · rintro ⟨s, b, x, h, hx, rfl⟩
    refine ⟨(s, b), inkData_iff.2 h, ?_⟩
    rw [← displayBox_iff.2 hx]
    rfl

theorem embeddedAre_iff {all : List ExGuid} {ds : List (Option Nat × EmbeddedInkData)}
    {es : List EmbeddedObject} {i w : Nat} (hw : w ≤ i) :
    (∃ xs, parseEmbeddedObjects space all i w ds = .ok xs ∧ (xs.filterMap fun x => x) = es) ↔
      EmbeddedAre space all (all.drop (i - w)) ds es := by
  induction ds generalizing i w es with
  | nil =>
    constructor
    · rintro ⟨xs, h, rfl⟩
      cases h
      exact .nil
    · intro h
      generalize all.drop (i - w) = left at h
      cases h
      exact ⟨[], rfl, rfl⟩
  | cons d ds ih =>
    obtain ⟨t, d⟩ := d
    cases t with
    | none =>
      have hstep : i + 1 - w = i - w + 1 := by omega
      have ih := fun es => ih (es := es) (i := i + 1) (w := w) (by omega)
      rw [hstep] at ih
      simp only [parseEmbeddedObjects, bind_ok_iff, pure_ok_iff]
      constructor
      · rintro ⟨xs, ⟨x, hx, xs', hxs, rfl⟩, rfl⟩
        have hrest := (ih _).1 ⟨_, hxs, rfl⟩
        split at hx
        · rename_i he
          cases hx
          have he : all = [] := List.isEmpty_iff.1 he
          subst he
          simp only [List.drop_nil] at hrest ⊢
          exact .skipped rfl hrest
        · obtain ⟨id, hid, hx⟩ := Res.bind_ok hx
          obtain ⟨c, hc, hx⟩ := Res.bind_ok hx
          cases hx
          have hid : all[i - w]? = some id := orErr_some hid
          obtain ⟨s, b, x, h1, h2, rfl⟩ := embeddedInk_iff.1 hc
          rw [List.getElem?_eq_some_iff] at hid
          obtain ⟨hlt, rfl⟩ := hid
          rw [List.drop_eq_getElem_cons hlt]
          exact .ink h1 h2 hrest
      · intro h
        generalize hleft : all.drop (i - w) = left at h
        cases h with
        | @ink id left _ _ es s bnd b h1 h2 h3 =>
          have hlt : i - w < all.length := by
            rcases Nat.lt_or_ge (i - w) all.length with h | h
            · exact h
            · rw [List.drop_eq_nil_of_le h] at hleft
              cases hleft
          rw [List.drop_eq_getElem_cons hlt] at hleft
          cases hleft
          obtain ⟨xs, hxs, rfl⟩ := (ih _).2 h3
          refine ⟨_, ⟨some _, ?_, xs, hxs, rfl⟩, rfl⟩
          rw [if_neg (by
            intro h
            rw [List.isEmpty_iff.1 h] at hlt
            exact absurd hlt (Nat.not_lt_zero _))]
          unfold index orErr
          rw [List.getElem?_eq_getElem hlt]
          show (parseEmbeddedInkData space _ d >>= _) = _
          rw [embeddedInk_iff.2 ⟨s, bnd, b, h1, h2, rfl⟩]
          rfl
        | skipped ha hr =>
          subst ha
          simp only [List.drop_nil] at hleft ih
          subst hleft
          obtain ⟨xs, hxs, rfl⟩ := (ih _).2 hr
          exact ⟨_, ⟨none, rfl, xs, hxs, rfl⟩, rfl⟩
    | some t =>
      have hstep : i + 1 - (w + 1) = i - w := by omega
      have ih := fun es => ih (es := es) (i := i + 1) (w := w + 1) (by omega)
      rw [hstep] at ih
      unfold parseEmbeddedObjects
      constructor
      · rintro ⟨xs, h, rfl⟩
        split at h
        · rename_i ht
          subst ht
          obtain ⟨os, hos, h⟩ := Res.bind_ok h
          cases h
          exact .lineBreak ((ih _).1 ⟨_, hos, rfl⟩)
        · split at h
          · rename_i ht
            subst ht
            obtain ⟨s, hs, h⟩ := Res.bind_ok h
            obtain ⟨os, hos, h⟩ := Res.bind_ok h
            cases h
            have hs := space_iff.1 hs
            exact .space hs.1 hs.2 ((ih _).1 ⟨_, hos, rfl⟩)
          · cases h
      · intro h
        generalize hleft : all.drop (i - w) = left at h
        cases h with
        | lineBreak hr =>
          subst hleft
          obtain ⟨xs, hxs, rfl⟩ := (ih _).2 hr
          refine ⟨some .inkLineBreak :: xs, ?_, rfl⟩
          rw [if_pos (show 0x00020027 = inkEndOfLineBlob from rfl)]
          rw [hxs]
          rfl
        | @space _ _ _ es width height h1 h2 hr =>
          subst hleft
          obtain ⟨xs, hxs, rfl⟩ := (ih _).2 hr
          refine ⟨some (.inkSpace ⟨height, width⟩) :: xs, ?_, rfl⟩
          rw [if_neg (by decide), if_pos (show 0x00020026 = inkSpaceBlob from rfl)]
          rw [(space_iff (s := ⟨height, width⟩)).2 ⟨h1, h2⟩]
          show (parseEmbeddedObjects space all (i + 1) (w + 1) ds >>= _) = _
          rw [hxs]
          rfl

theorem shown_eq (n : ParagraphStyleObject) : parseStyle n = shown n := rfl

theorem runData_iff {o : Object} {inners : List Object} :
    (∃ x, TextRunData.parse o = .ok x ∧ x.getD [] = inners) ↔ Nested o Word.textRunData inners :=
  nestedObjects_iff (t := .textRunData)

theorem richText_iff {t : RichText} : parseRichText space id = .ok t ↔ TextIs space id t := by
  simp only [parseRichText, bind_ok_iff, at_iff, pure_ok_iff, RichTextNode.parse_iff, style_iff,
    mapM_iff fun _ _ => style_iff, noteTags_iff, TextIs]
  constructor
  · rintro ⟨o, h1, n, h2, p, h3, ss, h4, x, h5, math, h6, objects, h7, em, h8, tags, h9, rfl⟩
    refine ⟨o, n, p, ss, _, _, tags, h1, h2, h3, h4, runData_iff.1 ⟨x, h5, rfl⟩,
      formulas_iff.1 ⟨_, h6, rfl⟩, embedded_iff.1 ⟨_, h7, rfl⟩,
      (embeddedAre_iff (Nat.le_refl 0)).1 ⟨em, h8, rfl⟩, h9, ?_, ?_, rfl⟩
    · intro he
      dsimp only at he ⊢
      rw [he]
      rfl
    · intro he
      dsimp only at he ⊢
      rw [if_neg]
      intro h
      exact he (List.isEmpty_iff.1 h)
  · rintro ⟨o, n, p, ss, inners, ds, tags, h1, h2, h3, h4, h5, h6, h7, h8, h9, h10, h11, h12⟩
    obtain ⟨x, hx, rfl⟩ := runData_iff.2 h5
    obtain ⟨math, hm, hme⟩ := formulas_iff.2 h6
    obtain ⟨objects, ho, hoe⟩ := embedded_iff.2 h7
    subst hoe
    obtain ⟨em, he, hee⟩ := (embeddedAre_iff (i := 0) (w := 0) (Nat.le_refl 0)).2 h8
    refine ⟨o, h1, n, h2, p, h3, ss, h4, x, hx, math, hm, objects, ho, em, he, tags, h9, ?_⟩
    rw [h12, hme, hee]
    by_cases hem : t.embeddedObjects = []
    · rw [h10 hem, hem]
      rfl
    · rw [h11 hem, if_neg]
      · rfl
      · intro h
        exact hem (List.isEmpty_iff.1 h)

end OneNote
