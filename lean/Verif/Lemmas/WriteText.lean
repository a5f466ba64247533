/-
What is read back from written texts.
-/
import Verif.Lemmas.WriteInk

namespace OneNote.Writer

open Spec Spec.Writer Spec.Storable Spec.Fields Spec.Document Spec.Objects

variable {space : ObjectSpace} {id : ExGuid}

/-! ### Lists and styles -/

theorem list_is {l : ListFormat} (ok : ListOk l) (h : Stored space id (listTree l)) :
    ListIs space id l := by
  obtain ⟨o, hat, h⟩ := node_written h (by words) (by simp)
  exact ⟨o, ⟨0, l.listFont, l.listRestart, l.listFormat, l.bold, l.italic, none, l.font, l.fontSize,
      l.fontColor⟩, hat,
    { kind := h.kind
      lastModified := req (h.val _ _ (by field)) (reads_u32 zero32)
      listFont := opt (h.val _ _ (by field)) reads_text ok.listFont
      listRestart := opt (h.val _ _ (by field)) reads_i32 ok.listRestart
      listFormat := req (h.val _ _ (by field)) (reads_listFormat _)
      bold := dflt (h.val _ _ (by field)) (reads_bool _)
      italic := dflt (h.val _ _ (by field)) (reads_bool _)
      languageCode := gone (h.absent _ (by words))
      font := opt (h.val _ _ (by field)) reads_text ok.font
      fontSize := opt (h.val _ _ (by field)) reads_u16 ok.fontSize
      fontColor := opt (h.val _ _ (by field)) reads_colorRef ok.fontColor }, rfl⟩

/-- The style object of a style. -/
def styleNode (s : ParagraphStyling) (e : Option EmbeddedObject) : ParagraphStyleObject :=
  { charset := s.charset, bold := s.bold, italic := s.italic, underline := s.underline
    strikethrough := s.strikethrough, superscript := s.superscript, subscript := s.subscript
    font := s.font, fontSize := s.fontSize, fontColor := s.fontColor, highlight := s.highlight
    nextStyle := s.nextStyle, styleId := s.styleId, paragraphAlignment := s.paragraphAlignment
    paragraphSpaceBefore := s.paragraphSpaceBefore, paragraphSpaceAfter := s.paragraphSpaceAfter
    paragraphLineSpacingExact := s.paragraphLineSpacingExact, languageCode := s.languageCode
    mathFormatting := s.mathFormatting, hyperlink := s.hyperlink, hyperlinkProtected := false
    hidden := false, textRunIsEmbeddedObject := e.isSome, textRunObjectType := e.bind embeddedType }

theorem type_fits (e : Option EmbeddedObject) : Opt (Bits 32) (e.bind embeddedType) := by
  intro n hn
  cases e with
  | none => cases hn
  | some e => cases e <;> cases hn <;> decide

theorem style_is {s : ParagraphStyling} {e : Option EmbeddedObject} (ok : StyleOk s)
    (h : Stored space id (styleTree s e)) : StyleIs space id (styleNode s e) := by
  obtain ⟨o, hat, h⟩ := node_written h (by words) (by simp)
  exact ⟨o, hat,
    { kind := h.kind
      charset := opt' (h.val _ _ (by field)) reads_charset
      bold := dflt (h.val _ _ (by field)) (reads_bool _)
      italic := dflt (h.val _ _ (by field)) (reads_bool _)
      underline := dflt (h.val _ _ (by field)) (reads_bool _)
      strikethrough := dflt (h.val _ _ (by field)) (reads_bool _)
      superscript := dflt (h.val _ _ (by field)) (reads_bool _)
      subscript := dflt (h.val _ _ (by field)) (reads_bool _)
      font := opt (h.val _ _ (by field)) reads_text ok.font
      fontSize := opt (h.val _ _ (by field)) reads_u16 ok.fontSize
      fontColor := opt (h.val _ _ (by field)) reads_colorRef ok.fontColor
      highlight := opt (h.val _ _ (by field)) reads_colorRef ok.highlight
      nextStyle := opt (h.val _ _ (by field)) reads_text ok.nextStyle
      styleId := opt (h.val _ _ (by field)) reads_text ok.styleId
      paragraphAlignment := opt' (h.val _ _ (by field)) reads_paragraph
      paragraphSpaceBefore := opt (h.val _ _ (by field)) reads_f32 ok.paragraphSpaceBefore
      paragraphSpaceAfter := opt (h.val _ _ (by field)) reads_f32 ok.paragraphSpaceAfter
      paragraphLineSpacingExact := opt (h.val _ _ (by field)) reads_f32 ok.paragraphLineSpacingExact
      languageCode := opt (h.val _ _ (by field)) reads_u32 ok.languageCode
      mathFormatting := dflt (h.val _ _ (by field)) (reads_bool _)
      hyperlink := dflt (h.val _ _ (by field)) (reads_bool _)
      hyperlinkProtected := gone' (h.absent _ (by words))
      hidden := gone' (h.absent _ (by words))
      textRunIsEmbeddedObject := dflt (h.val _ _ (by field)) (reads_bool _)
      textRunObjectType := opt (h.val _ _ (by field)) reads_u32 (type_fits e) }⟩

def styleNodes : List ParagraphStyling → List EmbeddedObject → List ParagraphStyleObject
  | [], _ => []
  | s :: ss, es => styleNode s es.head? :: styleNodes ss es.tail

theorem styles_shown (ss : List ParagraphStyling) (es : List EmbeddedObject) :
    (styleNodes ss es).map shown = ss := by
  induction ss generalizing es with
  | nil => rfl
  | cons s ss ih => exact congrArg (s :: ·) (ih es.tail)

theorem styles_are {ss : List ParagraphStyling} {es : List EmbeddedObject} (ok : ∀ s ∈ ss, StyleOk s)
    {ids : List ExGuid} (h : Each (Stored space) ids (styleTrees ss es)) :
    Each (StyleIs space) ids (styleNodes ss es) := by
  induction ss generalizing es ids with
  | nil => cases h; exact .nil
  | cons s ss ih =>
    cases h with
    | cons h1 h2 =>
      exact .cons (style_is (ok s List.mem_cons_self) h1) (ih (fun t ht => ok t (List.mem_cons_of_mem _ ht)) h2)

/-! ### The data of runs -/

/-- The fields of the data of a run. -/
def runFields (m : Option MathInlineObject) (d : EmbeddedInkData) : List (Nat × Option Val) :=
  mathFields m ++ embeddedFields d

theorem run_words (m : Option MathInlineObject) (d : EmbeddedInkData) :
    ((runFields m d).map fun f => key f.1).Nodup := by
  unfold runFields mathFields embeddedFields
  simp only [List.cons_append, List.nil_append]
  words

theorem run_counted (m : Option MathInlineObject) (d : EmbeddedInkData) (s : Stream) :
    idsCountedSet s (setValue (inner (runFields m d))) = 0 := by
  rw [counted_inner (run_words m d)]
  have key : ∀ (α : Type) (x : Option α) (f : α → Scalar),
      ((x.map fun a => (f a).val).map fun v => idsCounted s v.value).getD 0 = 0 := by
    intro α x f
    cases x with
    | none => rfl
    | some a => exact counted_scalar _ _
  have key' : ∀ (α : Type) (x : MathInlineObject → Option α) (f : α → Scalar),
      ((m.bind fun m => (x m).map fun a => (f a).val).map fun v => idsCounted s v.value).getD 0 = 0 := by
    intro α x f
    cases m with
    | none => rfl
    | some m => exact key α (x m) f
  unfold runFields mathFields embeddedFields
  simp only [List.cons_append, List.nil_append, List.map_cons, List.map_nil, List.sum_cons, List.sum_nil,
    key, key', Nat.add_zero]

theorem runs_counted (ss : List ParagraphStyling) (ms : List MathInlineObject)
    (es : List EmbeddedObject) (s : Stream) : idsCountedSets s ((runSets ss ms es).map setValue) = 0 := by
  induction ss generalizing ms es with
  | nil => rfl
  | cons t ss ih =>
    rw [runSets, List.map_cons, idsCountedSets, ih]
    exact Nat.add_eq_zero_iff.2 ⟨run_counted _ _ s, rfl⟩

theorem runs_ok (ss : List ParagraphStyling) (ms : List MathInlineObject) (es : List EmbeddedObject) :
    FieldOk (.sets 0x00120001 (runSets ss ms es) []) := ⟨runs_counted .., runs_counted ..⟩

/-- An optional value of a nested set. -/
theorem opt_inner {α : Type} {fields : List (Nat × Option Val)} {w : Nat} {R : Reading α}
    {enc : α → Scalar} {x : Option α} {P : α → Prop} (hn : (fields.map fun f => key f.1).Nodup)
    (h : (w, x.map fun a => (enc a).val) ∈ fields) (hr : ∀ {a}, P a → R (enc a).val.value a)
    (ok : Opt P x) : Optional (setValue (inner fields)) w R x :=
  opt ((get_inner hn h).trans (by rw [Option.map_map, Option.map_map]; rfl)) hr ok

theorem opt_bind {fields : List (Nat × Option Val)} {β : Type} {w : Nat} {R : Reading β}
    {enc : β → Scalar} {m : MathInlineObject} {x : MathInlineObject → Option β} {P : β → Prop}
    (hn : (fields.map fun f => key f.1).Nodup)
    (h : (w, (some m).bind fun m => (x m).map fun a => (enc a).val) ∈ fields)
    (hr : ∀ {a}, P a → R (enc a).val.value a) (ok : Opt P (x m)) :
    Optional (setValue (inner fields)) w R (x m) := opt_inner hn h hr ok

theorem math_is {o : Object} {m : MathInlineObject} {d : EmbeddedInkData} (ok : MathOk m)
    (h : o.props.properties = setValue (inner (runFields (some m) d))) : MathIs o m := by
  have hn := run_words (some m) d
  have hm := math_code m.objectType
  refine ⟨⟨some (Scalar.codeOf Value.mathTypes m.objectType), some m.argCount, m.column, m.align,
    m.char, m.char1, m.char2⟩, ?_, hm.1, rfl, rfl, rfl, rfl, rfl, rfl⟩
  rw [show runFields (some m) d = mathFields (some m) ++ embeddedFields d from rfl] at h hn
  refine ⟨?_, ?_, ?_, ?_, ?_, ?_, ?_⟩ <;> rw [h]
  · exact .inr ⟨_, _, get_inner hn (List.mem_append_left _ (by unfold mathFields; field)), reads_u32 hm.2, rfl⟩
  · exact .inr ⟨_, _, get_inner hn (w := Word.mathInlineObjectCount) (v := some _)
      (List.mem_append_left _ (by unfold mathFields; field)), reads_u32 ok.argCount, rfl⟩
  · exact opt_bind hn (x := (·.column)) (List.mem_append_left _ (by unfold mathFields; field)) reads_u8 ok.column
  · exact opt_bind hn (x := (·.align)) (List.mem_append_left _ (by unfold mathFields; field)) reads_u8 ok.align
  · exact opt_bind hn (x := (·.char)) (List.mem_append_left _ (by unfold mathFields; field)) reads_unit ok.char
  · exact opt_bind hn (x := (·.char1)) (List.mem_append_left _ (by unfold mathFields; field)) reads_unit ok.char1
  · exact opt_bind hn (x := (·.char2)) (List.mem_append_left _ (by unfold mathFields; field)) reads_unit ok.char2

theorem opt_map {α β : Type} {P : α → Prop} {Q : β → Prop} {f : α → β} {x : Option α}
    (h : ∀ a, P a → Q (f a)) (ok : Opt P x) : Opt Q (x.map f) := by
  intro b hb
  obtain ⟨a, ha, rfl⟩ := Option.map_eq_some_iff.1 hb
  exact h a (ok a ha)

theorem opt_none {α : Type} {P : α → Prop} : Opt P none := fun _ h => nomatch h

/-- The numbers of an embedded object fit. -/
structure DataOk (d : EmbeddedInkData) : Prop where
  spaceWidth : Opt (Bits 32) d.spaceWidth
  spaceHeight : Opt (Bits 32) d.spaceHeight
  startX : Opt (Bits 32) d.startX
  startY : Opt (Bits 32) d.startY
  height : Opt (Bits 32) d.height
  width : Opt (Bits 32) d.width
  offsetHoriz : Opt (Bits 32) d.offsetHoriz
  offsetVert : Opt (Bits 32) d.offsetVert

theorem opt_some {α : Type} {P : α → Prop} {a : α} (h : P a) : Opt P (some a) :=
  fun _ e => Option.some.inj e ▸ h

theorem data_ok {e : EmbeddedObject} (ok : EmbeddedOk e) : DataOk (embeddedData (some e)) := by
  cases e with
  | ink c =>
    obtain ⟨h1, h2⟩ := ok
    refine ⟨opt_none, opt_none, opt_map (fun b hb => ?_) h2, opt_map (fun b hb => ?_) h2,
      opt_map (fun b hb => ?_) h2, opt_map (fun b hb => ?_) h2, h1.offsetHorizontal, h1.offsetVertical⟩
    all_goals
      obtain ⟨x, y, h, w, hx, hy, hh, hw, rfl⟩ := hb
      assumption
  | inkSpace s =>
    exact ⟨opt_some ok.2, opt_some ok.1, opt_none, opt_none, opt_none, opt_none, opt_none, opt_none⟩
  | inkLineBreak =>
    exact ⟨opt_none, opt_none, opt_none, opt_none, opt_none, opt_none, opt_none, opt_none⟩

theorem embedded_is {o : Object} {m : Option MathInlineObject} {d : EmbeddedInkData} (ok : DataOk d)
    (h : o.props.properties = setValue (inner (runFields m d))) : IsEmbeddedInkData o d := by
  have hn := run_words m d
  rw [show runFields m d = mathFields m ++ embeddedFields d from rfl] at h hn
  refine ⟨?_, ?_, ?_, ?_, ?_, ?_, ?_, ?_⟩ <;> rw [h]
  · exact opt_inner hn (List.mem_append_right _ (by unfold embeddedFields; field)) reads_f32 ok.spaceWidth
  · exact opt_inner hn (List.mem_append_right _ (by unfold embeddedFields; field)) reads_f32 ok.spaceHeight
  · exact opt_inner hn (List.mem_append_right _ (by unfold embeddedFields; field)) reads_f32 ok.startX
  · exact opt_inner hn (List.mem_append_right _ (by unfold embeddedFields; field)) reads_f32 ok.startY
  · exact opt_inner hn (List.mem_append_right _ (by unfold embeddedFields; field)) reads_f32 ok.height
  · exact opt_inner hn (List.mem_append_right _ (by unfold embeddedFields; field)) reads_f32 ok.width
  · exact opt_inner hn (List.mem_append_right _ (by unfold embeddedFields; field)) reads_f32 ok.offsetHoriz
  · exact opt_inner hn (List.mem_append_right _ (by unfold embeddedFields; field)) reads_f32 ok.offsetVert

/-- The formulas and embedded objects of the runs. -/
theorem runs_are {as bs : List ParagraphStyling} {ms : List MathInlineObject} {es : List EmbeddedObject}
    {inners : List Object}
    (h : Each (fun (s : List (Nat × Val)) (inner : Object) => inner.props.properties = setValue s)
      (runSets as ms es) inners)
    (hm : as.countP (·.mathFormatting) = ms.length) (he : es.length ≤ as.length)
    (okm : ∀ m ∈ ms, MathOk m) (oke : ∀ e ∈ es, EmbeddedOk e) :
    Formulas (inners.zip (styleNodes (as ++ bs) es)) ms ∧
    Embedded (inners.zip (styleNodes (as ++ bs) es))
      (es.map fun e => (embeddedType e, embeddedData (some e))) := by
  induction as generalizing ms es inners with
  | nil =>
    cases h
    cases ms with
    | nil =>
      cases es with
      | nil => exact ⟨.nil, .nil⟩
      | cons e es => cases he
    | cons m ms => cases hm
  | cons s as ih =>
    rw [runSets] at h
    cases h with
    | @cons _ i _ is h1 h2 =>
    show Formulas ((i, styleNode s es.head?) :: is.zip (styleNodes (as ++ bs) es.tail)) _ ∧
      Embedded ((i, styleNode s es.head?) :: is.zip (styleNodes (as ++ bs) es.tail)) _
    have he' : es.tail.length ≤ as.length := by
      rw [List.length_tail]
      rw [List.length_cons] at he
      omega
    have oke' : ∀ e ∈ es.tail, EmbeddedOk e := fun e h => oke e (List.mem_of_mem_tail h)
    have fin : Embedded (is.zip (styleNodes (as ++ bs) es.tail))
        (es.tail.map fun e => (embeddedType e, embeddedData (some e))) →
        Embedded ((i, styleNode s es.head?) :: is.zip (styleNodes (as ++ bs) es.tail))
        (es.map fun e => (embeddedType e, embeddedData (some e))) := by
      intro hrest
      cases es with
      | nil => exact .other rfl hrest
      | cons e es =>
        exact .object rfl (embedded_is (data_ok (oke e List.mem_cons_self)) h1) hrest
    rw [List.countP_cons] at hm
    cases hs : s.mathFormatting with
    | true =>
      rw [hs] at h1 h2 hm
      cases ms with
      | nil => cases hm
      | cons m ms =>
        obtain ⟨f, e⟩ := ih h2 (Nat.succ.inj hm) he'
          (fun m hm => okm m (List.mem_cons_of_mem _ hm)) oke'
        exact ⟨.formula hs (math_is (okm m List.mem_cons_self) h1) f, fin e⟩
    | false =>
      rw [hs] at h1 h2 hm
      obtain ⟨f, e⟩ := ih h2 hm he' okm oke'
      exact ⟨.other hs f, fin e⟩

/-- What the embedded objects are. -/
theorem embedded_are {es : List EmbeddedObject} (ok : ∀ e ∈ es, EmbeddedOk e) {all left : List ExGuid}
    (h : Each (Stored space) left
      ((drawings es).map fun i => inkDataTree i.inkStrokes i.boundingBox)) :
    EmbeddedAre space all left (es.map fun e => (embeddedType e, embeddedData (some e))) es := by
  induction es generalizing left with
  | nil => exact .nil
  | cons e es ih =>
    have ih := fun {left} => @ih (fun e he => ok e (List.mem_cons_of_mem _ he)) left
    have hok := ok e List.mem_cons_self
    cases e with
    | ink c =>
      cases h with
      | cons h1 h2 =>
        obtain ⟨hd, hp⟩ := hok
        obtain ⟨⟨strokes, bounds, oh, ov⟩, b⟩ := c
        refine .ink (inkData_is (sx := none) rfl hd h1) ?_ (ih h2)
        cases b with
        | none => exact .inr ⟨.inl rfl, rfl⟩
        | some b =>
          obtain ⟨x, y, h, w, _, _, _, _, rfl⟩ := hp b rfl
          exact .inl ⟨x, y, h, w, rfl, rfl, rfl, rfl, rfl⟩
    | inkSpace s => exact .space rfl rfl (ih h)
    | inkLineBreak => exact .lineBreak (ih h)

/-! ### How many runs have data -/

theorem last_max {l : List Nat} (h : l.Pairwise (· < ·)) {x : Nat} (hx : x ∈ l) :
    ∃ y, l.getLast? = some y ∧ y ∈ l ∧ x ≤ y := by
  induction l generalizing x with
  | nil => cases hx
  | cons a l ih =>
    rw [List.pairwise_cons] at h
    cases l with
    | nil =>
      cases hx with
      | head => exact ⟨_, rfl, List.mem_cons_self, Nat.le_refl _⟩
      | tail _ hx => cases hx
    | cons b l =>
      rw [List.getLast?_cons_cons]
      rcases List.mem_cons.1 hx with rfl | hx
      · obtain ⟨y, h1, h2, _⟩ := ih h.2 List.mem_cons_self
        exact ⟨y, h1, List.mem_cons_of_mem _ h2, Nat.le_of_lt (h.1 y h2)⟩
      · obtain ⟨y, h1, h2, h3⟩ := ih h.2 hx
        exact ⟨y, h1, List.mem_cons_of_mem _ h2, h3⟩

theorem runCount_is {styles : List ParagraphStyling} {formulas k : Nat} (hk : k ≤ styles.length)
    (hc : (styles.take k).countP (·.mathFormatting) = formulas) :
    k ≤ runCount styles formulas ∧ runCount styles formulas ≤ styles.length ∧
    (styles.take (runCount styles formulas)).countP (·.mathFormatting) = formulas := by
  have hm : k ∈ (List.range (styles.length + 1)).filter fun k =>
      decide ((styles.take k).countP (·.mathFormatting) = formulas) :=
    List.mem_filter.2 ⟨List.mem_range.2 (by omega), decide_eq_true hc⟩
  obtain ⟨y, h1, h2, h3⟩ := last_max (List.pairwise_lt_range.filter _) hm
  have : runCount styles formulas = y := by
    unfold runCount
    rw [h1]
    rfl
  rw [this]
  obtain ⟨h4, h5⟩ := List.mem_filter.1 h2
  exact ⟨h3, by have := List.mem_range.1 h4; omega, of_decide_eq_true h5⟩

/-! ### Texts -/

theorem text_is {t : RichText} (ok : TextOk t) (h : Stored space id (textTree t)) : TextIs space id t := by
  obtain ⟨o, hat, h⟩ := node_written h (by words) (by simp [tags_ok, runs_ok])
  obtain ⟨sids, hsr, hs⟩ := h.many Word.textRunFormatting _ (by field)
  obtain ⟨dids, hdr, hd⟩ := h.many Word.textRunDataObject _ (by field)
  obtain ⟨_, _, inners, _, hnest, _, hin⟩ := h.sets Word.textRunData _ _ _ (by field)
  obtain ⟨r, hr, hpar⟩ := h.one Word.paragraphStyle _ (by field)
  obtain ⟨ns, hns, htags⟩ := tags_are ok.noteTags h (w := Word.noteTags) (by field)
  rcases hpar with ⟨_, hd⟩ | ⟨x, y, rfl, hy, hst⟩
  · cases hd
  cases hy
  obtain ⟨k, hk, hcount, hemb⟩ := ok.runs
  obtain ⟨hk1, hk2, hk3⟩ := runCount_is hk hcount
  have hsplit := List.take_append_drop (runCount t.textRunFormatting t.mathInlineObjects.length)
    t.textRunFormatting
  obtain ⟨hform, hembd⟩ := runs_are
    (bs := t.textRunFormatting.drop (runCount t.textRunFormatting t.mathInlineObjects.length))
    (each_mono hin fun _ _ _ h => h.2.2.1) hk3 (by rw [List.length_take]; omega) ok.mathInlineObjects
    ok.embeddedObjects
  rw [hsplit] at hform hembd
  refine ⟨o, ⟨0, false, sids, t.textRunIndices, dids, x, t.paragraphSpaceBefore, t.paragraphSpaceAfter,
    t.paragraphLineSpacingExact, t.paragraphAlignment, some t.text, false, false, false, false,
    t.layoutAlignmentInParent, t.layoutAlignmentSelf, none, false, ns⟩, styleNode t.paragraphStyle none,
    styleNodes t.textRunFormatting t.embeddedObjects, inners, _, t.noteTags, hat, ?_,
    style_is ok.paragraphStyle hst, styles_are ok.styles hs, hnest, hform, hembd,
    embedded_are ok.embeddedObjects hd, htags, fun _ => rfl, ok.embedded, ?_⟩
  · exact
      { kind := h.kind
        lastModifiedTime := req (h.val _ _ (by field)) (reads_u32 zero32)
        tightLayout := gone' (h.absent _ (by words))
        textRunFormatting := .inr hsr
        textRunIndices := dflt (h.val _ _ (by field)) (reads_u32s ok.indices)
        textRunDataObject := .inr hdr
        paragraphStyle := hr
        paragraphSpaceBefore := dflt (h.val _ _ (by field)) (reads_f32 ok.paragraphSpaceBefore)
        paragraphSpaceAfter := dflt (h.val _ _ (by field)) (reads_f32 ok.paragraphSpaceAfter)
        paragraphLineSpacingExact := opt (h.val _ _ (by field)) reads_f32 ok.paragraphLineSpacingExact
        paragraphAlignment := dflt (h.val _ _ (by field)) (reads_paragraph _)
        text := by
          have hu := h.val Word.richEditTextUnicode _ (by field)
          have hl := h.val Word.textExtendedAscii _ (by field)
          by_cases hnul : nul ∈ t.text
          · rw [if_pos hnul] at hu hl
            exact .inr ⟨hu, .inr ⟨_, _, hl, reads_latin1 (ok.text hnul), rfl⟩⟩
          · rw [if_neg hnul] at hu
            exact .inl ⟨⟨_, rfl⟩, .inr ⟨_, _, hu, reads_text hnul, rfl⟩⟩
        isTitleTime := gone' (h.absent _ (by words))
        isBoilerText := gone' (h.absent _ (by words))
        isTitleDate := gone' (h.absent _ (by words))
        isTitleText := gone' (h.absent _ (by words))
        layoutAlignmentInParent := layout_field (h.val _ _ (by field))
        layoutAlignmentSelf := layout_field (h.val _ _ (by field))
        languageCode := gone (h.absent _ (by words))
        rtl := gone' (h.absent _ (by words))
        noteTags := hns }
  · rw [styles_shown]
    rfl

end OneNote.Writer
