/-
What the node parsers accept: small objects.
-/
import Verif.Spec.Objects
import Verif.Lemmas.Readings3
import Verif.Lemmas.Refs

namespace OneNote

open Spec Spec.Fields Spec.Objects

theorem assert_iff {o : Object} {k : PropertySetId} {u : Unit} :
    assertPropertySet o k = .ok u ↔ o.jcId = k.asJcid := by
  unfold assertPropertySet
  by_cases h : o.jcId = k.asJcid
  · simp [h]
  · simp [h]

theorem required_ok_iff {α : Type} {x : Option α} {a : α} : required x = .ok a ↔ x = some a := by
  constructor
  · exact required_ok
  · rintro rfl; rfl

theorem parseSigned_iff {t : PropertyType} {o : Object} {r : Option Int} :
    (∃ x, Simple.parseU32 t o = .ok x ∧ x.map toI32 = r) ↔
      Optional o.props.properties t.code Value.i32 r := by
  simp only [parseU32_iff]
  constructor
  · rintro ⟨x, ⟨hn, rfl⟩ | ⟨v, n, hv, rfl, rfl⟩, rfl⟩
    · exact .inl ⟨hn, rfl⟩
    · exact .inr ⟨_, _, hv, ⟨n, rfl, rfl⟩, rfl⟩
  · rintro (⟨hn, rfl⟩ | ⟨v, i, hv, ⟨n, rfl, rfl⟩, rfl⟩)
    · exact ⟨none, .inl ⟨hn, rfl⟩, rfl⟩
    · exact ⟨some n, .inr ⟨_, n, hv, rfl, rfl⟩, rfl⟩

theorem parseLevel_iff {t : PropertyType} {o : Object} {r : Int} :
    (∃ x, Simple.parseU32 t o = .ok x ∧ toI32 (x.getD 0) = r) ↔
      Default o.props.properties t.code Value.i32 0 r := by
  simp only [parseU32_iff]
  constructor
  · rintro ⟨x, ⟨hn, rfl⟩ | ⟨v, n, hv, rfl, rfl⟩, rfl⟩
    · exact .inl ⟨hn, rfl⟩
    · exact .inr ⟨_, hv, n, rfl, rfl⟩
  · rintro (⟨hn, rfl⟩ | ⟨v, hv, n, rfl, rfl⟩)
    · exact ⟨none, .inl ⟨hn, rfl⟩, rfl⟩
    · exact ⟨some n, .inr ⟨_, n, hv, rfl, rfl⟩, rfl⟩

theorem parseNotBool_iff {t : PropertyType} {o : Object} {d r : Bool} :
    (∃ x, Simple.parseBool t o = .ok x ∧ (x.map (!·)).getD d = r) ↔
      Default o.props.properties t.code Value.notBool d r := by
  simp only [parseBool_iff]
  constructor
  · rintro ⟨x, ⟨hn, rfl⟩ | ⟨v, n, hv, rfl, rfl⟩, rfl⟩
    · exact .inl ⟨hn, rfl⟩
    · exact .inr ⟨_, hv, by simp [Value.notBool]⟩
  · rintro (⟨hn, rfl⟩ | ⟨v, hv, rfl⟩)
    · exact ⟨none, .inl ⟨hn, rfl⟩, rfl⟩
    · exact ⟨some (!r), .inr ⟨_, _, hv, rfl, rfl⟩, by simp⟩

/-! ### File names -/

theorem unescape_step (c : Char) (s : List Char) (h : ¬ (c = '^' ∧ ∃ r, s = 'M' :: r ∨ s = 'J' :: r)) :
    unescapeFilename (c :: s) = c :: unescapeFilename s := by
  unfold unescapeFilename
  cases s with
  | nil => rfl
  | cons d s =>
    have hm : ¬ (c = '^' ∧ d = 'M') := fun ⟨h1, h2⟩ => h ⟨h1, s, .inl (by rw [h2])⟩
    have hj : ¬ (c = '^' ∧ d = 'J') := fun ⟨h1, h2⟩ => h ⟨h1, s, .inr (by rw [h2])⟩
    rw [replacePair, if_neg hm]
    -- the character after `c` is `d`, or the `+` that replaces it
    have key : ∃ e r, replacePair '^' 'M' '+' (d :: s) = e :: r ∧ ¬ (c = '^' ∧ e = 'J') := by
      cases s with
      | nil => exact ⟨d, [], rfl, hj⟩
      | cons f s =>
        rw [replacePair]
        split
        · exact ⟨'+', _, rfl, fun h => by simp at h⟩
        · exact ⟨d, _, rfl, hj⟩
    obtain ⟨e, r, he, hne⟩ := key
    rw [he, replacePair, if_neg hne]

theorem unescape_plus (s : List Char) :
    unescapeFilename ('^' :: 'M' :: s) = '+' :: unescapeFilename s := by
  unfold unescapeFilename
  rw [replacePair, if_pos ⟨rfl, rfl⟩]
  cases replacePair '^' 'M' '+' s with
  | nil => rfl
  | cons e r => rw [replacePair, if_neg fun h => absurd h.1 (by decide)]

theorem unescape_comma (s : List Char) :
    unescapeFilename ('^' :: 'J' :: s) = ',' :: unescapeFilename s := by
  unfold unescapeFilename
  rw [replacePair, if_neg (by decide)]
  have key : replacePair '^' 'M' '+' ('J' :: s) = 'J' :: replacePair '^' 'M' '+' s := by
    cases s with
    | nil => rfl
    | cons d s => rw [replacePair, if_neg fun h => absurd h.1 (by decide)]
  rw [key, replacePair, if_pos ⟨rfl, rfl⟩]

theorem unescape_sound {s t : List Char} (h : Value.Unescaped s t) : unescapeFilename s = t := by
  induction h with
  | nil => rfl
  | plus _ ih => rw [unescape_plus, ih]
  | comma _ ih => rw [unescape_comma, ih]
  | other hc _ ih => rw [unescape_step _ _ hc, ih]

theorem unescape_complete : ∀ (n : Nat) (s : List Char), s.length ≤ n →
    Value.Unescaped s (unescapeFilename s)
  | _, [], _ => .nil
  | n + 1, c :: s, hn => by
    have hs : s.length ≤ n := by simpa using hn
    by_cases h : c = '^' ∧ ∃ r, s = 'M' :: r ∨ s = 'J' :: r
    · obtain ⟨rfl, r, rfl | rfl⟩ := h
      · rw [unescape_plus]
        exact .plus (unescape_complete n r (by simp at hs; omega))
      · rw [unescape_comma]
        exact .comma (unescape_complete n r (by simp at hs; omega))
    · rw [unescape_step _ _ h]
      exact .other h (unescape_complete n s hs)

theorem unescape_iff (s t : List Char) : unescapeFilename s = t ↔ Value.Unescaped s t := by
  constructor
  · rintro rfl; exact unescape_complete _ s (Nat.le_refl _)
  · exact unescape_sound

theorem parseFilename_iff {t : PropertyType} {o : Object} {r : Option Text} :
    (∃ x, Simple.parseString t o = .ok x ∧ x.map unescapeFilename = r) ↔
      Optional o.props.properties t.code Value.filename r := by
  simp only [parseString_iff]
  constructor
  · rintro ⟨x, ⟨hn, rfl⟩ | ⟨v, n, hv, hs, rfl⟩, rfl⟩
    · exact .inl ⟨hn, rfl⟩
    · exact .inr ⟨_, _, hv, ⟨n, hs, (unescape_iff _ _).1 rfl⟩, rfl⟩
  · rintro (⟨hn, rfl⟩ | ⟨v, i, hv, ⟨n, hs, hu⟩, rfl⟩)
    · exact ⟨none, .inl ⟨hn, rfl⟩, rfl⟩
    · exact ⟨some n, .inr ⟨_, n, hv, hs, rfl⟩, congrArg some ((unescape_iff _ _).2 hu)⟩

/-! ### Nested property sets -/

theorem NoteTagData.parseData_iff {o : Object} {n : NoteTagData} : NoteTagData.parseData o = .ok n
  ↔ IsNoteTagData o n := by
  unfold NoteTagData.parseData
  constructor
  · intro h
    obtain ⟨r_definition, h_definition, h⟩ := Res.bind_ok h
    obtain ⟨r_createdAt, h_createdAt, h⟩ := Res.bind_ok h
    obtain ⟨createdAt, hr_createdAt, h⟩ := Res.bind_ok h
    obtain ⟨r_completedAt, h_completedAt, h⟩ := Res.bind_ok h
    obtain ⟨r_itemStatus, h_itemStatus, h⟩ := Res.bind_ok h
    obtain ⟨itemStatus, hr_itemStatus, h⟩ := Res.bind_ok h
    cases h
    exact ⟨ref_iff.1 h_definition,
      required_iff.1 (parseTime_iff.1 (h_createdAt.trans (congrArg Except.ok (required_ok
        hr_createdAt)))),
      parseTime_iff.1 h_completedAt,
      required_iff.1 (parseItemStatus_iff.1 (h_itemStatus.trans (congrArg Except.ok (required_ok
        hr_itemStatus))))⟩
  · obtain ⟨definition, createdAt, completedAt, itemStatus⟩ := n
    rintro ⟨h_definition, h_createdAt, h_completedAt, h_itemStatus⟩
    dsimp only at *
    refine bind_ok_iff.2 ⟨_, ref_iff.2 h_definition, ?_⟩
    refine bind_ok_iff.2 ⟨_, parseTime_iff.2 (required_iff.2 h_createdAt), bind_ok_iff.2 ⟨_, rfl,
      ?_⟩⟩
    refine bind_ok_iff.2 ⟨_, parseTime_iff.2 h_completedAt, ?_⟩
    refine bind_ok_iff.2 ⟨_, parseItemStatus_iff.2 (required_iff.2 h_itemStatus), bind_ok_iff.2 ⟨_,
      rfl, ?_⟩⟩
    rfl

/-- Two steps for every set of a list. -/
theorem each_comp {α β γ : Type} {R : α → β → Prop} {S : β → γ → Prop} {as : List α} {cs : List γ} :
    Each (fun a c => ∃ b, R a b ∧ S b c) as cs ↔ ∃ bs, Each R as bs ∧ Each S bs cs := by
  constructor
  · intro h
    induction h with
    | nil => exact ⟨[], .nil, .nil⟩
    | cons hr _ ih =>
      obtain ⟨b, h1, h2⟩ := hr
      obtain ⟨bs, h3, h4⟩ := ih
      exact ⟨b :: bs, .cons h1 h3, .cons h2 h4⟩
  · rintro ⟨bs, h1, h2⟩
    induction h1 generalizing cs with
    | nil => cases h2; exact .nil
    | cons hr _ ih =>
      cases h2 with
      | cons hs h2 => exact .cons ⟨_, hr, hs⟩ (ih h2)

theorem nestedObjects_iff {t : PropertyType} {o : Object} {inners : List Object} :
    (∃ x, nestedObjects t o = .ok x ∧ x.getD [] = inners) ↔ Nested o t.code inners := by
  unfold nestedObjects Nested
  have hg : o.props.get t = o.props.properties.get t.code := rfl
  rw [hg]
  cases hv : o.props.properties.get t.code with
  | none => simp [eq_comm]
  | some v =>
    cases v with
    | propertyValues kind sets =>
      constructor
      · rintro ⟨x, h, rfl⟩
        simp only at h
        cases hs : sets.mapM (nestedObject t o kind) with
        | error e => rw [hs] at h; cases h
        | ok os =>
          rw [hs] at h
          cases h
          exact .inr ⟨kind, sets, rfl, each_mono (mapM_each.1 hs) fun _ _ _ h => nestedObject_iff.1 h⟩
      · rintro (⟨h, _⟩ | ⟨k, s, he, h⟩)
        · cases h
        · cases he
          have := mapM_each.2 (each_mono h fun _ _ _ h => nestedObject_iff.2 h)
          simp only [this]
          exact ⟨_, rfl, rfl⟩
    | _ => simp

theorem parseTags_iff {o : Object} {tags : List NoteTagData} :
    (∃ x, NoteTagData.parse o = .ok x ∧ x.getD [] = tags) ↔
      ∃ inners, Nested o Word.noteTags inners ∧ Each IsNoteTagData inners tags := by
  have hstep : ∀ (kind : Nat) (sets : List PropertySet),
      (sets.mapM (fun props => do
        let object ← nestedObject .noteTags o kind props
        NoteTagData.parseData object) = .ok tags ↔
      ∃ inners, Each (Inside o Word.noteTags kind) sets inners ∧ Each IsNoteTagData inners tags) := by
    intro kind sets
    rw [← each_comp, mapM_each]
    constructor
    · intro h
      refine each_mono h fun a c _ h => ?_
      obtain ⟨b, h1, h2⟩ := bind_ok_iff.1 h
      exact ⟨b, nestedObject_iff.1 h1, NoteTagData.parseData_iff.1 h2⟩
    · intro h
      refine each_mono h fun a c _ h => ?_
      obtain ⟨b, h1, h2⟩ := h
      exact bind_ok_iff.2 ⟨b, nestedObject_iff.2 h1, NoteTagData.parseData_iff.2 h2⟩
  unfold NoteTagData.parse Nested
  have hg : o.props.get .noteTags = o.props.properties.get Word.noteTags := rfl
  rw [hg]
  cases hv : o.props.properties.get Word.noteTags with
  | none =>
    constructor
    · rintro ⟨x, h, rfl⟩
      cases h
      exact ⟨[], .inl ⟨rfl, rfl⟩, .nil⟩
    · rintro ⟨inners, ⟨_, rfl⟩ | ⟨_, _, h, _⟩, h'⟩
      · cases h'; exact ⟨none, rfl, rfl⟩
      · cases h
  | some v =>
    cases v with
    | propertyValues kind sets =>
      constructor
      · rintro ⟨x, h, rfl⟩
        obtain ⟨d, h1, h2⟩ := bind_ok_iff.1 h
        cases h2
        obtain ⟨inners, h3, h4⟩ := (hstep kind sets).1 h1
        exact ⟨inners, .inr ⟨kind, sets, rfl, h3⟩, h4⟩
      · rintro ⟨inners, ⟨h, _⟩ | ⟨k, s, he, h⟩, h'⟩
        · cases h
        · cases he
          exact ⟨some tags, bind_ok_iff.2 ⟨_, (hstep kind sets).2 ⟨inners, h, h'⟩, rfl⟩, rfl⟩
    | _ => simp

theorem parseText_iff {o : Object} {r : Option Text} :
    RichTextNode.parseText o = .ok r ↔ IsText o r := by
  unfold RichTextNode.parseText IsText
  rw [bind_ok_iff]
  constructor
  · rintro ⟨a, ha, h⟩
    rcases parseString_iff.1 ha with ⟨hn, rfl⟩ | ⟨v, t, hv, ht, rfl⟩
    · exact .inr ⟨hn, parseAscii_iff.1 h⟩
    · cases h
      exact .inl ⟨⟨t, rfl⟩, .inr ⟨v, t, hv, ht, rfl⟩⟩
  · rintro (⟨⟨t, rfl⟩, h⟩ | ⟨hn, h⟩)
    · exact ⟨some t, parseString_iff.2 h, rfl⟩
    · exact ⟨none, parseString_iff.2 (.inl ⟨hn, rfl⟩), parseAscii_iff.2 h⟩

/-! ### Objects without a generated lemma -/

theorem fileContainer_iff {o : Object} {d : Bytes} :
    EmbeddedFileContainer.parse o = .ok d ↔ IsFileContainer o d := by
  unfold EmbeddedFileContainer.parse
  constructor
  · intro h
    obtain ⟨_, hk, h⟩ := Res.bind_ok h
    exact ⟨assert_iff.1 hk, required_ok h⟩
  · rintro ⟨hk, hd⟩
    exact bind_ok_iff.2 ⟨(), assert_iff.2 hk, required_ok_iff.2 hd⟩

theorem IFrameNode.parse_iff {o : Object} {n : IFrame} : IFrameNode.parse o = .ok n ↔ IsIFrame o n := by
  unfold IFrameNode.parse
  constructor
  · intro h
    obtain ⟨_, hk, h⟩ := Res.bind_ok h
    obtain ⟨r, h1, h⟩ := Res.bind_ok h
    obtain ⟨a, h2, h⟩ := Res.bind_ok h
    obtain ⟨b, h3, h⟩ := Res.bind_ok h
    cases h
    exact ⟨assert_iff.1 hk, parseU32_iff.1 h1,
      required_iff.1 (parseString_iff.1 (h2.trans (congrArg Except.ok (required_ok h3))))⟩
  · obtain ⟨e, s⟩ := n
    rintro ⟨hk, h1, h2⟩
    exact bind_ok_iff.2 ⟨(), assert_iff.2 hk, bind_ok_iff.2 ⟨_, parseU32_iff.2 h1,
      bind_ok_iff.2 ⟨_, parseString_iff.2 (required_iff.2 h2), bind_ok_iff.2 ⟨_, rfl, rfl⟩⟩⟩⟩

theorem PictureContainer.parse_iff {o : Object} {n : PictureContainer} :
    PictureContainer.parse o = .ok n ↔ IsPictureContainer o n := by
  unfold PictureContainer.parse
  constructor
  · intro h
    split at h
    · cases h
    · next hk =>
      obtain ⟨r, h1, h⟩ := Res.bind_ok h
      cases h
      refine ⟨?_, ?_, parseString_iff.1 h1⟩
      · change ¬ (o.jcId ≠ 0x00080039 ∧ o.jcId ≠ 0x0008003A) at hk
        omega
      · cases o.fileData with
        | none => exact .inr ⟨rfl, rfl⟩
        | some d => exact .inl rfl
  · obtain ⟨d, e⟩ := n
    rintro ⟨hk, hd, he⟩
    have hk' : ¬ (o.jcId ≠ PropertySetId.pictureContainer.asJcid ∧
        o.jcId ≠ PropertySetId.xpsContainer.asJcid) := by
      change ¬ (o.jcId ≠ 0x00080039 ∧ o.jcId ≠ 0x0008003A)
      omega
    rw [if_neg hk']
    refine bind_ok_iff.2 ⟨_, parseString_iff.2 he, ?_⟩
    dsimp only at hd
    rcases hd with h | ⟨h, rfl⟩
    · rw [h]; rfl
    · rw [h]; rfl

theorem PageManifestNode.parse_iff {o : Object} {page : ExGuid} :
    PageManifestNode.parse o = .ok page ↔ IsPageManifest o page := by
  unfold PageManifestNode.parse
  constructor
  · intro h
    obtain ⟨_, hk, h⟩ := Res.bind_ok h
    obtain ⟨r, h1, h⟩ := Res.bind_ok h
    have h := required_ok h
    cases r with
    | none => cases h
    | some ids => exact ⟨assert_iff.1 hk, ids, refs_required.1 h1, h⟩
  · rintro ⟨hk, ids, h1, h2⟩
    exact bind_ok_iff.2 ⟨(), assert_iff.2 hk, bind_ok_iff.2 ⟨_, refs_required.2 h1,
      required_ok_iff.2 h2⟩⟩

theorem EmbeddedFileNode.parse_iff {o : Object} {n : EmbeddedFileNode} : EmbeddedFileNode.parse o =
  .ok n ↔ IsEmbeddedFileNode o n := by
  unfold EmbeddedFileNode.parse
  constructor
  · intro h
    obtain ⟨_, hk, h⟩ := Res.bind_ok h
    obtain ⟨r_lastModified, h_lastModified, h⟩ := Res.bind_ok h
    obtain ⟨lastModified, hr_lastModified, h⟩ := Res.bind_ok h
    obtain ⟨r_pictureContainer, h_pictureContainer, h⟩ := Res.bind_ok h
    obtain ⟨r_layoutMaxWidth, h_layoutMaxWidth, h⟩ := Res.bind_ok h
    obtain ⟨r_layoutMaxHeight, h_layoutMaxHeight, h⟩ := Res.bind_ok h
    obtain ⟨r_isLayoutSizeSetByUser, h_isLayoutSizeSetByUser, h⟩ := Res.bind_ok h
    obtain ⟨r_text, h_text, h⟩ := Res.bind_ok h
    obtain ⟨r_textLanguageCode, h_textLanguageCode, h⟩ := Res.bind_ok h
    obtain ⟨r_layoutAlignmentInParent, h_layoutAlignmentInParent, h⟩ := Res.bind_ok h
    obtain ⟨r_layoutAlignmentSelf, h_layoutAlignmentSelf, h⟩ := Res.bind_ok h
    obtain ⟨r_embeddedFileContainer, h_embeddedFileContainer, h⟩ := Res.bind_ok h
    obtain ⟨embeddedFileContainer, hr_embeddedFileContainer, h⟩ := Res.bind_ok h
    obtain ⟨r_embeddedFileName, h_embeddedFileName, h⟩ := Res.bind_ok h
    obtain ⟨embeddedFileName, hr_embeddedFileName, h⟩ := Res.bind_ok h
    obtain ⟨r_sourcePath, h_sourcePath, h⟩ := Res.bind_ok h
    obtain ⟨r_fileType, h_fileType, h⟩ := Res.bind_ok h
    obtain ⟨r_pictureWidth, h_pictureWidth, h⟩ := Res.bind_ok h
    obtain ⟨r_pictureHeight, h_pictureHeight, h⟩ := Res.bind_ok h
    obtain ⟨r_offsetFromParentHoriz, h_offsetFromParentHoriz, h⟩ := Res.bind_ok h
    obtain ⟨r_offsetFromParentVert, h_offsetFromParentVert, h⟩ := Res.bind_ok h
    obtain ⟨r_noteTags, h_noteTags, h⟩ := Res.bind_ok h
    cases h
    exact ⟨assert_iff.1 hk,
      required_iff.1 (parseTime_iff.1 (h_lastModified.trans (congrArg Except.ok (required_ok
        hr_lastModified)))),
      ref_iff.1 h_pictureContainer,
      parseF32_iff.1 h_layoutMaxWidth,
      parseF32_iff.1 h_layoutMaxHeight,
      default_iff.2 ⟨_, parseBool_iff.1 h_isLayoutSizeSetByUser, rfl⟩,
      parseString_iff.1 h_text,
      parseU16_iff.1 h_textLanguageCode,
      parseLayout_iff.1 h_layoutAlignmentInParent,
      parseLayout_iff.1 h_layoutAlignmentSelf,
      ref_iff.1 (h_embeddedFileContainer.trans (congrArg Except.ok (required_ok
        hr_embeddedFileContainer))),
      required_iff.1 (parseString_iff.1 (h_embeddedFileName.trans (congrArg Except.ok (required_ok
        hr_embeddedFileName)))),
      parseString_iff.1 h_sourcePath,
      parseFileType_iff.1 h_fileType,
      parseF32_iff.1 h_pictureWidth,
      parseF32_iff.1 h_pictureHeight,
      parseTags_iff.1 ⟨_, h_noteTags, rfl⟩,
      parseF32_iff.1 h_offsetFromParentHoriz,
      parseF32_iff.1 h_offsetFromParentVert⟩
  · obtain ⟨lastModified, pictureContainer, layoutMaxWidth, layoutMaxHeight, isLayoutSizeSetByUser,
    text, textLanguageCode, layoutAlignmentInParent, layoutAlignmentSelf, embeddedFileContainer,
    embeddedFileName, sourcePath, fileType, pictureWidth, pictureHeight, noteTags,
    offsetFromParentHoriz, offsetFromParentVert⟩ := n
    rintro ⟨hkind, h_lastModified, h_pictureContainer, h_layoutMaxWidth, h_layoutMaxHeight,
      h_isLayoutSizeSetByUser, h_text, h_textLanguageCode, h_layoutAlignmentInParent,
      h_layoutAlignmentSelf, h_embeddedFileContainer, h_embeddedFileName, h_sourcePath, h_fileType,
      h_pictureWidth, h_pictureHeight, h_noteTags, h_offsetFromParentHoriz, h_offsetFromParentVert⟩
    dsimp only at *
    obtain ⟨d_isLayoutSizeSetByUser, hd_isLayoutSizeSetByUser, rfl⟩ := default_iff.1
      h_isLayoutSizeSetByUser
    obtain ⟨r_noteTags, g_noteTags, rfl⟩ := parseTags_iff.2 h_noteTags
    refine bind_ok_iff.2 ⟨(), assert_iff.2 hkind, ?_⟩
    refine bind_ok_iff.2 ⟨_, parseTime_iff.2 (required_iff.2 h_lastModified), bind_ok_iff.2 ⟨_,
      rfl, ?_⟩⟩
    refine bind_ok_iff.2 ⟨_, ref_iff.2 h_pictureContainer, ?_⟩
    refine bind_ok_iff.2 ⟨_, parseF32_iff.2 h_layoutMaxWidth, ?_⟩
    refine bind_ok_iff.2 ⟨_, parseF32_iff.2 h_layoutMaxHeight, ?_⟩
    refine bind_ok_iff.2 ⟨_, parseBool_iff.2 hd_isLayoutSizeSetByUser, ?_⟩
    refine bind_ok_iff.2 ⟨_, parseString_iff.2 h_text, ?_⟩
    refine bind_ok_iff.2 ⟨_, parseU16_iff.2 h_textLanguageCode, ?_⟩
    refine bind_ok_iff.2 ⟨_, parseLayout_iff.2 h_layoutAlignmentInParent, ?_⟩
    refine bind_ok_iff.2 ⟨_, parseLayout_iff.2 h_layoutAlignmentSelf, ?_⟩
    refine bind_ok_iff.2 ⟨_, ref_iff.2 h_embeddedFileContainer, bind_ok_iff.2 ⟨_, rfl, ?_⟩⟩
    refine bind_ok_iff.2 ⟨_, parseString_iff.2 (required_iff.2 h_embeddedFileName), bind_ok_iff.2
      ⟨_, rfl, ?_⟩⟩
    refine bind_ok_iff.2 ⟨_, parseString_iff.2 h_sourcePath, ?_⟩
    refine bind_ok_iff.2 ⟨_, parseFileType_iff.2 h_fileType, ?_⟩
    refine bind_ok_iff.2 ⟨_, parseF32_iff.2 h_pictureWidth, ?_⟩
    refine bind_ok_iff.2 ⟨_, parseF32_iff.2 h_pictureHeight, ?_⟩
    refine bind_ok_iff.2 ⟨_, parseF32_iff.2 h_offsetFromParentHoriz, ?_⟩
    refine bind_ok_iff.2 ⟨_, parseF32_iff.2 h_offsetFromParentVert, ?_⟩
    refine bind_ok_iff.2 ⟨_, g_noteTags, ?_⟩
    rfl

theorem EmbeddedInkData.parse_iff {o : Object} {n : EmbeddedInkData} : EmbeddedInkData.parse o =
  .ok n ↔ IsEmbeddedInkData o n := by
  unfold EmbeddedInkData.parse
  constructor
  · intro h
    obtain ⟨r_spaceWidth, h_spaceWidth, h⟩ := Res.bind_ok h
    obtain ⟨r_spaceHeight, h_spaceHeight, h⟩ := Res.bind_ok h
    obtain ⟨r_startX, h_startX, h⟩ := Res.bind_ok h
    obtain ⟨r_startY, h_startY, h⟩ := Res.bind_ok h
    obtain ⟨r_height, h_height, h⟩ := Res.bind_ok h
    obtain ⟨r_width, h_width, h⟩ := Res.bind_ok h
    obtain ⟨r_offsetHoriz, h_offsetHoriz, h⟩ := Res.bind_ok h
    obtain ⟨r_offsetVert, h_offsetVert, h⟩ := Res.bind_ok h
    cases h
    exact ⟨parseF32_iff.1 h_spaceWidth,
      parseF32_iff.1 h_spaceHeight,
      parseF32_iff.1 h_startX,
      parseF32_iff.1 h_startY,
      parseF32_iff.1 h_height,
      parseF32_iff.1 h_width,
      parseF32_iff.1 h_offsetHoriz,
      parseF32_iff.1 h_offsetVert⟩
  · obtain ⟨spaceWidth, spaceHeight, startX, startY, height, width, offsetHoriz, offsetVert⟩ := n
    rintro ⟨h_spaceWidth, h_spaceHeight, h_startX, h_startY, h_height, h_width, h_offsetHoriz,
      h_offsetVert⟩
    dsimp only at *
    refine bind_ok_iff.2 ⟨_, parseF32_iff.2 h_spaceWidth, ?_⟩
    refine bind_ok_iff.2 ⟨_, parseF32_iff.2 h_spaceHeight, ?_⟩
    refine bind_ok_iff.2 ⟨_, parseF32_iff.2 h_startX, ?_⟩
    refine bind_ok_iff.2 ⟨_, parseF32_iff.2 h_startY, ?_⟩
    refine bind_ok_iff.2 ⟨_, parseF32_iff.2 h_height, ?_⟩
    refine bind_ok_iff.2 ⟨_, parseF32_iff.2 h_width, ?_⟩
    refine bind_ok_iff.2 ⟨_, parseF32_iff.2 h_offsetHoriz, ?_⟩
    refine bind_ok_iff.2 ⟨_, parseF32_iff.2 h_offsetVert, ?_⟩
    rfl

theorem ImageNode.parse_iff {o : Object} {n : ImageNode} : ImageNode.parse o = .ok n ↔ IsImageNode
  o n := by
  unfold ImageNode.parse
  constructor
  · intro h
    obtain ⟨_, hk, h⟩ := Res.bind_ok h
    obtain ⟨r_lastModified, h_lastModified, h⟩ := Res.bind_ok h
    obtain ⟨r_pictureContainer, h_pictureContainer, h⟩ := Res.bind_ok h
    obtain ⟨r_layoutMaxWidth, h_layoutMaxWidth, h⟩ := Res.bind_ok h
    obtain ⟨r_layoutMaxHeight, h_layoutMaxHeight, h⟩ := Res.bind_ok h
    obtain ⟨r_isLayoutSizeSetByUser, h_isLayoutSizeSetByUser, h⟩ := Res.bind_ok h
    obtain ⟨r_languageCode, h_languageCode, h⟩ := Res.bind_ok h
    obtain ⟨r_altText, h_altText, h⟩ := Res.bind_ok h
    obtain ⟨r_layoutAlignmentInParent, h_layoutAlignmentInParent, h⟩ := Res.bind_ok h
    obtain ⟨r_layoutAlignmentSelf, h_layoutAlignmentSelf, h⟩ := Res.bind_ok h
    obtain ⟨r_imageFilename, h_imageFilename, h⟩ := Res.bind_ok h
    obtain ⟨r_displayedPageNumber, h_displayedPageNumber, h⟩ := Res.bind_ok h
    obtain ⟨r_text, h_text, h⟩ := Res.bind_ok h
    obtain ⟨r_textLanguageCode, h_textLanguageCode, h⟩ := Res.bind_ok h
    obtain ⟨r_pictureWidth, h_pictureWidth, h⟩ := Res.bind_ok h
    obtain ⟨r_pictureHeight, h_pictureHeight, h⟩ := Res.bind_ok h
    obtain ⟨r_hyperlinkUrl, h_hyperlinkUrl, h⟩ := Res.bind_ok h
    obtain ⟨r_offsetFromParentHoriz, h_offsetFromParentHoriz, h⟩ := Res.bind_ok h
    obtain ⟨r_offsetFromParentVert, h_offsetFromParentVert, h⟩ := Res.bind_ok h
    obtain ⟨r_isBackground, h_isBackground, h⟩ := Res.bind_ok h
    obtain ⟨r_noteTags, h_noteTags, h⟩ := Res.bind_ok h
    obtain ⟨r_iframe, h_iframe, h⟩ := Res.bind_ok h
    cases h
    exact ⟨assert_iff.1 hk,
      parseTime_iff.1 h_lastModified,
      ref_iff.1 h_pictureContainer,
      parseF32_iff.1 h_layoutMaxWidth,
      parseF32_iff.1 h_layoutMaxHeight,
      default_iff.2 ⟨_, parseBool_iff.1 h_isLayoutSizeSetByUser, rfl⟩,
      parseU32_iff.1 h_languageCode,
      parseString_iff.1 h_altText,
      parseLayout_iff.1 h_layoutAlignmentInParent,
      parseLayout_iff.1 h_layoutAlignmentSelf,
      parseString_iff.1 h_imageFilename,
      parseU32_iff.1 h_displayedPageNumber,
      parseString_iff.1 h_text,
      parseU16_iff.1 h_textLanguageCode,
      parseF32_iff.1 h_pictureWidth,
      parseF32_iff.1 h_pictureHeight,
      parseString_iff.1 h_hyperlinkUrl,
      parseTags_iff.1 ⟨_, h_noteTags, rfl⟩,
      parseF32_iff.1 h_offsetFromParentHoriz,
      parseF32_iff.1 h_offsetFromParentVert,
      default_iff.2 ⟨_, parseBool_iff.1 h_isBackground, rfl⟩,
      refs_getD.1 ⟨_, h_iframe, rfl⟩⟩
  · obtain ⟨lastModified, pictureContainer, layoutMaxWidth, layoutMaxHeight, isLayoutSizeSetByUser,
    languageCode, altText, layoutAlignmentInParent, layoutAlignmentSelf, imageFilename,
    displayedPageNumber, text, textLanguageCode, pictureWidth, pictureHeight, hyperlinkUrl,
    noteTags, offsetFromParentHoriz, offsetFromParentVert, isBackground, iframe⟩ := n
    rintro ⟨hkind, h_lastModified, h_pictureContainer, h_layoutMaxWidth, h_layoutMaxHeight,
      h_isLayoutSizeSetByUser, h_languageCode, h_altText, h_layoutAlignmentInParent,
      h_layoutAlignmentSelf, h_imageFilename, h_displayedPageNumber, h_text, h_textLanguageCode,
      h_pictureWidth, h_pictureHeight, h_hyperlinkUrl, h_noteTags, h_offsetFromParentHoriz,
      h_offsetFromParentVert, h_isBackground, h_iframe⟩
    dsimp only at *
    obtain ⟨d_isLayoutSizeSetByUser, hd_isLayoutSizeSetByUser, rfl⟩ := default_iff.1
      h_isLayoutSizeSetByUser
    obtain ⟨d_isBackground, hd_isBackground, rfl⟩ := default_iff.1 h_isBackground
    obtain ⟨r_noteTags, g_noteTags, rfl⟩ := parseTags_iff.2 h_noteTags
    obtain ⟨r_iframe, g_iframe, rfl⟩ := (refs_getD (t := .contentChildNodes)).2 h_iframe
    refine bind_ok_iff.2 ⟨(), assert_iff.2 hkind, ?_⟩
    refine bind_ok_iff.2 ⟨_, parseTime_iff.2 h_lastModified, ?_⟩
    refine bind_ok_iff.2 ⟨_, ref_iff.2 h_pictureContainer, ?_⟩
    refine bind_ok_iff.2 ⟨_, parseF32_iff.2 h_layoutMaxWidth, ?_⟩
    refine bind_ok_iff.2 ⟨_, parseF32_iff.2 h_layoutMaxHeight, ?_⟩
    refine bind_ok_iff.2 ⟨_, parseBool_iff.2 hd_isLayoutSizeSetByUser, ?_⟩
    refine bind_ok_iff.2 ⟨_, parseU32_iff.2 h_languageCode, ?_⟩
    refine bind_ok_iff.2 ⟨_, parseString_iff.2 h_altText, ?_⟩
    refine bind_ok_iff.2 ⟨_, parseLayout_iff.2 h_layoutAlignmentInParent, ?_⟩
    refine bind_ok_iff.2 ⟨_, parseLayout_iff.2 h_layoutAlignmentSelf, ?_⟩
    refine bind_ok_iff.2 ⟨_, parseString_iff.2 h_imageFilename, ?_⟩
    refine bind_ok_iff.2 ⟨_, parseU32_iff.2 h_displayedPageNumber, ?_⟩
    refine bind_ok_iff.2 ⟨_, parseString_iff.2 h_text, ?_⟩
    refine bind_ok_iff.2 ⟨_, parseU16_iff.2 h_textLanguageCode, ?_⟩
    refine bind_ok_iff.2 ⟨_, parseF32_iff.2 h_pictureWidth, ?_⟩
    refine bind_ok_iff.2 ⟨_, parseF32_iff.2 h_pictureHeight, ?_⟩
    refine bind_ok_iff.2 ⟨_, parseString_iff.2 h_hyperlinkUrl, ?_⟩
    refine bind_ok_iff.2 ⟨_, parseF32_iff.2 h_offsetFromParentHoriz, ?_⟩
    refine bind_ok_iff.2 ⟨_, parseF32_iff.2 h_offsetFromParentVert, ?_⟩
    refine bind_ok_iff.2 ⟨_, parseBool_iff.2 hd_isBackground, ?_⟩
    refine bind_ok_iff.2 ⟨_, g_noteTags, ?_⟩
    refine bind_ok_iff.2 ⟨_, g_iframe, ?_⟩
    rfl

theorem InkContainerNode.parse_iff {o : Object} {n : InkContainerNode} : InkContainerNode.parse o =
  .ok n ↔ IsInkContainerNode o n := by
  unfold InkContainerNode.parse
  constructor
  · intro h
    obtain ⟨_, hk, h⟩ := Res.bind_ok h
    obtain ⟨r_lastModified, h_lastModified, h⟩ := Res.bind_ok h
    obtain ⟨r_offsetFromParentHoriz, h_offsetFromParentHoriz, h⟩ := Res.bind_ok h
    obtain ⟨r_offsetFromParentVert, h_offsetFromParentVert, h⟩ := Res.bind_ok h
    obtain ⟨r_inkData, h_inkData, h⟩ := Res.bind_ok h
    obtain ⟨r_inkScalingX, h_inkScalingX, h⟩ := Res.bind_ok h
    obtain ⟨r_inkScalingY, h_inkScalingY, h⟩ := Res.bind_ok h
    cases h
    exact ⟨assert_iff.1 hk,
      parseF32_iff.1 h_offsetFromParentHoriz,
      parseF32_iff.1 h_offsetFromParentVert,
      parseTime_iff.1 h_lastModified,
      ref_iff.1 h_inkData,
      parseF32_iff.1 h_inkScalingX,
      parseF32_iff.1 h_inkScalingY⟩
  · obtain ⟨offsetFromParentHoriz, offsetFromParentVert, lastModified, inkData, inkScalingX,
    inkScalingY⟩ := n
    rintro ⟨hkind, h_offsetFromParentHoriz, h_offsetFromParentVert, h_lastModified, h_inkData,
      h_inkScalingX, h_inkScalingY⟩
    dsimp only at *
    refine bind_ok_iff.2 ⟨(), assert_iff.2 hkind, ?_⟩
    refine bind_ok_iff.2 ⟨_, parseTime_iff.2 h_lastModified, ?_⟩
    refine bind_ok_iff.2 ⟨_, parseF32_iff.2 h_offsetFromParentHoriz, ?_⟩
    refine bind_ok_iff.2 ⟨_, parseF32_iff.2 h_offsetFromParentVert, ?_⟩
    refine bind_ok_iff.2 ⟨_, ref_iff.2 h_inkData, ?_⟩
    refine bind_ok_iff.2 ⟨_, parseF32_iff.2 h_inkScalingX, ?_⟩
    refine bind_ok_iff.2 ⟨_, parseF32_iff.2 h_inkScalingY, ?_⟩
    rfl

theorem InkDataNode.parse_iff {o : Object} {n : InkDataNode} : InkDataNode.parse o = .ok n ↔
  IsInkDataNode o n := by
  unfold InkDataNode.parse
  constructor
  · intro h
    obtain ⟨_, hk, h⟩ := Res.bind_ok h
    obtain ⟨r_strokes, h_strokes, h⟩ := Res.bind_ok h
    obtain ⟨strokes, hr_strokes, h⟩ := Res.bind_ok h
    obtain ⟨r_boundingBox, h_boundingBox, h⟩ := Res.bind_ok h
    cases h
    exact ⟨assert_iff.1 hk,
      refs_required.1 (h_strokes.trans (congrArg Except.ok (required_ok hr_strokes))),
      parseBox_iff.1 ⟨_, h_boundingBox, rfl⟩⟩
  · obtain ⟨strokes, boundingBox⟩ := n
    rintro ⟨hkind, h_strokes, h_boundingBox⟩
    dsimp only at *
    obtain ⟨r_boundingBox, g_boundingBox, rfl⟩ := (parseBox_iff (t := .inkBoundingBox)).2
      h_boundingBox
    refine bind_ok_iff.2 ⟨(), assert_iff.2 hkind, ?_⟩
    refine bind_ok_iff.2 ⟨_, refs_required.2 h_strokes, bind_ok_iff.2 ⟨_, rfl, ?_⟩⟩
    refine bind_ok_iff.2 ⟨_, g_boundingBox, ?_⟩
    rfl

theorem InkStrokeNode.parse_iff {o : Object} {n : InkStrokeNode} : InkStrokeNode.parse o = .ok n ↔
  IsInkStrokeNode o n := by
  unfold InkStrokeNode.parse
  constructor
  · intro h
    obtain ⟨_, hk, h⟩ := Res.bind_ok h
    obtain ⟨a_path, h0_path, h⟩ := Res.bind_ok h
    obtain ⟨r_path, h1_path, h⟩ := Res.bind_ok h
    obtain ⟨path, hr_path, h⟩ := Res.bind_ok h
    obtain ⟨a_bias, h0_bias, h⟩ := Res.bind_ok h
    obtain ⟨r_bias, h1_bias, h⟩ := Res.bind_ok h
    obtain ⟨bias, hr_bias, h⟩ := Res.bind_ok h
    obtain ⟨r_languageCode, h_languageCode, h⟩ := Res.bind_ok h
    obtain ⟨r_properties, h_properties, h⟩ := Res.bind_ok h
    obtain ⟨properties, hr_properties, h⟩ := Res.bind_ok h
    cases h
    exact ⟨assert_iff.1 hk,
      required_iff.1 (parsePath_iff.1 (bind_ok_iff.2 ⟨_, h0_path, h1_path.trans (congrArg Except.ok
        (required_ok hr_path))⟩)),
      required_iff.1 (parseBias_iff.1 (bind_ok_iff.2 ⟨_, h0_bias, h1_bias.trans (congrArg Except.ok
        (required_ok hr_bias))⟩)),
      parseU32_iff.1 h_languageCode,
      ref_iff.1 (h_properties.trans (congrArg Except.ok (required_ok hr_properties)))⟩
  · obtain ⟨path, bias, languageCode, properties⟩ := n
    rintro ⟨hkind, h_path, h_bias, h_languageCode, h_properties⟩
    dsimp only at *
    obtain ⟨a_path, h0_path, h1_path⟩ := bind_ok_iff.1 ((parsePath_iff (t := .inkPath)).2
      (required_iff.2 h_path))
    obtain ⟨a_bias, h0_bias, h1_bias⟩ := bind_ok_iff.1 ((parseBias_iff (t := .inkBias)).2
      (required_iff.2 h_bias))
    refine bind_ok_iff.2 ⟨(), assert_iff.2 hkind, ?_⟩
    refine bind_ok_iff.2 ⟨_, h0_path, bind_ok_iff.2 ⟨_, h1_path, bind_ok_iff.2 ⟨_, rfl, ?_⟩⟩⟩
    refine bind_ok_iff.2 ⟨_, h0_bias, bind_ok_iff.2 ⟨_, h1_bias, bind_ok_iff.2 ⟨_, rfl, ?_⟩⟩⟩
    refine bind_ok_iff.2 ⟨_, parseU32_iff.2 h_languageCode, ?_⟩
    refine bind_ok_iff.2 ⟨_, ref_iff.2 h_properties, bind_ok_iff.2 ⟨_, rfl, ?_⟩⟩
    rfl

theorem MathInlineData.parse_iff {o : Object} {n : MathInlineData} : MathInlineData.parse o = .ok n
  ↔ IsMathInlineData o n := by
  unfold MathInlineData.parse
  constructor
  · intro h
    obtain ⟨r_objectType, h_objectType, h⟩ := Res.bind_ok h
    obtain ⟨r_argCount, h_argCount, h⟩ := Res.bind_ok h
    obtain ⟨r_column, h_column, h⟩ := Res.bind_ok h
    obtain ⟨r_align, h_align, h⟩ := Res.bind_ok h
    obtain ⟨a_char, h0_char, h⟩ := Res.bind_ok h
    obtain ⟨r_char, h1_char, h⟩ := Res.bind_ok h
    obtain ⟨a_char1, h0_char1, h⟩ := Res.bind_ok h
    obtain ⟨r_char1, h1_char1, h⟩ := Res.bind_ok h
    obtain ⟨a_char2, h0_char2, h⟩ := Res.bind_ok h
    obtain ⟨r_char2, h1_char2, h⟩ := Res.bind_ok h
    cases h
    exact ⟨parseU32_iff.1 h_objectType,
      parseU32_iff.1 h_argCount,
      parseU8_iff.1 h_column,
      parseU8_iff.1 h_align,
      parseUnit_iff.1 ⟨_, bind_ok_iff.2 ⟨_, h0_char, h1_char⟩, rfl⟩,
      parseUnit_iff.1 ⟨_, bind_ok_iff.2 ⟨_, h0_char1, h1_char1⟩, rfl⟩,
      parseUnit_iff.1 ⟨_, bind_ok_iff.2 ⟨_, h0_char2, h1_char2⟩, rfl⟩⟩
  · obtain ⟨objectType, argCount, column, align, char, char1, char2⟩ := n
    rintro ⟨h_objectType, h_argCount, h_column, h_align, h_char, h_char1, h_char2⟩
    dsimp only at *
    obtain ⟨r_char, g_char, rfl⟩ := (parseUnit_iff (t := .mathInlineObjectChar)).2 h_char
    obtain ⟨a_char, h0_char, h1_char⟩ := bind_ok_iff.1 g_char
    obtain ⟨r_char1, g_char1, rfl⟩ := (parseUnit_iff (t := .mathInlineObjectChar1)).2 h_char1
    obtain ⟨a_char1, h0_char1, h1_char1⟩ := bind_ok_iff.1 g_char1
    obtain ⟨r_char2, g_char2, rfl⟩ := (parseUnit_iff (t := .mathInlineObjectChar2)).2 h_char2
    obtain ⟨a_char2, h0_char2, h1_char2⟩ := bind_ok_iff.1 g_char2
    refine bind_ok_iff.2 ⟨_, parseU32_iff.2 h_objectType, ?_⟩
    refine bind_ok_iff.2 ⟨_, parseU32_iff.2 h_argCount, ?_⟩
    refine bind_ok_iff.2 ⟨_, parseU8_iff.2 h_column, ?_⟩
    refine bind_ok_iff.2 ⟨_, parseU8_iff.2 h_align, ?_⟩
    refine bind_ok_iff.2 ⟨_, h0_char, bind_ok_iff.2 ⟨_, h1_char, ?_⟩⟩
    refine bind_ok_iff.2 ⟨_, h0_char1, bind_ok_iff.2 ⟨_, h1_char1, ?_⟩⟩
    refine bind_ok_iff.2 ⟨_, h0_char2, bind_ok_iff.2 ⟨_, h1_char2, ?_⟩⟩
    rfl

theorem NoteTagDefinition.parse_iff {o : Object} {n : NoteTagDefinition} : NoteTagDefinition.parse
  o = .ok n ↔ IsNoteTagDefinition o n := by
  unfold NoteTagDefinition.parse
  constructor
  · intro h
    obtain ⟨_, hk, h⟩ := Res.bind_ok h
    obtain ⟨r_label, h_label, h⟩ := Res.bind_ok h
    obtain ⟨label, hr_label, h⟩ := Res.bind_ok h
    obtain ⟨r_status, h_status, h⟩ := Res.bind_ok h
    obtain ⟨status, hr_status, h⟩ := Res.bind_ok h
    obtain ⟨a_shape, h0_shape, h⟩ := Res.bind_ok h
    obtain ⟨r_shape, h1_shape, h⟩ := Res.bind_ok h
    obtain ⟨shape, hr_shape, h⟩ := Res.bind_ok h
    obtain ⟨r_highlightColor, h_highlightColor, h⟩ := Res.bind_ok h
    obtain ⟨r_textColor, h_textColor, h⟩ := Res.bind_ok h
    obtain ⟨r_actionItemType, h_actionItemType, h⟩ := Res.bind_ok h
    obtain ⟨actionItemType, hr_actionItemType, h⟩ := Res.bind_ok h
    cases h
    exact ⟨assert_iff.1 hk,
      required_iff.1 (parseString_iff.1 (h_label.trans (congrArg Except.ok (required_ok
        hr_label)))),
      required_iff.1 (parseDefinitionStatus_iff.1 (h_status.trans (congrArg Except.ok (required_ok
        hr_status)))),
      required_iff.1 (parseShape_iff.1 (bind_ok_iff.2 ⟨_, h0_shape, h1_shape.trans (congrArg
        Except.ok (required_ok hr_shape))⟩)),
      parseColorRef_iff.1 h_highlightColor,
      parseColorRef_iff.1 h_textColor,
      required_iff.1 (parseItemType_iff.1 (h_actionItemType.trans (congrArg Except.ok (required_ok
        hr_actionItemType))))⟩
  · obtain ⟨label, status, shape, highlightColor, textColor, actionItemType⟩ := n
    rintro ⟨hkind, h_label, h_status, h_shape, h_highlightColor, h_textColor, h_actionItemType⟩
    dsimp only at *
    obtain ⟨a_shape, h0_shape, h1_shape⟩ := bind_ok_iff.1 ((parseShape_iff (t := .noteTagShape)).2
      (required_iff.2 h_shape))
    refine bind_ok_iff.2 ⟨(), assert_iff.2 hkind, ?_⟩
    refine bind_ok_iff.2 ⟨_, parseString_iff.2 (required_iff.2 h_label), bind_ok_iff.2 ⟨_, rfl, ?_⟩⟩
    refine bind_ok_iff.2 ⟨_, parseDefinitionStatus_iff.2 (required_iff.2 h_status), bind_ok_iff.2
      ⟨_, rfl, ?_⟩⟩
    refine bind_ok_iff.2 ⟨_, h0_shape, bind_ok_iff.2 ⟨_, h1_shape, bind_ok_iff.2 ⟨_, rfl, ?_⟩⟩⟩
    refine bind_ok_iff.2 ⟨_, parseColorRef_iff.2 h_highlightColor, ?_⟩
    refine bind_ok_iff.2 ⟨_, parseColorRef_iff.2 h_textColor, ?_⟩
    refine bind_ok_iff.2 ⟨_, parseItemType_iff.2 (required_iff.2 h_actionItemType), bind_ok_iff.2
      ⟨_, rfl, ?_⟩⟩
    rfl

theorem NumberListNode.parse_iff {o : Object} {n : NumberListNode} : NumberListNode.parse o = .ok n
  ↔ IsNumberListNode o n := by
  unfold NumberListNode.parse
  constructor
  · intro h
    obtain ⟨_, hk, h⟩ := Res.bind_ok h
    obtain ⟨r_lastModified, h_lastModified, h⟩ := Res.bind_ok h
    obtain ⟨lastModified, hr_lastModified, h⟩ := Res.bind_ok h
    obtain ⟨r_listFont, h_listFont, h⟩ := Res.bind_ok h
    obtain ⟨r_listRestart, h_listRestart, h⟩ := Res.bind_ok h
    obtain ⟨a_listFormat, h0_listFormat, h⟩ := Res.bind_ok h
    obtain ⟨r_listFormat, h1_listFormat, h⟩ := Res.bind_ok h
    obtain ⟨listFormat, hr_listFormat, h⟩ := Res.bind_ok h
    obtain ⟨r_bold, h_bold, h⟩ := Res.bind_ok h
    obtain ⟨r_italic, h_italic, h⟩ := Res.bind_ok h
    obtain ⟨r_languageCode, h_languageCode, h⟩ := Res.bind_ok h
    obtain ⟨r_font, h_font, h⟩ := Res.bind_ok h
    obtain ⟨r_fontSize, h_fontSize, h⟩ := Res.bind_ok h
    obtain ⟨r_fontColor, h_fontColor, h⟩ := Res.bind_ok h
    cases h
    exact ⟨assert_iff.1 hk,
      required_iff.1 (parseTime_iff.1 (h_lastModified.trans (congrArg Except.ok (required_ok
        hr_lastModified)))),
      parseString_iff.1 h_listFont,
      parseSigned_iff.1 ⟨_, h_listRestart, rfl⟩,
      required_iff.1 (parseListFormat_iff.1 (bind_ok_iff.2 ⟨_, h0_listFormat, h1_listFormat.trans
        (congrArg Except.ok (required_ok hr_listFormat))⟩)),
      default_iff.2 ⟨_, parseBool_iff.1 h_bold, rfl⟩,
      default_iff.2 ⟨_, parseBool_iff.1 h_italic, rfl⟩,
      parseU32_iff.1 h_languageCode,
      parseString_iff.1 h_font,
      parseU16_iff.1 h_fontSize,
      parseColorRef_iff.1 h_fontColor⟩
  · obtain ⟨lastModified, listFont, listRestart, listFormat, bold, italic, languageCode, font,
    fontSize, fontColor⟩ := n
    rintro ⟨hkind, h_lastModified, h_listFont, h_listRestart, h_listFormat, h_bold, h_italic,
      h_languageCode, h_font, h_fontSize, h_fontColor⟩
    dsimp only at *
    obtain ⟨r_listRestart, g_listRestart, rfl⟩ := (parseSigned_iff (t := .listRestart)).2
      h_listRestart
    obtain ⟨a_listFormat, h0_listFormat, h1_listFormat⟩ := bind_ok_iff.1 ((parseListFormat_iff (t
      := .numberListFormat)).2 (required_iff.2 h_listFormat))
    obtain ⟨d_bold, hd_bold, rfl⟩ := default_iff.1 h_bold
    obtain ⟨d_italic, hd_italic, rfl⟩ := default_iff.1 h_italic
    refine bind_ok_iff.2 ⟨(), assert_iff.2 hkind, ?_⟩
    refine bind_ok_iff.2 ⟨_, parseTime_iff.2 (required_iff.2 h_lastModified), bind_ok_iff.2 ⟨_,
      rfl, ?_⟩⟩
    refine bind_ok_iff.2 ⟨_, parseString_iff.2 h_listFont, ?_⟩
    refine bind_ok_iff.2 ⟨_, g_listRestart, ?_⟩
    refine bind_ok_iff.2 ⟨_, h0_listFormat, bind_ok_iff.2 ⟨_, h1_listFormat, bind_ok_iff.2 ⟨_, rfl,
      ?_⟩⟩⟩
    refine bind_ok_iff.2 ⟨_, parseBool_iff.2 hd_bold, ?_⟩
    refine bind_ok_iff.2 ⟨_, parseBool_iff.2 hd_italic, ?_⟩
    refine bind_ok_iff.2 ⟨_, parseU32_iff.2 h_languageCode, ?_⟩
    refine bind_ok_iff.2 ⟨_, parseString_iff.2 h_font, ?_⟩
    refine bind_ok_iff.2 ⟨_, parseU16_iff.2 h_fontSize, ?_⟩
    refine bind_ok_iff.2 ⟨_, parseColorRef_iff.2 h_fontColor, ?_⟩
    rfl

theorem OutlineElementNode.parse_iff {o : Object} {n : OutlineElementNode} :
  OutlineElementNode.parse o = .ok n ↔ IsOutlineElementNode o n := by
  unfold OutlineElementNode.parse
  constructor
  · intro h
    obtain ⟨_, hk, h⟩ := Res.bind_ok h
    obtain ⟨r_createdAt, h_createdAt, h⟩ := Res.bind_ok h
    obtain ⟨createdAt, hr_createdAt, h⟩ := Res.bind_ok h
    obtain ⟨r_lastModified, h_lastModified, h⟩ := Res.bind_ok h
    obtain ⟨lastModified, hr_lastModified, h⟩ := Res.bind_ok h
    obtain ⟨r_children, h_children, h⟩ := Res.bind_ok h
    obtain ⟨r_childLevel, h_childLevel, h⟩ := Res.bind_ok h
    obtain ⟨childLevel, hr_childLevel, h⟩ := Res.bind_ok h
    obtain ⟨r_contents, h_contents, h⟩ := Res.bind_ok h
    obtain ⟨r_listContents, h_listContents, h⟩ := Res.bind_ok h
    obtain ⟨r_listSpacing, h_listSpacing, h⟩ := Res.bind_ok h
    obtain ⟨r_authorOriginal, h_authorOriginal, h⟩ := Res.bind_ok h
    obtain ⟨authorOriginal, hr_authorOriginal, h⟩ := Res.bind_ok h
    obtain ⟨r_authorMostRecent, h_authorMostRecent, h⟩ := Res.bind_ok h
    obtain ⟨authorMostRecent, hr_authorMostRecent, h⟩ := Res.bind_ok h
    obtain ⟨r_rtl, h_rtl, h⟩ := Res.bind_ok h
    obtain ⟨r_isDeletable, h_isDeletable, h⟩ := Res.bind_ok h
    obtain ⟨r_cannotBeSelected, h_cannotBeSelected, h⟩ := Res.bind_ok h
    obtain ⟨r_isTitleText, h_isTitleText, h⟩ := Res.bind_ok h
    cases h
    exact ⟨assert_iff.1 hk,
      required_iff.1 (parseTime_iff.1 (h_createdAt.trans (congrArg Except.ok (required_ok
        hr_createdAt)))),
      required_iff.1 (parseTime_iff.1 (h_lastModified.trans (congrArg Except.ok (required_ok
        hr_lastModified)))),
      refs_getD.1 ⟨_, h_children, rfl⟩,
      required_iff.1 (parseU8_iff.1 (h_childLevel.trans (congrArg Except.ok (required_ok
        hr_childLevel)))),
      refs_getD.1 ⟨_, h_contents, rfl⟩,
      refs_getD.1 ⟨_, h_listContents, rfl⟩,
      parseF32_iff.1 h_listSpacing,
      ref_iff.1 (h_authorOriginal.trans (congrArg Except.ok (required_ok hr_authorOriginal))),
      ref_iff.1 (h_authorMostRecent.trans (congrArg Except.ok (required_ok hr_authorMostRecent))),
      default_iff.2 ⟨_, parseBool_iff.1 h_rtl, rfl⟩,
      default_iff.2 ⟨_, parseBool_iff.1 h_isDeletable, rfl⟩,
      parseNotBool_iff.1 ⟨_, h_cannotBeSelected, rfl⟩,
      default_iff.2 ⟨_, parseBool_iff.1 h_isTitleText, rfl⟩⟩
  · obtain ⟨createdAt, lastModified, children, childLevel, contents, listContents, listSpacing,
    authorOriginal, authorMostRecent, rtl, isDeletable, isSelectable, isTitleText⟩ := n
    rintro ⟨hkind, h_createdAt, h_lastModified, h_children, h_childLevel, h_contents,
      h_listContents, h_listSpacing, h_authorOriginal, h_authorMostRecent, h_rtl, h_isDeletable,
      h_isSelectable, h_isTitleText⟩
    dsimp only at *
    obtain ⟨r_children, g_children, rfl⟩ := (refs_getD (t := .elementChildNodes)).2 h_children
    obtain ⟨r_contents, g_contents, rfl⟩ := (refs_getD (t := .contentChildNodes)).2 h_contents
    obtain ⟨r_listContents, g_listContents, rfl⟩ := (refs_getD (t := .listNodes)).2 h_listContents
    obtain ⟨d_rtl, hd_rtl, rfl⟩ := default_iff.1 h_rtl
    obtain ⟨d_isDeletable, hd_isDeletable, rfl⟩ := default_iff.1 h_isDeletable
    obtain ⟨r_cannotBeSelected, g_cannotBeSelected, rfl⟩ := (parseNotBool_iff (t :=
      .cannotBeSelected)).2 h_isSelectable
    obtain ⟨d_isTitleText, hd_isTitleText, rfl⟩ := default_iff.1 h_isTitleText
    refine bind_ok_iff.2 ⟨(), assert_iff.2 hkind, ?_⟩
    refine bind_ok_iff.2 ⟨_, parseTime_iff.2 (required_iff.2 h_createdAt), bind_ok_iff.2 ⟨_, rfl,
      ?_⟩⟩
    refine bind_ok_iff.2 ⟨_, parseTime_iff.2 (required_iff.2 h_lastModified), bind_ok_iff.2 ⟨_,
      rfl, ?_⟩⟩
    refine bind_ok_iff.2 ⟨_, g_children, ?_⟩
    refine bind_ok_iff.2 ⟨_, parseU8_iff.2 (required_iff.2 h_childLevel), bind_ok_iff.2 ⟨_, rfl,
      ?_⟩⟩
    refine bind_ok_iff.2 ⟨_, g_contents, ?_⟩
    refine bind_ok_iff.2 ⟨_, g_listContents, ?_⟩
    refine bind_ok_iff.2 ⟨_, parseF32_iff.2 h_listSpacing, ?_⟩
    refine bind_ok_iff.2 ⟨_, ref_iff.2 h_authorOriginal, bind_ok_iff.2 ⟨_, rfl, ?_⟩⟩
    refine bind_ok_iff.2 ⟨_, ref_iff.2 h_authorMostRecent, bind_ok_iff.2 ⟨_, rfl, ?_⟩⟩
    refine bind_ok_iff.2 ⟨_, parseBool_iff.2 hd_rtl, ?_⟩
    refine bind_ok_iff.2 ⟨_, parseBool_iff.2 hd_isDeletable, ?_⟩
    refine bind_ok_iff.2 ⟨_, g_cannotBeSelected, ?_⟩
    refine bind_ok_iff.2 ⟨_, parseBool_iff.2 hd_isTitleText, ?_⟩
    rfl

theorem OutlineGroupNode.parse_iff {o : Object} {n : OutlineGroupNode} : OutlineGroupNode.parse o =
  .ok n ↔ IsOutlineGroupNode o n := by
  unfold OutlineGroupNode.parse
  constructor
  · intro h
    obtain ⟨_, hk, h⟩ := Res.bind_ok h
    obtain ⟨r_lastModified, h_lastModified, h⟩ := Res.bind_ok h
    obtain ⟨lastModified, hr_lastModified, h⟩ := Res.bind_ok h
    obtain ⟨r_children, h_children, h⟩ := Res.bind_ok h
    obtain ⟨r_childLevel, h_childLevel, h⟩ := Res.bind_ok h
    obtain ⟨childLevel, hr_childLevel, h⟩ := Res.bind_ok h
    cases h
    exact ⟨assert_iff.1 hk,
      required_iff.1 (parseTime_iff.1 (h_lastModified.trans (congrArg Except.ok (required_ok
        hr_lastModified)))),
      refs_getD.1 ⟨_, h_children, rfl⟩,
      required_iff.1 (parseU8_iff.1 (h_childLevel.trans (congrArg Except.ok (required_ok
        hr_childLevel))))⟩
  · obtain ⟨lastModified, children, childLevel⟩ := n
    rintro ⟨hkind, h_lastModified, h_children, h_childLevel⟩
    dsimp only at *
    obtain ⟨r_children, g_children, rfl⟩ := (refs_getD (t := .elementChildNodes)).2 h_children
    refine bind_ok_iff.2 ⟨(), assert_iff.2 hkind, ?_⟩
    refine bind_ok_iff.2 ⟨_, parseTime_iff.2 (required_iff.2 h_lastModified), bind_ok_iff.2 ⟨_,
      rfl, ?_⟩⟩
    refine bind_ok_iff.2 ⟨_, g_children, ?_⟩
    refine bind_ok_iff.2 ⟨_, parseU8_iff.2 (required_iff.2 h_childLevel), bind_ok_iff.2 ⟨_, rfl,
      ?_⟩⟩
    rfl

theorem OutlineNode.parse_iff {o : Object} {n : OutlineNode} : OutlineNode.parse o = .ok n ↔
  IsOutlineNode o n := by
  unfold OutlineNode.parse
  constructor
  · intro h
    obtain ⟨_, hk, h⟩ := Res.bind_ok h
    obtain ⟨r_lastModified, h_lastModified, h⟩ := Res.bind_ok h
    obtain ⟨lastModified, hr_lastModified, h⟩ := Res.bind_ok h
    obtain ⟨r_children, h_children, h⟩ := Res.bind_ok h
    obtain ⟨r_childLevel, h_childLevel, h⟩ := Res.bind_ok h
    obtain ⟨childLevel, hr_childLevel, h⟩ := Res.bind_ok h
    obtain ⟨r_layoutMaxHeight, h_layoutMaxHeight, h⟩ := Res.bind_ok h
    obtain ⟨r_layoutReservedWidth, h_layoutReservedWidth, h⟩ := Res.bind_ok h
    obtain ⟨r_layoutMinimumOutlineWidth, h_layoutMinimumOutlineWidth, h⟩ := Res.bind_ok h
    obtain ⟨r_layoutMaxWidth, h_layoutMaxWidth, h⟩ := Res.bind_ok h
    obtain ⟨r_layoutTightAlignment, h_layoutTightAlignment, h⟩ := Res.bind_ok h
    obtain ⟨r_isLayoutSizeSetByUser, h_isLayoutSizeSetByUser, h⟩ := Res.bind_ok h
    obtain ⟨r_listSpacing, h_listSpacing, h⟩ := Res.bind_ok h
    obtain ⟨r_outlineIndentDistance, h_outlineIndentDistance, h⟩ := Res.bind_ok h
    obtain ⟨outlineIndentDistance, hr_outlineIndentDistance, h⟩ := Res.bind_ok h
    obtain ⟨r_offsetFromParentHoriz, h_offsetFromParentHoriz, h⟩ := Res.bind_ok h
    obtain ⟨r_offsetFromParentVert, h_offsetFromParentVert, h⟩ := Res.bind_ok h
    obtain ⟨r_layoutAlignmentInParent, h_layoutAlignmentInParent, h⟩ := Res.bind_ok h
    obtain ⟨r_layoutAlignmentSelf, h_layoutAlignmentSelf, h⟩ := Res.bind_ok h
    obtain ⟨r_isDeletable, h_isDeletable, h⟩ := Res.bind_ok h
    obtain ⟨r_isTitleDate, h_isTitleDate, h⟩ := Res.bind_ok h
    obtain ⟨r_cannotBeSelected, h_cannotBeSelected, h⟩ := Res.bind_ok h
    obtain ⟨r_isTitleText, h_isTitleText, h⟩ := Res.bind_ok h
    obtain ⟨r_isReadOnly, h_isReadOnly, h⟩ := Res.bind_ok h
    obtain ⟨r_descendantsCannotBeMoved, h_descendantsCannotBeMoved, h⟩ := Res.bind_ok h
    obtain ⟨r_tightLayout, h_tightLayout, h⟩ := Res.bind_ok h
    cases h
    exact ⟨assert_iff.1 hk,
      required_iff.1 (parseTime_iff.1 (h_lastModified.trans (congrArg Except.ok (required_ok
        hr_lastModified)))),
      refs_getD.1 ⟨_, h_children, rfl⟩,
      required_iff.1 (parseU8_iff.1 (h_childLevel.trans (congrArg Except.ok (required_ok
        hr_childLevel)))),
      parseF32_iff.1 h_layoutMaxHeight,
      parseF32_iff.1 h_layoutMaxWidth,
      parseF32_iff.1 h_layoutReservedWidth,
      parseF32_iff.1 h_layoutMinimumOutlineWidth,
      default_iff.2 ⟨_, parseBool_iff.1 h_layoutTightAlignment, rfl⟩,
      default_iff.2 ⟨_, parseBool_iff.1 h_isLayoutSizeSetByUser, rfl⟩,
      parseF32_iff.1 h_offsetFromParentHoriz,
      parseF32_iff.1 h_offsetFromParentVert,
      parseF32_iff.1 h_listSpacing,
      required_iff.1 (parseIndents_iff.1 (h_outlineIndentDistance.trans (congrArg Except.ok
        (required_ok hr_outlineIndentDistance)))),
      parseLayout_iff.1 h_layoutAlignmentInParent,
      parseLayout_iff.1 h_layoutAlignmentSelf,
      default_iff.2 ⟨_, parseBool_iff.1 h_isDeletable, rfl⟩,
      default_iff.2 ⟨_, parseBool_iff.1 h_isTitleDate, rfl⟩,
      parseNotBool_iff.1 ⟨_, h_cannotBeSelected, rfl⟩,
      default_iff.2 ⟨_, parseBool_iff.1 h_isTitleText, rfl⟩,
      default_iff.2 ⟨_, parseBool_iff.1 h_isReadOnly, rfl⟩,
      default_iff.2 ⟨_, parseBool_iff.1 h_descendantsCannotBeMoved, rfl⟩,
      default_iff.2 ⟨_, parseBool_iff.1 h_tightLayout, rfl⟩⟩
  · obtain ⟨lastModified, children, childLevel, layoutMaxHeight, layoutMaxWidth,
    layoutReservedWidth, layoutMinimumOutlineWidth, layoutTightAlignment, isLayoutSizeSetByUser,
    offsetFromParentHoriz, offsetFromParentVert, listSpacing, outlineIndentDistance,
    layoutAlignmentInParent, layoutAlignmentSelf, isDeletable, isTitleDate, isSelectable,
    isTitleText, isReadOnly, descendantsCannotBeMoved, tightLayout⟩ := n
    rintro ⟨hkind, h_lastModified, h_children, h_childLevel, h_layoutMaxHeight, h_layoutMaxWidth,
      h_layoutReservedWidth, h_layoutMinimumOutlineWidth, h_layoutTightAlignment,
      h_isLayoutSizeSetByUser, h_offsetFromParentHoriz, h_offsetFromParentVert, h_listSpacing,
      h_outlineIndentDistance, h_layoutAlignmentInParent, h_layoutAlignmentSelf, h_isDeletable,
      h_isTitleDate, h_isSelectable, h_isTitleText, h_isReadOnly, h_descendantsCannotBeMoved,
      h_tightLayout⟩
    dsimp only at *
    obtain ⟨r_children, g_children, rfl⟩ := (refs_getD (t := .elementChildNodes)).2 h_children
    obtain ⟨d_layoutTightAlignment, hd_layoutTightAlignment, rfl⟩ := default_iff.1
      h_layoutTightAlignment
    obtain ⟨d_isLayoutSizeSetByUser, hd_isLayoutSizeSetByUser, rfl⟩ := default_iff.1
      h_isLayoutSizeSetByUser
    obtain ⟨d_isDeletable, hd_isDeletable, rfl⟩ := default_iff.1 h_isDeletable
    obtain ⟨d_isTitleDate, hd_isTitleDate, rfl⟩ := default_iff.1 h_isTitleDate
    obtain ⟨r_cannotBeSelected, g_cannotBeSelected, rfl⟩ := (parseNotBool_iff (t :=
      .cannotBeSelected)).2 h_isSelectable
    obtain ⟨d_isTitleText, hd_isTitleText, rfl⟩ := default_iff.1 h_isTitleText
    obtain ⟨d_isReadOnly, hd_isReadOnly, rfl⟩ := default_iff.1 h_isReadOnly
    obtain ⟨d_descendantsCannotBeMoved, hd_descendantsCannotBeMoved, rfl⟩ := default_iff.1
      h_descendantsCannotBeMoved
    obtain ⟨d_tightLayout, hd_tightLayout, rfl⟩ := default_iff.1 h_tightLayout
    refine bind_ok_iff.2 ⟨(), assert_iff.2 hkind, ?_⟩
    refine bind_ok_iff.2 ⟨_, parseTime_iff.2 (required_iff.2 h_lastModified), bind_ok_iff.2 ⟨_,
      rfl, ?_⟩⟩
    refine bind_ok_iff.2 ⟨_, g_children, ?_⟩
    refine bind_ok_iff.2 ⟨_, parseU8_iff.2 (required_iff.2 h_childLevel), bind_ok_iff.2 ⟨_, rfl,
      ?_⟩⟩
    refine bind_ok_iff.2 ⟨_, parseF32_iff.2 h_layoutMaxHeight, ?_⟩
    refine bind_ok_iff.2 ⟨_, parseF32_iff.2 h_layoutReservedWidth, ?_⟩
    refine bind_ok_iff.2 ⟨_, parseF32_iff.2 h_layoutMinimumOutlineWidth, ?_⟩
    refine bind_ok_iff.2 ⟨_, parseF32_iff.2 h_layoutMaxWidth, ?_⟩
    refine bind_ok_iff.2 ⟨_, parseBool_iff.2 hd_layoutTightAlignment, ?_⟩
    refine bind_ok_iff.2 ⟨_, parseBool_iff.2 hd_isLayoutSizeSetByUser, ?_⟩
    refine bind_ok_iff.2 ⟨_, parseF32_iff.2 h_listSpacing, ?_⟩
    refine bind_ok_iff.2 ⟨_, parseIndents_iff.2 (required_iff.2 h_outlineIndentDistance),
      bind_ok_iff.2 ⟨_, rfl, ?_⟩⟩
    refine bind_ok_iff.2 ⟨_, parseF32_iff.2 h_offsetFromParentHoriz, ?_⟩
    refine bind_ok_iff.2 ⟨_, parseF32_iff.2 h_offsetFromParentVert, ?_⟩
    refine bind_ok_iff.2 ⟨_, parseLayout_iff.2 h_layoutAlignmentInParent, ?_⟩
    refine bind_ok_iff.2 ⟨_, parseLayout_iff.2 h_layoutAlignmentSelf, ?_⟩
    refine bind_ok_iff.2 ⟨_, parseBool_iff.2 hd_isDeletable, ?_⟩
    refine bind_ok_iff.2 ⟨_, parseBool_iff.2 hd_isTitleDate, ?_⟩
    refine bind_ok_iff.2 ⟨_, g_cannotBeSelected, ?_⟩
    refine bind_ok_iff.2 ⟨_, parseBool_iff.2 hd_isTitleText, ?_⟩
    refine bind_ok_iff.2 ⟨_, parseBool_iff.2 hd_isReadOnly, ?_⟩
    refine bind_ok_iff.2 ⟨_, parseBool_iff.2 hd_descendantsCannotBeMoved, ?_⟩
    refine bind_ok_iff.2 ⟨_, parseBool_iff.2 hd_tightLayout, ?_⟩
    rfl

end OneNote
