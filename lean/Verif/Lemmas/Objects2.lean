/-
What the node parsers accept: the rest.
-/
import Verif.Lemmas.Objects

namespace OneNote

open Spec Spec.Fields Spec.Objects

theorem PageMetadata.parse_iff {o : Object} {n : PageMetadata} : PageMetadata.parse o = .ok n ↔
  IsPageMetadata o n := by
  unfold PageMetadata.parse
  constructor
  · intro h
    obtain ⟨_, hk, h⟩ := Res.bind_ok h
    obtain ⟨r_entityGuid, h_entityGuid, h⟩ := Res.bind_ok h
    obtain ⟨entityGuid, hr_entityGuid, h⟩ := Res.bind_ok h
    obtain ⟨r_cachedTitle, h_cachedTitle, h⟩ := Res.bind_ok h
    obtain ⟨cachedTitle, hr_cachedTitle, h⟩ := Res.bind_ok h
    obtain ⟨r_schemaRevisionInOrderToRead, h_schemaRevisionInOrderToRead, h⟩ := Res.bind_ok h
    obtain ⟨r_schemaRevisionInOrderToWrite, h_schemaRevisionInOrderToWrite, h⟩ := Res.bind_ok h
    obtain ⟨r_pageLevel, h_pageLevel, h⟩ := Res.bind_ok h
    obtain ⟨r_createdAt, h_createdAt, h⟩ := Res.bind_ok h
    obtain ⟨createdAt, hr_createdAt, h⟩ := Res.bind_ok h
    obtain ⟨r_isDeleted, h_isDeleted, h⟩ := Res.bind_ok h
    cases h
    exact ⟨assert_iff.1 hk,
      required_iff.1 (parseGuid_iff.1 (h_entityGuid.trans (congrArg Except.ok (required_ok
        hr_entityGuid)))),
      required_iff.1 (parseString_iff.1 (h_cachedTitle.trans (congrArg Except.ok (required_ok
        hr_cachedTitle)))),
      parseU32_iff.1 h_schemaRevisionInOrderToRead,
      parseU32_iff.1 h_schemaRevisionInOrderToWrite,
      parseLevel_iff.1 ⟨_, h_pageLevel, rfl⟩,
      required_iff.1 (parseTimestamp_iff.1 (h_createdAt.trans (congrArg Except.ok (required_ok
        hr_createdAt)))),
      default_iff.2 ⟨_, parseBool_iff.1 h_isDeleted, rfl⟩⟩
  · obtain ⟨entityGuid, cachedTitle, schemaRevisionInOrderToRead, schemaRevisionInOrderToWrite,
    pageLevel, createdAt, isDeleted⟩ := n
    rintro ⟨hkind, h_entityGuid, h_cachedTitle, h_schemaRevisionInOrderToRead,
      h_schemaRevisionInOrderToWrite, h_pageLevel, h_createdAt, h_isDeleted⟩
    dsimp only at *
    obtain ⟨r_pageLevel, g_pageLevel, rfl⟩ := (parseLevel_iff (t := .pageLevel)).2 h_pageLevel
    obtain ⟨d_isDeleted, hd_isDeleted, rfl⟩ := default_iff.1 h_isDeleted
    refine bind_ok_iff.2 ⟨(), assert_iff.2 hkind, ?_⟩
    refine bind_ok_iff.2 ⟨_, parseGuid_iff.2 (required_iff.2 h_entityGuid), bind_ok_iff.2 ⟨_, rfl,
      ?_⟩⟩
    refine bind_ok_iff.2 ⟨_, parseString_iff.2 (required_iff.2 h_cachedTitle), bind_ok_iff.2 ⟨_,
      rfl, ?_⟩⟩
    refine bind_ok_iff.2 ⟨_, parseU32_iff.2 h_schemaRevisionInOrderToRead, ?_⟩
    refine bind_ok_iff.2 ⟨_, parseU32_iff.2 h_schemaRevisionInOrderToWrite, ?_⟩
    refine bind_ok_iff.2 ⟨_, g_pageLevel, ?_⟩
    refine bind_ok_iff.2 ⟨_, parseTimestamp_iff.2 (required_iff.2 h_createdAt), bind_ok_iff.2 ⟨_,
      rfl, ?_⟩⟩
    refine bind_ok_iff.2 ⟨_, parseBool_iff.2 hd_isDeleted, ?_⟩
    rfl

theorem PageNode.parse_iff {o : Object} {n : PageNode} : PageNode.parse o = .ok n ↔ IsPageNode o n
  := by
  unfold PageNode.parse
  constructor
  · intro h
    obtain ⟨_, hk, h⟩ := Res.bind_ok h
    obtain ⟨r_lastModified, h_lastModified, h⟩ := Res.bind_ok h
    obtain ⟨r_cachedTitle, h_cachedTitle, h⟩ := Res.bind_ok h
    obtain ⟨r_author, h_author, h⟩ := Res.bind_ok h
    obtain ⟨r_content, h_content, h⟩ := Res.bind_ok h
    obtain ⟨r_title, h_title, h⟩ := Res.bind_ok h
    obtain ⟨r_orientationPortrait, h_orientationPortrait, h⟩ := Res.bind_ok h
    obtain ⟨r_pageWidth, h_pageWidth, h⟩ := Res.bind_ok h
    obtain ⟨r_pageHeight, h_pageHeight, h⟩ := Res.bind_ok h
    obtain ⟨r_pageMarginOriginX, h_pageMarginOriginX, h⟩ := Res.bind_ok h
    obtain ⟨r_pageMarginOriginY, h_pageMarginOriginY, h⟩ := Res.bind_ok h
    obtain ⟨r_pageMarginLeft, h_pageMarginLeft, h⟩ := Res.bind_ok h
    obtain ⟨r_pageMarginRight, h_pageMarginRight, h⟩ := Res.bind_ok h
    obtain ⟨r_pageMarginTop, h_pageMarginTop, h⟩ := Res.bind_ok h
    obtain ⟨r_pageMarginBottom, h_pageMarginBottom, h⟩ := Res.bind_ok h
    obtain ⟨r_pageSize, h_pageSize, h⟩ := Res.bind_ok h
    obtain ⟨r_rtl, h_rtl, h⟩ := Res.bind_ok h
    cases h
    exact ⟨assert_iff.1 hk,
      parseTime_iff.1 h_lastModified,
      parseString_iff.1 h_cachedTitle,
      parseAuthor_iff.1 h_author,
      refs_getD.1 ⟨_, h_content, rfl⟩,
      ⟨_, refs_getD.1 ⟨_, h_title, rfl⟩, rfl⟩,
      default_iff.2 ⟨_, parseBool_iff.1 h_orientationPortrait, rfl⟩,
      parseF32_iff.1 h_pageWidth,
      parseF32_iff.1 h_pageHeight,
      parseF32_iff.1 h_pageMarginOriginX,
      parseF32_iff.1 h_pageMarginOriginY,
      parseF32_iff.1 h_pageMarginLeft,
      parseF32_iff.1 h_pageMarginRight,
      parseF32_iff.1 h_pageMarginTop,
      parseF32_iff.1 h_pageMarginBottom,
      default_iff.2 ⟨_, parsePageSize_iff.1 h_pageSize, rfl⟩,
      default_iff.2 ⟨_, parseBool_iff.1 h_rtl, rfl⟩⟩
  · obtain ⟨lastModified, cachedTitle, author, content, title, orientationPortrait, pageWidth,
    pageHeight, pageMarginOriginX, pageMarginOriginY, pageMarginLeft, pageMarginRight,
    pageMarginTop, pageMarginBottom, pageSize, rtl⟩ := n
    rintro ⟨hkind, h_lastModified, h_cachedTitle, h_author, h_content, h_title,
      h_orientationPortrait, h_pageWidth, h_pageHeight, h_pageMarginOriginX, h_pageMarginOriginY,
      h_pageMarginLeft, h_pageMarginRight, h_pageMarginTop, h_pageMarginBottom, h_pageSize, h_rtl⟩
    dsimp only at *
    obtain ⟨r_content, g_content, rfl⟩ := (refs_getD (t := .elementChildNodes)).2 h_content
    obtain ⟨i_title, hi_title, rfl⟩ := h_title
    obtain ⟨r_title, g_title, rfl⟩ := (refs_getD (t := .structureElementChildNodes)).2 hi_title
    obtain ⟨d_orientationPortrait, hd_orientationPortrait, rfl⟩ := default_iff.1
      h_orientationPortrait
    obtain ⟨d_pageSize, hd_pageSize, rfl⟩ := default_iff.1 h_pageSize
    obtain ⟨d_rtl, hd_rtl, rfl⟩ := default_iff.1 h_rtl
    refine bind_ok_iff.2 ⟨(), assert_iff.2 hkind, ?_⟩
    refine bind_ok_iff.2 ⟨_, parseTime_iff.2 h_lastModified, ?_⟩
    refine bind_ok_iff.2 ⟨_, parseString_iff.2 h_cachedTitle, ?_⟩
    refine bind_ok_iff.2 ⟨_, parseAuthor_iff.2 h_author, ?_⟩
    refine bind_ok_iff.2 ⟨_, g_content, ?_⟩
    refine bind_ok_iff.2 ⟨_, g_title, ?_⟩
    refine bind_ok_iff.2 ⟨_, parseBool_iff.2 hd_orientationPortrait, ?_⟩
    refine bind_ok_iff.2 ⟨_, parseF32_iff.2 h_pageWidth, ?_⟩
    refine bind_ok_iff.2 ⟨_, parseF32_iff.2 h_pageHeight, ?_⟩
    refine bind_ok_iff.2 ⟨_, parseF32_iff.2 h_pageMarginOriginX, ?_⟩
    refine bind_ok_iff.2 ⟨_, parseF32_iff.2 h_pageMarginOriginY, ?_⟩
    refine bind_ok_iff.2 ⟨_, parseF32_iff.2 h_pageMarginLeft, ?_⟩
    refine bind_ok_iff.2 ⟨_, parseF32_iff.2 h_pageMarginRight, ?_⟩
    refine bind_ok_iff.2 ⟨_, parseF32_iff.2 h_pageMarginTop, ?_⟩
    refine bind_ok_iff.2 ⟨_, parseF32_iff.2 h_pageMarginBottom, ?_⟩
    refine bind_ok_iff.2 ⟨_, parsePageSize_iff.2 hd_pageSize, ?_⟩
    refine bind_ok_iff.2 ⟨_, parseBool_iff.2 hd_rtl, ?_⟩
    rfl

theorem PageSeriesNode.parse_iff {o : Object} {n : PageSeriesNode} : PageSeriesNode.parse o = .ok n
  ↔ IsPageSeriesNode o n := by
  unfold PageSeriesNode.parse
  constructor
  · intro h
    obtain ⟨_, hk, h⟩ := Res.bind_ok h
    obtain ⟨r_entityGuid, h_entityGuid, h⟩ := Res.bind_ok h
    obtain ⟨entityGuid, hr_entityGuid, h⟩ := Res.bind_ok h
    obtain ⟨r_pageSpaces, h_pageSpaces, h⟩ := Res.bind_ok h
    obtain ⟨r_pageMetadata, h_pageMetadata, h⟩ := Res.bind_ok h
    obtain ⟨r_createdAt, h_createdAt, h⟩ := Res.bind_ok h
    cases h
    exact ⟨assert_iff.1 hk,
      required_iff.1 (parseGuid_iff.1 (h_entityGuid.trans (congrArg Except.ok (required_ok
        hr_entityGuid)))),
      cells_getD.1 ⟨_, h_pageSpaces, rfl⟩,
      refs_getD.1 ⟨_, h_pageMetadata, rfl⟩,
      parseTimestamp_iff.1 h_createdAt⟩
  · obtain ⟨entityGuid, pageSpaces, pageMetadata, createdAt⟩ := n
    rintro ⟨hkind, h_entityGuid, h_pageSpaces, h_pageMetadata, h_createdAt⟩
    dsimp only at *
    obtain ⟨r_pageSpaces, g_pageSpaces, rfl⟩ := (cells_getD (t := .childGraphSpaceElementNodes)).2
      h_pageSpaces
    obtain ⟨r_pageMetadata, g_pageMetadata, rfl⟩ := (refs_getD (t :=
      .metaDataObjectsAboveGraphSpace)).2 h_pageMetadata
    refine bind_ok_iff.2 ⟨(), assert_iff.2 hkind, ?_⟩
    refine bind_ok_iff.2 ⟨_, parseGuid_iff.2 (required_iff.2 h_entityGuid), bind_ok_iff.2 ⟨_, rfl,
      ?_⟩⟩
    refine bind_ok_iff.2 ⟨_, g_pageSpaces, ?_⟩
    refine bind_ok_iff.2 ⟨_, g_pageMetadata, ?_⟩
    refine bind_ok_iff.2 ⟨_, parseTimestamp_iff.2 h_createdAt, ?_⟩
    rfl

theorem ParagraphStyleObject.parse_iff {o : Object} {n : ParagraphStyleObject} :
  ParagraphStyleObject.parse o = .ok n ↔ IsParagraphStyleObject o n := by
  unfold ParagraphStyleObject.parse
  constructor
  · intro h
    obtain ⟨_, hk, h⟩ := Res.bind_ok h
    obtain ⟨r_charset, h_charset, h⟩ := Res.bind_ok h
    obtain ⟨r_bold, h_bold, h⟩ := Res.bind_ok h
    obtain ⟨r_italic, h_italic, h⟩ := Res.bind_ok h
    obtain ⟨r_underline, h_underline, h⟩ := Res.bind_ok h
    obtain ⟨r_strikethrough, h_strikethrough, h⟩ := Res.bind_ok h
    obtain ⟨r_superscript, h_superscript, h⟩ := Res.bind_ok h
    obtain ⟨r_subscript, h_subscript, h⟩ := Res.bind_ok h
    obtain ⟨r_font, h_font, h⟩ := Res.bind_ok h
    obtain ⟨r_fontSize, h_fontSize, h⟩ := Res.bind_ok h
    obtain ⟨r_fontColor, h_fontColor, h⟩ := Res.bind_ok h
    obtain ⟨r_highlight, h_highlight, h⟩ := Res.bind_ok h
    obtain ⟨r_nextStyle, h_nextStyle, h⟩ := Res.bind_ok h
    obtain ⟨r_styleId, h_styleId, h⟩ := Res.bind_ok h
    obtain ⟨r_paragraphAlignment, h_paragraphAlignment, h⟩ := Res.bind_ok h
    obtain ⟨r_paragraphSpaceBefore, h_paragraphSpaceBefore, h⟩ := Res.bind_ok h
    obtain ⟨r_paragraphSpaceAfter, h_paragraphSpaceAfter, h⟩ := Res.bind_ok h
    obtain ⟨r_paragraphLineSpacingExact, h_paragraphLineSpacingExact, h⟩ := Res.bind_ok h
    obtain ⟨r_languageCode, h_languageCode, h⟩ := Res.bind_ok h
    obtain ⟨r_mathFormatting, h_mathFormatting, h⟩ := Res.bind_ok h
    obtain ⟨r_hyperlink, h_hyperlink, h⟩ := Res.bind_ok h
    obtain ⟨r_hyperlinkProtected, h_hyperlinkProtected, h⟩ := Res.bind_ok h
    obtain ⟨r_hidden, h_hidden, h⟩ := Res.bind_ok h
    obtain ⟨r_textRunIsEmbeddedObject, h_textRunIsEmbeddedObject, h⟩ := Res.bind_ok h
    obtain ⟨r_textRunObjectType, h_textRunObjectType, h⟩ := Res.bind_ok h
    cases h
    exact ⟨assert_iff.1 hk,
      parseCharset_iff.1 h_charset,
      default_iff.2 ⟨_, parseBool_iff.1 h_bold, rfl⟩,
      default_iff.2 ⟨_, parseBool_iff.1 h_italic, rfl⟩,
      default_iff.2 ⟨_, parseBool_iff.1 h_underline, rfl⟩,
      default_iff.2 ⟨_, parseBool_iff.1 h_strikethrough, rfl⟩,
      default_iff.2 ⟨_, parseBool_iff.1 h_superscript, rfl⟩,
      default_iff.2 ⟨_, parseBool_iff.1 h_subscript, rfl⟩,
      parseString_iff.1 h_font,
      parseU16_iff.1 h_fontSize,
      parseColorRef_iff.1 h_fontColor,
      parseColorRef_iff.1 h_highlight,
      parseString_iff.1 h_nextStyle,
      parseString_iff.1 h_styleId,
      parseParagraphAlignment_iff.1 h_paragraphAlignment,
      parseF32_iff.1 h_paragraphSpaceBefore,
      parseF32_iff.1 h_paragraphSpaceAfter,
      parseF32_iff.1 h_paragraphLineSpacingExact,
      parseU32_iff.1 h_languageCode,
      default_iff.2 ⟨_, parseBool_iff.1 h_mathFormatting, rfl⟩,
      default_iff.2 ⟨_, parseBool_iff.1 h_hyperlink, rfl⟩,
      default_iff.2 ⟨_, parseBool_iff.1 h_hyperlinkProtected, rfl⟩,
      default_iff.2 ⟨_, parseBool_iff.1 h_hidden, rfl⟩,
      default_iff.2 ⟨_, parseBool_iff.1 h_textRunIsEmbeddedObject, rfl⟩,
      parseU32_iff.1 h_textRunObjectType⟩
  · obtain ⟨charset, bold, italic, underline, strikethrough, superscript, subscript, font,
    fontSize, fontColor, highlight, nextStyle, styleId, paragraphAlignment, paragraphSpaceBefore,
    paragraphSpaceAfter, paragraphLineSpacingExact, languageCode, mathFormatting, hyperlink,
    hyperlinkProtected, hidden, textRunIsEmbeddedObject, textRunObjectType⟩ := n
    rintro ⟨hkind, h_charset, h_bold, h_italic, h_underline, h_strikethrough, h_superscript,
      h_subscript, h_font, h_fontSize, h_fontColor, h_highlight, h_nextStyle, h_styleId,
      h_paragraphAlignment, h_paragraphSpaceBefore, h_paragraphSpaceAfter,
      h_paragraphLineSpacingExact, h_languageCode, h_mathFormatting, h_hyperlink,
      h_hyperlinkProtected, h_hidden, h_textRunIsEmbeddedObject, h_textRunObjectType⟩
    dsimp only at *
    obtain ⟨d_bold, hd_bold, rfl⟩ := default_iff.1 h_bold
    obtain ⟨d_italic, hd_italic, rfl⟩ := default_iff.1 h_italic
    obtain ⟨d_underline, hd_underline, rfl⟩ := default_iff.1 h_underline
    obtain ⟨d_strikethrough, hd_strikethrough, rfl⟩ := default_iff.1 h_strikethrough
    obtain ⟨d_superscript, hd_superscript, rfl⟩ := default_iff.1 h_superscript
    obtain ⟨d_subscript, hd_subscript, rfl⟩ := default_iff.1 h_subscript
    obtain ⟨d_mathFormatting, hd_mathFormatting, rfl⟩ := default_iff.1 h_mathFormatting
    obtain ⟨d_hyperlink, hd_hyperlink, rfl⟩ := default_iff.1 h_hyperlink
    obtain ⟨d_hyperlinkProtected, hd_hyperlinkProtected, rfl⟩ := default_iff.1 h_hyperlinkProtected
    obtain ⟨d_hidden, hd_hidden, rfl⟩ := default_iff.1 h_hidden
    obtain ⟨d_textRunIsEmbeddedObject, hd_textRunIsEmbeddedObject, rfl⟩ := default_iff.1
      h_textRunIsEmbeddedObject
    refine bind_ok_iff.2 ⟨(), assert_iff.2 hkind, ?_⟩
    refine bind_ok_iff.2 ⟨_, parseCharset_iff.2 h_charset, ?_⟩
    refine bind_ok_iff.2 ⟨_, parseBool_iff.2 hd_bold, ?_⟩
    refine bind_ok_iff.2 ⟨_, parseBool_iff.2 hd_italic, ?_⟩
    refine bind_ok_iff.2 ⟨_, parseBool_iff.2 hd_underline, ?_⟩
    refine bind_ok_iff.2 ⟨_, parseBool_iff.2 hd_strikethrough, ?_⟩
    refine bind_ok_iff.2 ⟨_, parseBool_iff.2 hd_superscript, ?_⟩
    refine bind_ok_iff.2 ⟨_, parseBool_iff.2 hd_subscript, ?_⟩
    refine bind_ok_iff.2 ⟨_, parseString_iff.2 h_font, ?_⟩
    refine bind_ok_iff.2 ⟨_, parseU16_iff.2 h_fontSize, ?_⟩
    refine bind_ok_iff.2 ⟨_, parseColorRef_iff.2 h_fontColor, ?_⟩
    refine bind_ok_iff.2 ⟨_, parseColorRef_iff.2 h_highlight, ?_⟩
    refine bind_ok_iff.2 ⟨_, parseString_iff.2 h_nextStyle, ?_⟩
    refine bind_ok_iff.2 ⟨_, parseString_iff.2 h_styleId, ?_⟩
    refine bind_ok_iff.2 ⟨_, parseParagraphAlignment_iff.2 h_paragraphAlignment, ?_⟩
    refine bind_ok_iff.2 ⟨_, parseF32_iff.2 h_paragraphSpaceBefore, ?_⟩
    refine bind_ok_iff.2 ⟨_, parseF32_iff.2 h_paragraphSpaceAfter, ?_⟩
    refine bind_ok_iff.2 ⟨_, parseF32_iff.2 h_paragraphLineSpacingExact, ?_⟩
    refine bind_ok_iff.2 ⟨_, parseU32_iff.2 h_languageCode, ?_⟩
    refine bind_ok_iff.2 ⟨_, parseBool_iff.2 hd_mathFormatting, ?_⟩
    refine bind_ok_iff.2 ⟨_, parseBool_iff.2 hd_hyperlink, ?_⟩
    refine bind_ok_iff.2 ⟨_, parseBool_iff.2 hd_hyperlinkProtected, ?_⟩
    refine bind_ok_iff.2 ⟨_, parseBool_iff.2 hd_hidden, ?_⟩
    refine bind_ok_iff.2 ⟨_, parseBool_iff.2 hd_textRunIsEmbeddedObject, ?_⟩
    refine bind_ok_iff.2 ⟨_, parseU32_iff.2 h_textRunObjectType, ?_⟩
    rfl

theorem RichTextNode.parse_iff {o : Object} {n : RichTextNode} : RichTextNode.parse o = .ok n ↔
  IsRichTextNode o n := by
  unfold RichTextNode.parse
  constructor
  · intro h
    obtain ⟨_, hk, h⟩ := Res.bind_ok h
    obtain ⟨r_lastModifiedTime, h_lastModifiedTime, h⟩ := Res.bind_ok h
    obtain ⟨lastModifiedTime, hr_lastModifiedTime, h⟩ := Res.bind_ok h
    obtain ⟨r_tightLayout, h_tightLayout, h⟩ := Res.bind_ok h
    obtain ⟨r_textRunFormatting, h_textRunFormatting, h⟩ := Res.bind_ok h
    obtain ⟨r_textRunIndices, h_textRunIndices, h⟩ := Res.bind_ok h
    obtain ⟨r_textRunDataObject, h_textRunDataObject, h⟩ := Res.bind_ok h
    obtain ⟨r_paragraphStyle, h_paragraphStyle, h⟩ := Res.bind_ok h
    obtain ⟨paragraphStyle, hr_paragraphStyle, h⟩ := Res.bind_ok h
    obtain ⟨r_paragraphSpaceBefore, h_paragraphSpaceBefore, h⟩ := Res.bind_ok h
    obtain ⟨r_paragraphSpaceAfter, h_paragraphSpaceAfter, h⟩ := Res.bind_ok h
    obtain ⟨r_paragraphLineSpacingExact, h_paragraphLineSpacingExact, h⟩ := Res.bind_ok h
    obtain ⟨r_paragraphAlignment, h_paragraphAlignment, h⟩ := Res.bind_ok h
    obtain ⟨r_text, h_text, h⟩ := Res.bind_ok h
    obtain ⟨r_layoutAlignmentInParent, h_layoutAlignmentInParent, h⟩ := Res.bind_ok h
    obtain ⟨r_layoutAlignmentSelf, h_layoutAlignmentSelf, h⟩ := Res.bind_ok h
    obtain ⟨r_isTitleTime, h_isTitleTime, h⟩ := Res.bind_ok h
    obtain ⟨r_isBoilerText, h_isBoilerText, h⟩ := Res.bind_ok h
    obtain ⟨r_isTitleDate, h_isTitleDate, h⟩ := Res.bind_ok h
    obtain ⟨r_isTitleText, h_isTitleText, h⟩ := Res.bind_ok h
    obtain ⟨r_languageCode, h_languageCode, h⟩ := Res.bind_ok h
    obtain ⟨r_rtl, h_rtl, h⟩ := Res.bind_ok h
    obtain ⟨r_noteTags, h_noteTags, h⟩ := Res.bind_ok h
    cases h
    exact ⟨assert_iff.1 hk,
      required_iff.1 (parseTime_iff.1 (h_lastModifiedTime.trans (congrArg Except.ok (required_ok
        hr_lastModifiedTime)))),
      default_iff.2 ⟨_, parseBool_iff.1 h_tightLayout, rfl⟩,
      refs_getD.1 ⟨_, h_textRunFormatting, rfl⟩,
      default_iff.2 ⟨_, parseVecU32_iff.1 h_textRunIndices, rfl⟩,
      refs_getD.1 ⟨_, h_textRunDataObject, rfl⟩,
      ref_iff.1 (h_paragraphStyle.trans (congrArg Except.ok (required_ok hr_paragraphStyle))),
      default_iff.2 ⟨_, parseF32_iff.1 h_paragraphSpaceBefore, rfl⟩,
      default_iff.2 ⟨_, parseF32_iff.1 h_paragraphSpaceAfter, rfl⟩,
      parseF32_iff.1 h_paragraphLineSpacingExact,
      default_iff.2 ⟨_, parseParagraphAlignment_iff.1 h_paragraphAlignment, rfl⟩,
      parseText_iff.1 h_text,
      default_iff.2 ⟨_, parseBool_iff.1 h_isTitleTime, rfl⟩,
      default_iff.2 ⟨_, parseBool_iff.1 h_isBoilerText, rfl⟩,
      default_iff.2 ⟨_, parseBool_iff.1 h_isTitleDate, rfl⟩,
      default_iff.2 ⟨_, parseBool_iff.1 h_isTitleText, rfl⟩,
      parseLayout_iff.1 h_layoutAlignmentInParent,
      parseLayout_iff.1 h_layoutAlignmentSelf,
      parseU16_iff.1 h_languageCode,
      default_iff.2 ⟨_, parseBool_iff.1 h_rtl, rfl⟩,
      parseTags_iff.1 ⟨_, h_noteTags, rfl⟩⟩
  · obtain ⟨lastModifiedTime, tightLayout, textRunFormatting, textRunIndices, textRunDataObject,
    paragraphStyle, paragraphSpaceBefore, paragraphSpaceAfter, paragraphLineSpacingExact,
    paragraphAlignment, text, isTitleTime, isBoilerText, isTitleDate, isTitleText,
    layoutAlignmentInParent, layoutAlignmentSelf, languageCode, rtl, noteTags⟩ := n
    rintro ⟨hkind, h_lastModifiedTime, h_tightLayout, h_textRunFormatting, h_textRunIndices,
      h_textRunDataObject, h_paragraphStyle, h_paragraphSpaceBefore, h_paragraphSpaceAfter,
      h_paragraphLineSpacingExact, h_paragraphAlignment, h_text, h_isTitleTime, h_isBoilerText,
      h_isTitleDate, h_isTitleText, h_layoutAlignmentInParent, h_layoutAlignmentSelf,
      h_languageCode, h_rtl, h_noteTags⟩
    dsimp only at *
    obtain ⟨d_tightLayout, hd_tightLayout, rfl⟩ := default_iff.1 h_tightLayout
    obtain ⟨r_textRunFormatting, g_textRunFormatting, rfl⟩ := (refs_getD (t :=
      .textRunFormatting)).2 h_textRunFormatting
    obtain ⟨d_textRunIndices, hd_textRunIndices, rfl⟩ := default_iff.1 h_textRunIndices
    obtain ⟨r_textRunDataObject, g_textRunDataObject, rfl⟩ := (refs_getD (t :=
      .textRunDataObject)).2 h_textRunDataObject
    obtain ⟨d_paragraphSpaceBefore, hd_paragraphSpaceBefore, rfl⟩ := default_iff.1
      h_paragraphSpaceBefore
    obtain ⟨d_paragraphSpaceAfter, hd_paragraphSpaceAfter, rfl⟩ := default_iff.1
      h_paragraphSpaceAfter
    obtain ⟨d_paragraphAlignment, hd_paragraphAlignment, rfl⟩ := default_iff.1 h_paragraphAlignment
    obtain ⟨d_isTitleTime, hd_isTitleTime, rfl⟩ := default_iff.1 h_isTitleTime
    obtain ⟨d_isBoilerText, hd_isBoilerText, rfl⟩ := default_iff.1 h_isBoilerText
    obtain ⟨d_isTitleDate, hd_isTitleDate, rfl⟩ := default_iff.1 h_isTitleDate
    obtain ⟨d_isTitleText, hd_isTitleText, rfl⟩ := default_iff.1 h_isTitleText
    obtain ⟨d_rtl, hd_rtl, rfl⟩ := default_iff.1 h_rtl
    obtain ⟨r_noteTags, g_noteTags, rfl⟩ := parseTags_iff.2 h_noteTags
    refine bind_ok_iff.2 ⟨(), assert_iff.2 hkind, ?_⟩
    refine bind_ok_iff.2 ⟨_, parseTime_iff.2 (required_iff.2 h_lastModifiedTime), bind_ok_iff.2 ⟨_,
      rfl, ?_⟩⟩
    refine bind_ok_iff.2 ⟨_, parseBool_iff.2 hd_tightLayout, ?_⟩
    refine bind_ok_iff.2 ⟨_, g_textRunFormatting, ?_⟩
    refine bind_ok_iff.2 ⟨_, parseVecU32_iff.2 hd_textRunIndices, ?_⟩
    refine bind_ok_iff.2 ⟨_, g_textRunDataObject, ?_⟩
    refine bind_ok_iff.2 ⟨_, ref_iff.2 h_paragraphStyle, bind_ok_iff.2 ⟨_, rfl, ?_⟩⟩
    refine bind_ok_iff.2 ⟨_, parseF32_iff.2 hd_paragraphSpaceBefore, ?_⟩
    refine bind_ok_iff.2 ⟨_, parseF32_iff.2 hd_paragraphSpaceAfter, ?_⟩
    refine bind_ok_iff.2 ⟨_, parseF32_iff.2 h_paragraphLineSpacingExact, ?_⟩
    refine bind_ok_iff.2 ⟨_, parseParagraphAlignment_iff.2 hd_paragraphAlignment, ?_⟩
    refine bind_ok_iff.2 ⟨_, parseText_iff.2 h_text, ?_⟩
    refine bind_ok_iff.2 ⟨_, parseLayout_iff.2 h_layoutAlignmentInParent, ?_⟩
    refine bind_ok_iff.2 ⟨_, parseLayout_iff.2 h_layoutAlignmentSelf, ?_⟩
    refine bind_ok_iff.2 ⟨_, parseBool_iff.2 hd_isTitleTime, ?_⟩
    refine bind_ok_iff.2 ⟨_, parseBool_iff.2 hd_isBoilerText, ?_⟩
    refine bind_ok_iff.2 ⟨_, parseBool_iff.2 hd_isTitleDate, ?_⟩
    refine bind_ok_iff.2 ⟨_, parseBool_iff.2 hd_isTitleText, ?_⟩
    refine bind_ok_iff.2 ⟨_, parseU16_iff.2 h_languageCode, ?_⟩
    refine bind_ok_iff.2 ⟨_, parseBool_iff.2 hd_rtl, ?_⟩
    refine bind_ok_iff.2 ⟨_, g_noteTags, ?_⟩
    rfl

theorem SectionMetadata.parse_iff {o : Object} {n : SectionMetadata} : SectionMetadata.parse o =
  .ok n ↔ IsSectionMetadata o n := by
  unfold SectionMetadata.parse
  constructor
  · intro h
    obtain ⟨_, hk, h⟩ := Res.bind_ok h
    obtain ⟨r_schemaRevisionInOrderToRead, h_schemaRevisionInOrderToRead, h⟩ := Res.bind_ok h
    obtain ⟨schemaRevisionInOrderToRead, hr_schemaRevisionInOrderToRead, h⟩ := Res.bind_ok h
    obtain ⟨r_schemaRevisionInOrderToWrite, h_schemaRevisionInOrderToWrite, h⟩ := Res.bind_ok h
    obtain ⟨schemaRevisionInOrderToWrite, hr_schemaRevisionInOrderToWrite, h⟩ := Res.bind_ok h
    obtain ⟨r_displayName, h_displayName, h⟩ := Res.bind_ok h
    obtain ⟨r_color, h_color, h⟩ := Res.bind_ok h
    cases h
    exact ⟨assert_iff.1 hk,
      required_iff.1 (parseU32_iff.1 (h_schemaRevisionInOrderToRead.trans (congrArg Except.ok
        (required_ok hr_schemaRevisionInOrderToRead)))),
      required_iff.1 (parseU32_iff.1 (h_schemaRevisionInOrderToWrite.trans (congrArg Except.ok
        (required_ok hr_schemaRevisionInOrderToWrite)))),
      parseString_iff.1 h_displayName,
      parseColor_iff.1 h_color⟩
  · obtain ⟨schemaRevisionInOrderToRead, schemaRevisionInOrderToWrite, displayName, color⟩ := n
    rintro ⟨hkind, h_schemaRevisionInOrderToRead, h_schemaRevisionInOrderToWrite, h_displayName,
      h_color⟩
    dsimp only at *
    refine bind_ok_iff.2 ⟨(), assert_iff.2 hkind, ?_⟩
    refine bind_ok_iff.2 ⟨_, parseU32_iff.2 (required_iff.2 h_schemaRevisionInOrderToRead),
      bind_ok_iff.2 ⟨_, rfl, ?_⟩⟩
    refine bind_ok_iff.2 ⟨_, parseU32_iff.2 (required_iff.2 h_schemaRevisionInOrderToWrite),
      bind_ok_iff.2 ⟨_, rfl, ?_⟩⟩
    refine bind_ok_iff.2 ⟨_, parseString_iff.2 h_displayName, ?_⟩
    refine bind_ok_iff.2 ⟨_, parseColor_iff.2 h_color, ?_⟩
    rfl

theorem SectionNode.parse_iff {o : Object} {n : SectionNode} : SectionNode.parse o = .ok n ↔
  IsSectionNode o n := by
  unfold SectionNode.parse
  constructor
  · intro h
    obtain ⟨_, hk, h⟩ := Res.bind_ok h
    obtain ⟨r_entityGuid, h_entityGuid, h⟩ := Res.bind_ok h
    obtain ⟨entityGuid, hr_entityGuid, h⟩ := Res.bind_ok h
    obtain ⟨r_pageSeries, h_pageSeries, h⟩ := Res.bind_ok h
    obtain ⟨r_createdAt, h_createdAt, h⟩ := Res.bind_ok h
    obtain ⟨createdAt, hr_createdAt, h⟩ := Res.bind_ok h
    cases h
    exact ⟨assert_iff.1 hk,
      rfl,
      required_iff.1 (parseGuid_iff.1 (h_entityGuid.trans (congrArg Except.ok (required_ok
        hr_entityGuid)))),
      refs_getD.1 ⟨_, h_pageSeries, rfl⟩,
      required_iff.1 (parseTimestamp_iff.1 (h_createdAt.trans (congrArg Except.ok (required_ok
        hr_createdAt))))⟩
  · obtain ⟨contextId, entityGuid, pageSeries, createdAt⟩ := n
    rintro ⟨hkind, h_contextId, h_entityGuid, h_pageSeries, h_createdAt⟩
    dsimp only at *
    obtain ⟨r_pageSeries, g_pageSeries, rfl⟩ := (refs_getD (t := .elementChildNodes)).2 h_pageSeries
    subst h_contextId
    refine bind_ok_iff.2 ⟨(), assert_iff.2 hkind, ?_⟩
    refine bind_ok_iff.2 ⟨_, parseGuid_iff.2 (required_iff.2 h_entityGuid), bind_ok_iff.2 ⟨_, rfl,
      ?_⟩⟩
    refine bind_ok_iff.2 ⟨_, g_pageSeries, ?_⟩
    refine bind_ok_iff.2 ⟨_, parseTimestamp_iff.2 (required_iff.2 h_createdAt), bind_ok_iff.2 ⟨_,
      rfl, ?_⟩⟩
    rfl

theorem StrokeProperties.parse_iff {o : Object} {n : StrokeProperties} : StrokeProperties.parse o =
  .ok n ↔ IsStrokeProperties o n := by
  unfold StrokeProperties.parse
  constructor
  · intro h
    obtain ⟨_, hk, h⟩ := Res.bind_ok h
    obtain ⟨r_aliased, h_aliased, h⟩ := Res.bind_ok h
    obtain ⟨r_fitToCurve, h_fitToCurve, h⟩ := Res.bind_ok h
    obtain ⟨r_ignorePressure, h_ignorePressure, h⟩ := Res.bind_ok h
    obtain ⟨r_penTip, h_penTip, h⟩ := Res.bind_ok h
    obtain ⟨r_rasterOperation, h_rasterOperation, h⟩ := Res.bind_ok h
    obtain ⟨r_transparency, h_transparency, h⟩ := Res.bind_ok h
    obtain ⟨r_inkWidth, h_inkWidth, h⟩ := Res.bind_ok h
    obtain ⟨inkWidth, hr_inkWidth, h⟩ := Res.bind_ok h
    obtain ⟨r_inkHeight, h_inkHeight, h⟩ := Res.bind_ok h
    obtain ⟨inkHeight, hr_inkHeight, h⟩ := Res.bind_ok h
    obtain ⟨r_color, h_color, h⟩ := Res.bind_ok h
    obtain ⟨r_dimensions, h_dimensions, h⟩ := Res.bind_ok h
    cases h
    exact ⟨assert_iff.1 hk,
      default_iff.2 ⟨_, parseBool_iff.1 h_aliased, rfl⟩,
      default_iff.2 ⟨_, parseBool_iff.1 h_fitToCurve, rfl⟩,
      default_iff.2 ⟨_, parseBool_iff.1 h_ignorePressure, rfl⟩,
      parseU8_iff.1 h_penTip,
      parseU8_iff.1 h_rasterOperation,
      parseU8_iff.1 h_transparency,
      required_iff.1 (parseF32_iff.1 (h_inkHeight.trans (congrArg Except.ok (required_ok
        hr_inkHeight)))),
      required_iff.1 (parseF32_iff.1 (h_inkWidth.trans (congrArg Except.ok (required_ok
        hr_inkWidth)))),
      parseU32_iff.1 h_color,
      parseDimensions_iff.1 h_dimensions⟩
  · obtain ⟨aliased, fitToCurve, ignorePressure, penTip, rasterOperation, transparency, inkHeight,
    inkWidth, color, dimensions⟩ := n
    rintro ⟨hkind, h_aliased, h_fitToCurve, h_ignorePressure, h_penTip, h_rasterOperation,
      h_transparency, h_inkHeight, h_inkWidth, h_color, h_dimensions⟩
    dsimp only at *
    obtain ⟨d_aliased, hd_aliased, rfl⟩ := default_iff.1 h_aliased
    obtain ⟨d_fitToCurve, hd_fitToCurve, rfl⟩ := default_iff.1 h_fitToCurve
    obtain ⟨d_ignorePressure, hd_ignorePressure, rfl⟩ := default_iff.1 h_ignorePressure
    refine bind_ok_iff.2 ⟨(), assert_iff.2 hkind, ?_⟩
    refine bind_ok_iff.2 ⟨_, parseBool_iff.2 hd_aliased, ?_⟩
    refine bind_ok_iff.2 ⟨_, parseBool_iff.2 hd_fitToCurve, ?_⟩
    refine bind_ok_iff.2 ⟨_, parseBool_iff.2 hd_ignorePressure, ?_⟩
    refine bind_ok_iff.2 ⟨_, parseU8_iff.2 h_penTip, ?_⟩
    refine bind_ok_iff.2 ⟨_, parseU8_iff.2 h_rasterOperation, ?_⟩
    refine bind_ok_iff.2 ⟨_, parseU8_iff.2 h_transparency, ?_⟩
    refine bind_ok_iff.2 ⟨_, parseF32_iff.2 (required_iff.2 h_inkWidth), bind_ok_iff.2 ⟨_, rfl, ?_⟩⟩
    refine bind_ok_iff.2 ⟨_, parseF32_iff.2 (required_iff.2 h_inkHeight), bind_ok_iff.2 ⟨_, rfl,
      ?_⟩⟩
    refine bind_ok_iff.2 ⟨_, parseU32_iff.2 h_color, ?_⟩
    refine bind_ok_iff.2 ⟨_, parseDimensions_iff.2 h_dimensions, ?_⟩
    rfl

theorem TableCellNode.parse_iff {o : Object} {n : TableCellNode} : TableCellNode.parse o = .ok n ↔
  IsTableCellNode o n := by
  unfold TableCellNode.parse
  constructor
  · intro h
    obtain ⟨_, hk, h⟩ := Res.bind_ok h
    obtain ⟨r_lastModified, h_lastModified, h⟩ := Res.bind_ok h
    obtain ⟨r_contents, h_contents, h⟩ := Res.bind_ok h
    obtain ⟨contents, hr_contents, h⟩ := Res.bind_ok h
    obtain ⟨r_layoutMaxWidth, h_layoutMaxWidth, h⟩ := Res.bind_ok h
    obtain ⟨r_outlineIndentDistance, h_outlineIndentDistance, h⟩ := Res.bind_ok h
    obtain ⟨outlineIndentDistance, hr_outlineIndentDistance, h⟩ := Res.bind_ok h
    obtain ⟨r_backgroundColor, h_backgroundColor, h⟩ := Res.bind_ok h
    cases h
    exact ⟨assert_iff.1 hk,
      parseTime_iff.1 h_lastModified,
      refs_required.1 (h_contents.trans (congrArg Except.ok (required_ok hr_contents))),
      parseF32_iff.1 h_layoutMaxWidth,
      required_iff.1 (parseIndents_iff.1 (h_outlineIndentDistance.trans (congrArg Except.ok
        (required_ok hr_outlineIndentDistance)))),
      parseColor_iff.1 h_backgroundColor⟩
  · obtain ⟨lastModified, contents, layoutMaxWidth, outlineIndentDistance, backgroundColor⟩ := n
    rintro ⟨hkind, h_lastModified, h_contents, h_layoutMaxWidth, h_outlineIndentDistance,
      h_backgroundColor⟩
    dsimp only at *
    refine bind_ok_iff.2 ⟨(), assert_iff.2 hkind, ?_⟩
    refine bind_ok_iff.2 ⟨_, parseTime_iff.2 h_lastModified, ?_⟩
    refine bind_ok_iff.2 ⟨_, refs_required.2 h_contents, bind_ok_iff.2 ⟨_, rfl, ?_⟩⟩
    refine bind_ok_iff.2 ⟨_, parseF32_iff.2 h_layoutMaxWidth, ?_⟩
    refine bind_ok_iff.2 ⟨_, parseIndents_iff.2 (required_iff.2 h_outlineIndentDistance),
      bind_ok_iff.2 ⟨_, rfl, ?_⟩⟩
    refine bind_ok_iff.2 ⟨_, parseColor_iff.2 h_backgroundColor, ?_⟩
    rfl

theorem TableNode.parse_iff {o : Object} {n : TableNode} : TableNode.parse o = .ok n ↔ IsTableNode
  o n := by
  unfold TableNode.parse
  constructor
  · intro h
    obtain ⟨_, hk, h⟩ := Res.bind_ok h
    obtain ⟨r_lastModified, h_lastModified, h⟩ := Res.bind_ok h
    obtain ⟨lastModified, hr_lastModified, h⟩ := Res.bind_ok h
    obtain ⟨r_rows, h_rows, h⟩ := Res.bind_ok h
    obtain ⟨rows, hr_rows, h⟩ := Res.bind_ok h
    obtain ⟨r_rowCount, h_rowCount, h⟩ := Res.bind_ok h
    obtain ⟨rowCount, hr_rowCount, h⟩ := Res.bind_ok h
    obtain ⟨r_colCount, h_colCount, h⟩ := Res.bind_ok h
    obtain ⟨colCount, hr_colCount, h⟩ := Res.bind_ok h
    obtain ⟨r_colsLocked, h_colsLocked, h⟩ := Res.bind_ok h
    obtain ⟨r_colWidths, h_colWidths, h⟩ := Res.bind_ok h
    obtain ⟨r_bordersVisible, h_bordersVisible, h⟩ := Res.bind_ok h
    obtain ⟨r_layoutAlignmentInParent, h_layoutAlignmentInParent, h⟩ := Res.bind_ok h
    obtain ⟨r_layoutAlignmentSelf, h_layoutAlignmentSelf, h⟩ := Res.bind_ok h
    obtain ⟨r_noteTags, h_noteTags, h⟩ := Res.bind_ok h
    cases h
    exact ⟨assert_iff.1 hk,
      required_iff.1 (parseTime_iff.1 (h_lastModified.trans (congrArg Except.ok (required_ok
        hr_lastModified)))),
      refs_required.1 (h_rows.trans (congrArg Except.ok (required_ok hr_rows))),
      required_iff.1 (parseU32_iff.1 (h_rowCount.trans (congrArg Except.ok (required_ok
        hr_rowCount)))),
      required_iff.1 (parseU32_iff.1 (h_colCount.trans (congrArg Except.ok (required_ok
        hr_colCount)))),
      parseLocks_iff.1 ⟨_, h_colsLocked, rfl⟩,
      parseWidths_iff.1 ⟨_, h_colWidths, rfl⟩,
      default_iff.2 ⟨_, parseBool_iff.1 h_bordersVisible, rfl⟩,
      parseLayout_iff.1 h_layoutAlignmentInParent,
      parseLayout_iff.1 h_layoutAlignmentSelf,
      parseTags_iff.1 ⟨_, h_noteTags, rfl⟩⟩
  · obtain ⟨lastModified, rows, rowCount, colCount, colsLocked, colWidths, bordersVisible,
    layoutAlignmentInParent, layoutAlignmentSelf, noteTags⟩ := n
    rintro ⟨hkind, h_lastModified, h_rows, h_rowCount, h_colCount, h_colsLocked, h_colWidths,
      h_bordersVisible, h_layoutAlignmentInParent, h_layoutAlignmentSelf, h_noteTags⟩
    dsimp only at *
    obtain ⟨r_colsLocked, g_colsLocked, rfl⟩ := (parseLocks_iff (t := .tableColumnsLocked)).2
      h_colsLocked
    obtain ⟨r_colWidths, g_colWidths, rfl⟩ := (parseWidths_iff (t := .tableColumnWidths)).2
      h_colWidths
    obtain ⟨d_bordersVisible, hd_bordersVisible, rfl⟩ := default_iff.1 h_bordersVisible
    obtain ⟨r_noteTags, g_noteTags, rfl⟩ := parseTags_iff.2 h_noteTags
    refine bind_ok_iff.2 ⟨(), assert_iff.2 hkind, ?_⟩
    refine bind_ok_iff.2 ⟨_, parseTime_iff.2 (required_iff.2 h_lastModified), bind_ok_iff.2 ⟨_,
      rfl, ?_⟩⟩
    refine bind_ok_iff.2 ⟨_, refs_required.2 h_rows, bind_ok_iff.2 ⟨_, rfl, ?_⟩⟩
    refine bind_ok_iff.2 ⟨_, parseU32_iff.2 (required_iff.2 h_rowCount), bind_ok_iff.2 ⟨_, rfl, ?_⟩⟩
    refine bind_ok_iff.2 ⟨_, parseU32_iff.2 (required_iff.2 h_colCount), bind_ok_iff.2 ⟨_, rfl, ?_⟩⟩
    refine bind_ok_iff.2 ⟨_, g_colsLocked, ?_⟩
    refine bind_ok_iff.2 ⟨_, g_colWidths, ?_⟩
    refine bind_ok_iff.2 ⟨_, parseBool_iff.2 hd_bordersVisible, ?_⟩
    refine bind_ok_iff.2 ⟨_, parseLayout_iff.2 h_layoutAlignmentInParent, ?_⟩
    refine bind_ok_iff.2 ⟨_, parseLayout_iff.2 h_layoutAlignmentSelf, ?_⟩
    refine bind_ok_iff.2 ⟨_, g_noteTags, ?_⟩
    rfl

theorem TableRowNode.parse_iff {o : Object} {n : TableRowNode} : TableRowNode.parse o = .ok n ↔
  IsTableRowNode o n := by
  unfold TableRowNode.parse
  constructor
  · intro h
    obtain ⟨_, hk, h⟩ := Res.bind_ok h
    obtain ⟨r_lastModified, h_lastModified, h⟩ := Res.bind_ok h
    obtain ⟨r_cells, h_cells, h⟩ := Res.bind_ok h
    obtain ⟨cells, hr_cells, h⟩ := Res.bind_ok h
    cases h
    exact ⟨assert_iff.1 hk,
      parseTime_iff.1 h_lastModified,
      refs_required.1 (h_cells.trans (congrArg Except.ok (required_ok hr_cells)))⟩
  · obtain ⟨lastModified, cells⟩ := n
    rintro ⟨hkind, h_lastModified, h_cells⟩
    dsimp only at *
    refine bind_ok_iff.2 ⟨(), assert_iff.2 hkind, ?_⟩
    refine bind_ok_iff.2 ⟨_, parseTime_iff.2 h_lastModified, ?_⟩
    refine bind_ok_iff.2 ⟨_, refs_required.2 h_cells, bind_ok_iff.2 ⟨_, rfl, ?_⟩⟩
    rfl

theorem TitleNode.parse_iff {o : Object} {n : TitleNode} : TitleNode.parse o = .ok n ↔ IsTitleNode
  o n := by
  unfold TitleNode.parse
  constructor
  · intro h
    obtain ⟨_, hk, h⟩ := Res.bind_ok h
    obtain ⟨r_lastModifiedTime, h_lastModifiedTime, h⟩ := Res.bind_ok h
    obtain ⟨lastModifiedTime, hr_lastModifiedTime, h⟩ := Res.bind_ok h
    obtain ⟨r_children, h_children, h⟩ := Res.bind_ok h
    obtain ⟨children, hr_children, h⟩ := Res.bind_ok h
    obtain ⟨r_offsetHorizontal, h_offsetHorizontal, h⟩ := Res.bind_ok h
    obtain ⟨offsetHorizontal, hr_offsetHorizontal, h⟩ := Res.bind_ok h
    obtain ⟨r_offsetVertical, h_offsetVertical, h⟩ := Res.bind_ok h
    obtain ⟨offsetVertical, hr_offsetVertical, h⟩ := Res.bind_ok h
    obtain ⟨r_layoutAlignmentInParent, h_layoutAlignmentInParent, h⟩ := Res.bind_ok h
    obtain ⟨r_layoutAlignmentSelf, h_layoutAlignmentSelf, h⟩ := Res.bind_ok h
    cases h
    exact ⟨assert_iff.1 hk,
      required_iff.1 (parseTime_iff.1 (h_lastModifiedTime.trans (congrArg Except.ok (required_ok
        hr_lastModifiedTime)))),
      refs_required.1 (h_children.trans (congrArg Except.ok (required_ok hr_children))),
      required_iff.1 (parseF32_iff.1 (h_offsetHorizontal.trans (congrArg Except.ok (required_ok
        hr_offsetHorizontal)))),
      required_iff.1 (parseF32_iff.1 (h_offsetVertical.trans (congrArg Except.ok (required_ok
        hr_offsetVertical)))),
      parseLayout_iff.1 h_layoutAlignmentInParent,
      parseLayout_iff.1 h_layoutAlignmentSelf⟩
  · obtain ⟨lastModifiedTime, children, offsetHorizontal, offsetVertical, layoutAlignmentInParent,
    layoutAlignmentSelf⟩ := n
    rintro ⟨hkind, h_lastModifiedTime, h_children, h_offsetHorizontal, h_offsetVertical,
      h_layoutAlignmentInParent, h_layoutAlignmentSelf⟩
    dsimp only at *
    refine bind_ok_iff.2 ⟨(), assert_iff.2 hkind, ?_⟩
    refine bind_ok_iff.2 ⟨_, parseTime_iff.2 (required_iff.2 h_lastModifiedTime), bind_ok_iff.2 ⟨_,
      rfl, ?_⟩⟩
    refine bind_ok_iff.2 ⟨_, refs_required.2 h_children, bind_ok_iff.2 ⟨_, rfl, ?_⟩⟩
    refine bind_ok_iff.2 ⟨_, parseF32_iff.2 (required_iff.2 h_offsetHorizontal), bind_ok_iff.2 ⟨_,
      rfl, ?_⟩⟩
    refine bind_ok_iff.2 ⟨_, parseF32_iff.2 (required_iff.2 h_offsetVertical), bind_ok_iff.2 ⟨_,
      rfl, ?_⟩⟩
    refine bind_ok_iff.2 ⟨_, parseLayout_iff.2 h_layoutAlignmentInParent, ?_⟩
    refine bind_ok_iff.2 ⟨_, parseLayout_iff.2 h_layoutAlignmentSelf, ?_⟩
    rfl

theorem TocContainer.parse_iff {o : Object} {n : TocContainer} : TocContainer.parse o = .ok n ↔
  IsTocContainer o n := by
  unfold TocContainer.parse
  constructor
  · intro h
    obtain ⟨_, hk, h⟩ := Res.bind_ok h
    obtain ⟨r_children, h_children, h⟩ := Res.bind_ok h
    obtain ⟨r_filename, h_filename, h⟩ := Res.bind_ok h
    obtain ⟨r_orderingId, h_orderingId, h⟩ := Res.bind_ok h
    obtain ⟨r_color, h_color, h⟩ := Res.bind_ok h
    cases h
    exact ⟨assert_iff.1 hk,
      refs_getD.1 ⟨_, h_children, rfl⟩,
      parseFilename_iff.1 ⟨_, h_filename, rfl⟩,
      parseU32_iff.1 h_orderingId,
      parseColor_iff.1 h_color⟩
  · obtain ⟨children, filename, orderingId, color⟩ := n
    rintro ⟨hkind, h_children, h_filename, h_orderingId, h_color⟩
    dsimp only at *
    obtain ⟨r_children, g_children, rfl⟩ := (refs_getD (t := .tocChildren)).2 h_children
    obtain ⟨r_filename, g_filename, rfl⟩ := (parseFilename_iff (t := .folderChildFilename)).2
      h_filename
    refine bind_ok_iff.2 ⟨(), assert_iff.2 hkind, ?_⟩
    refine bind_ok_iff.2 ⟨_, g_children, ?_⟩
    refine bind_ok_iff.2 ⟨_, g_filename, ?_⟩
    refine bind_ok_iff.2 ⟨_, parseU32_iff.2 h_orderingId, ?_⟩
    refine bind_ok_iff.2 ⟨_, parseColor_iff.2 h_color, ?_⟩
    rfl

end OneNote
