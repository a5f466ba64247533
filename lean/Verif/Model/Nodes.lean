/-
The property sets of OneNote objects.

Models /repo/src/one/property_set/*.rs. Every `parse` reads the object's properties in the order of
the code, so that the first problem met decides the error returned.
-/
import Verif.Model.Property
import Verif.Model.MultiByte

namespace OneNote

/-- `PropertySetId`, /repo/src/one/property_set/mod.rs L46-79. -/
inductive PropertySetId where
  | authorContainer | embeddedFileContainer | embeddedFileNode | imageNode
  | noteTagSharedDefinitionContainer | numberListNode | outlineElementNode | outlineGroup
  | outlineNode | pageManifestNode | pageMetadata | pageNode | pageSeriesNode
  | paragraphStyleObject | pictureContainer | revisionMetadata | richTextNode | sectionMetadata
  | sectionNode | tableCellNode | tableNode | tableRowNode | titleNode | tocContainer
  | xpsContainer | inkContainer | inkDataNode | inkStrokeNode | strokePropertiesNode | iFrameNode
  deriving DecidableEq, Repr, Inhabited

namespace PropertySetId

/-- `PropertySetId::as_jcid`, /repo/src/one/property_set/mod.rs L47-78 and L82-84. -/
def asJcid : PropertySetId → Nat
  | authorContainer => 0x00120001
  | embeddedFileContainer => 0x00080036
  | embeddedFileNode => 0x00060035
  | imageNode => 0x00060011
  | noteTagSharedDefinitionContainer => 0x00120043
  | numberListNode => 0x00060012
  | outlineElementNode => 0x0006000D
  | outlineGroup => 0x00060019
  | outlineNode => 0x0006000C
  | pageManifestNode => 0x00060037
  | pageMetadata => 0x00020030
  | pageNode => 0x0006000B
  | pageSeriesNode => 0x00060008
  | paragraphStyleObject => 0x0012004D
  | pictureContainer => 0x00080039
  | revisionMetadata => 0x00020044
  | richTextNode => 0x0006000E
  | sectionMetadata => 0x00020031
  | sectionNode => 0x00060007
  | tableCellNode => 0x00060024
  | tableNode => 0x00060022
  | tableRowNode => 0x00060023
  | titleNode => 0x0006002C
  | tocContainer => 0x00020001
  | xpsContainer => 0x0008003A
  | inkContainer => 0x00060014
  | inkDataNode => 0x0002003B
  | inkStrokeNode => 0x00020047
  | strokePropertiesNode => 0x00120048
  | iFrameNode => 0x00060058

/-- All property sets, in the order of the declaration. -/
def all : List PropertySetId :=
  [authorContainer, embeddedFileContainer, embeddedFileNode, imageNode,
   noteTagSharedDefinitionContainer, numberListNode, outlineElementNode, outlineGroup,
   outlineNode, pageManifestNode, pageMetadata, pageNode, pageSeriesNode,
   paragraphStyleObject, pictureContainer, revisionMetadata, richTextNode, sectionMetadata,
   sectionNode, tableCellNode, tableNode, tableRowNode, titleNode, tocContainer,
   xpsContainer, inkContainer, inkDataNode, inkStrokeNode, strokePropertiesNode, iFrameNode]

/-- `PropertySetId::from_jcid`, /repo/src/one/property_set/mod.rs L86-88 (the derived
`FromPrimitive`: the variant with that discriminant). -/
def fromJcid (id : Nat) : Option PropertySetId := all.find? fun p => p.asJcid = id

end PropertySetId

/-- `assert_property_set`, /repo/src/one/property_set/mod.rs L91-100. -/
def assertPropertySet (o : Object) (expected : PropertySetId) : Res Unit :=
  if o.jcId = expected.asJcid then .ok () else .error .malformedOneNoteFile

/-- `embedded_file_container::parse`, embedded_file_container.rs L19-30. -/
def EmbeddedFileContainer.parse (o : Object) : Res Bytes := do
  assertPropertySet o .embeddedFileContainer
  required o.fileData

/-- `note_tag_container::Data`, note_tag_container.rs L22-27. -/
structure NoteTagData where
  definition : Option ExGuid
  createdAt : Nat
  completedAt : Option Nat
  itemStatus : ActionItemStatus
  deriving DecidableEq, Repr, Inhabited

/-- `note_tag_container::Data::parse_data`, note_tag_container.rs L53-72. -/
def NoteTagData.parseData (o : Object) : Res NoteTagData := do
  let definition ← ObjectReference.parse .noteTagDefinitionOid o
  let createdAt ← required (← Time.parse .noteTagCreated o)
  let completedAt ← Time.parse .noteTagCompleted o
  let itemStatus ← required (← ActionItemStatus.parse o)
  pure ⟨definition, createdAt, completedAt, itemStatus⟩

/-- `note_tag_container::Data::parse`, note_tag_container.rs L30-51. -/
def NoteTagData.parse (o : Object) : Res (Option (List NoteTagData)) :=
  match o.props.get .noteTags with
  | none => .ok none
  | some (.propertyValues id sets) => do
    let data ← sets.mapM fun props => do
      let object ← nestedObject .noteTags o id props
      NoteTagData.parseData object
    pure (some data)
  | some _ => .error .malformedOneNoteFile

/-- `embedded_file_node::Data`, embedded_file_node.rs L19-39 (without the constant
`recording_duration: None`). -/
structure EmbeddedFileNode where
  lastModified : Nat
  pictureContainer : Option ExGuid
  layoutMaxWidth : Option F32
  layoutMaxHeight : Option F32
  isLayoutSizeSetByUser : Bool
  text : Option Text
  textLanguageCode : Option Nat
  layoutAlignmentInParent : Option LayoutAlignment
  layoutAlignmentSelf : Option LayoutAlignment
  embeddedFileContainer : ExGuid
  embeddedFileName : Text
  sourcePath : Option Text
  fileType : FileType
  pictureWidth : Option F32
  pictureHeight : Option F32
  noteTags : List NoteTagData
  offsetFromParentHoriz : Option F32
  offsetFromParentVert : Option F32
  deriving DecidableEq, Repr, Inhabited

/-- `embedded_file_node::parse`, embedded_file_node.rs L41-99. -/
def EmbeddedFileNode.parse (o : Object) : Res EmbeddedFileNode := do
  assertPropertySet o .embeddedFileNode
  let lastModified ← required (← Time.parse .lastModifiedTime o)
  let pictureContainer ← ObjectReference.parse .pictureContainer o
  let layoutMaxWidth ← Simple.parseF32 .layoutMaxWidth o
  let layoutMaxHeight ← Simple.parseF32 .layoutMaxHeight o
  let isLayoutSizeSetByUser ← Simple.parseBool .isLayoutSizeSetByUser o
  let text ← Simple.parseString .richEditTextUnicode o
  let textLanguageCode ← Simple.parseU16 .richEditTextLangId o
  let layoutAlignmentInParent ← LayoutAlignment.parse .layoutAlignmentInParent o
  let layoutAlignmentSelf ← LayoutAlignment.parse .layoutAlignmentSelf o
  let embeddedFileContainer ← required (← ObjectReference.parse .embeddedFileContainer o)
  let embeddedFileName ← required (← Simple.parseString .embeddedFileName o)
  let sourcePath ← Simple.parseString .sourceFilepath o
  let fileType ← FileType.parse o
  let pictureWidth ← Simple.parseF32 .pictureWidth o
  let pictureHeight ← Simple.parseF32 .pictureHeight o
  let offsetFromParentHoriz ← Simple.parseF32 .offsetFromParentHoriz o
  let offsetFromParentVert ← Simple.parseF32 .offsetFromParentVert o
  let noteTags ← NoteTagData.parse o
  pure {
    lastModified, pictureContainer, layoutMaxWidth, layoutMaxHeight
    isLayoutSizeSetByUser := isLayoutSizeSetByUser.getD false
    text, textLanguageCode, layoutAlignmentInParent, layoutAlignmentSelf
    embeddedFileContainer, embeddedFileName, sourcePath, fileType, pictureWidth, pictureHeight
    noteTags := noteTags.getD []
    offsetFromParentHoriz, offsetFromParentVert }

/-- `embedded_ink_container::Data`, embedded_ink_container.rs L8-18. -/
structure EmbeddedInkData where
  spaceWidth : Option F32
  spaceHeight : Option F32
  startX : Option F32
  startY : Option F32
  height : Option F32
  width : Option F32
  offsetHoriz : Option F32
  offsetVert : Option F32
  deriving DecidableEq, Repr, Inhabited

/-- `embedded_ink_container::Data::parse`, embedded_ink_container.rs L21-44. -/
def EmbeddedInkData.parse (o : Object) : Res EmbeddedInkData := do
  let spaceWidth ← Simple.parseF32 .embeddedInkSpaceWidth o
  let spaceHeight ← Simple.parseF32 .embeddedInkSpaceHeight o
  let startX ← Simple.parseF32 .embeddedInkStartX o
  let startY ← Simple.parseF32 .embeddedInkStartY o
  let height ← Simple.parseF32 .embeddedInkHeight o
  let width ← Simple.parseF32 .embeddedInkWidth o
  let offsetHoriz ← Simple.parseF32 .embeddedInkOffsetHoriz o
  let offsetVert ← Simple.parseF32 .embeddedInkOffsetVert o
  pure { spaceWidth, spaceHeight, startX, startY, height, width, offsetHoriz, offsetVert }

/-- `iframe_node::Data`, iframe_node.rs L8-11, and `IFrame`, /repo/src/onenote/iframe.rs L8-11. -/
structure IFrame where
  embedType : Option Nat
  sourceUrl : Text
  deriving DecidableEq, Repr, Inhabited

/-- `iframe_node::parse`, iframe_node.rs L13-24. -/
def IFrameNode.parse (o : Object) : Res IFrame := do
  assertPropertySet o .iFrameNode
  let embedType ← Simple.parseU32 .imageEmbedType o
  let sourceUrl ← required (← Simple.parseString .imageEmbeddedUrl o)
  pure { embedType, sourceUrl }

/-- `image_node::Data`, image_node.rs L18-40. -/
structure ImageNode where
  lastModified : Option Nat
  pictureContainer : Option ExGuid
  layoutMaxWidth : Option F32
  layoutMaxHeight : Option F32
  isLayoutSizeSetByUser : Bool
  languageCode : Option Nat
  altText : Option Text
  layoutAlignmentInParent : Option LayoutAlignment
  layoutAlignmentSelf : Option LayoutAlignment
  imageFilename : Option Text
  displayedPageNumber : Option Nat
  text : Option Text
  textLanguageCode : Option Nat
  pictureWidth : Option F32
  pictureHeight : Option F32
  hyperlinkUrl : Option Text
  noteTags : List NoteTagData
  offsetFromParentHoriz : Option F32
  offsetFromParentVert : Option F32
  isBackground : Bool
  iframe : List ExGuid
  deriving DecidableEq, Repr, Inhabited

/-- `image_node::parse`, image_node.rs L42-98. -/
def ImageNode.parse (o : Object) : Res ImageNode := do
  assertPropertySet o .imageNode
  let lastModified ← Time.parse .lastModifiedTime o
  let pictureContainer ← ObjectReference.parse .pictureContainer o
  let layoutMaxWidth ← Simple.parseF32 .layoutMaxWidth o
  let layoutMaxHeight ← Simple.parseF32 .layoutMaxHeight o
  let isLayoutSizeSetByUser ← Simple.parseBool .isLayoutSizeSetByUser o
  let languageCode ← Simple.parseU32 .languageId o
  let altText ← Simple.parseString .imageAltText o
  let layoutAlignmentInParent ← LayoutAlignment.parse .layoutAlignmentInParent o
  let layoutAlignmentSelf ← LayoutAlignment.parse .layoutAlignmentSelf o
  let imageFilename ← Simple.parseString .imageFilename o
  let displayedPageNumber ← Simple.parseU32 .displayedPageNumber o
  let text ← Simple.parseString .richEditTextUnicode o
  let textLanguageCode ← Simple.parseU16 .richEditTextLangId o
  let pictureWidth ← Simple.parseF32 .pictureWidth o
  let pictureHeight ← Simple.parseF32 .pictureHeight o
  let hyperlinkUrl ← Simple.parseString .wzHyperlinkUrl o
  let offsetFromParentHoriz ← Simple.parseF32 .offsetFromParentHoriz o
  let offsetFromParentVert ← Simple.parseF32 .offsetFromParentVert o
  let isBackground ← Simple.parseBool .isBackground o
  let noteTags ← NoteTagData.parse o
  let iframe ← ObjectReference.parseVec .contentChildNodes o
  pure {
    lastModified, pictureContainer, layoutMaxWidth, layoutMaxHeight
    isLayoutSizeSetByUser := isLayoutSizeSetByUser.getD false
    languageCode, altText, layoutAlignmentInParent, layoutAlignmentSelf, imageFilename
    displayedPageNumber, text, textLanguageCode, pictureWidth, pictureHeight, hyperlinkUrl
    noteTags := noteTags.getD []
    offsetFromParentHoriz, offsetFromParentVert
    isBackground := isBackground.getD false
    iframe := iframe.getD [] }

/-- `ink_container::Data`, ink_container.rs L11-18. -/
structure InkContainerNode where
  offsetFromParentHoriz : Option F32
  offsetFromParentVert : Option F32
  lastModified : Option Nat
  inkData : Option ExGuid
  inkScalingX : Option F32
  inkScalingY : Option F32
  deriving DecidableEq, Repr, Inhabited

/-- `ink_container::parse`, ink_container.rs L20-40. Both scalings are read from `InkScalingX`
(L27-28). -/
def InkContainerNode.parse (o : Object) : Res InkContainerNode := do
  assertPropertySet o .inkContainer
  let lastModified ← Time.parse .lastModifiedTime o
  let offsetFromParentHoriz ← Simple.parseF32 .offsetFromParentHoriz o
  let offsetFromParentVert ← Simple.parseF32 .offsetFromParentVert o
  let inkData ← ObjectReference.parse .inkData o
  let inkScalingX ← Simple.parseF32 .inkScalingX o
  let inkScalingY ← Simple.parseF32 .inkScalingX o
  pure { offsetFromParentHoriz, offsetFromParentVert, lastModified, inkData, inkScalingX, inkScalingY }

/-- `ink_data_node::Data`, ink_data_node.rs L10-13. -/
structure InkDataNode where
  strokes : List ExGuid
  boundingBox : Option (Nat × Nat × Nat × Nat)
  deriving DecidableEq, Repr, Inhabited

/-- `.filter(|values| values.len() == 4).map(|values| [values[0], …, values[3]])`,
ink_data_node.rs L23-24. -/
def four : List Nat → Option (Nat × Nat × Nat × Nat)
  | [a, b, c, d] => some (a, b, c, d)
  | _ => none

/-- `ink_data_node::parse`, ink_data_node.rs L15-30. -/
def InkDataNode.parse (o : Object) : Res InkDataNode := do
  assertPropertySet o .inkDataNode
  let strokes ← required (← ObjectReference.parseVec .inkStrokes o)
  let boundingBox ← Simple.parseVecU32 .inkBoundingBox o
  pure { strokes, boundingBox := boundingBox.bind four }

/-- `InkBias`, ink_stroke_node.rs L18-22. -/
inductive InkBias where
  | handwriting | drawing | both
  deriving DecidableEq, Repr, Inhabited

/-- The closure of ink_stroke_node.rs L34-41. -/
def InkBias.ofValue : Nat → Res InkBias
  | 0 => .ok .handwriting
  | 1 => .ok .drawing
  | 2 => .ok .both
  | _ => .error .malformedOneNoteFile

/-- `ink_stroke_node::Data`, ink_stroke_node.rs L11-16. -/
structure InkStrokeNode where
  path : List Int
  bias : InkBias
  languageCode : Option Nat
  properties : ExGuid
  deriving DecidableEq, Repr, Inhabited

/-- `ink_stroke_node::parse`, ink_stroke_node.rs L24-62. -/
def InkStrokeNode.parse (o : Object) : Res InkStrokeNode := do
  assertPropertySet o .inkStrokeNode
  let path ← required (← optM MultiByte.decodeSigned (← Simple.parseVec .inkPath o))
  let bias ← required (← optM InkBias.ofValue (← Simple.parseU8 .inkBias o))
  let languageCode ← Simple.parseU32 .languageId o
  let properties ← required (← ObjectReference.parse .inkStrokeProperties o)
  pure { path, bias, languageCode, properties }

/-- `math_inline_object::Data`, math_inline_object.rs L8-16. -/
structure MathInlineData where
  objectType : Option Nat
  argCount : Option Nat
  column : Option Nat
  align : Option Nat
  char : Option Char
  char1 : Option Char
  char2 : Option Char
  deriving DecidableEq, Repr, Inhabited

/-- `parse_utf16_char`, math_inline_object.rs L49-51. -/
def parseUtf16Char (c : Nat) : Res (Option Char) :=
  match decodeUtf16 [c] with
  | some t => .ok t.head?
  | none => .error .utf16Error

/-- `math_inline_object::Data::parse`, math_inline_object.rs L19-46. -/
def MathInlineData.parse (o : Object) : Res MathInlineData := do
  let objectType ← Simple.parseU32 .mathInlineObjectType o
  let argCount ← Simple.parseU32 .mathInlineObjectCount o
  let column ← Simple.parseU8 .mathInlineObjectCol o
  let align ← Simple.parseU8 .mathInlineObjectAlign o
  let char ← optM parseUtf16Char (← Simple.parseU16 .mathInlineObjectChar o)
  let char1 ← optM parseUtf16Char (← Simple.parseU16 .mathInlineObjectChar1 o)
  let char2 ← optM parseUtf16Char (← Simple.parseU16 .mathInlineObjectChar2 o)
  pure { objectType, argCount, column, align, char := char.join, char1 := char1.join,
         char2 := char2.join }

/-- `note_tag_shared_definition_container::Data`,
note_tag_shared_definition_container.rs L17-24, and `NoteTagDefinition`,
/repo/src/onenote/note_tag.rs L53-60 (the same fields). -/
structure NoteTagDefinition where
  label : Text
  status : NoteTagPropertyStatus
  shape : NoteTagShape
  highlightColor : Option ColorRef
  textColor : Option ColorRef
  actionItemType : ActionItemType
  deriving DecidableEq, Repr, Inhabited

/-- `note_tag_shared_definition_container::parse`,
note_tag_shared_definition_container.rs L26-57. -/
def NoteTagDefinition.parse (o : Object) : Res NoteTagDefinition := do
  assertPropertySet o .noteTagSharedDefinitionContainer
  let label ← required (← Simple.parseString .noteTagLabel o)
  let status ← required (← NoteTagPropertyStatus.parse o)
  let shape ← required (← optM NoteTagShape.parse (← Simple.parseU16 .noteTagShape o))
  let highlightColor ← ColorRef.parse .noteTagHighlightColor o
  let textColor ← ColorRef.parse .noteTagTextColor o
  let actionItemType ← required (← ActionItemType.parse o)
  pure { label, status, shape, highlightColor, textColor, actionItemType }

/-- `number_list_node::Data`, number_list_node.rs L16-27. -/
structure NumberListNode where
  lastModified : Nat
  listFont : Option Text
  listRestart : Option Int
  listFormat : Text
  bold : Bool
  italic : Bool
  languageCode : Option Nat
  font : Option Text
  fontSize : Option Nat
  fontColor : Option ColorRef
  deriving DecidableEq, Repr, Inhabited

/-- `parse_list_format`, number_list_node.rs L66-70: `data[1..]` panics on an empty vector. -/
def parseListFormat : List Nat → Res Text
  | [] => .error .panic
  | _ :: rest => .ok (decodeUtf16Lossy rest)

/-- `number_list_node::parse`, number_list_node.rs L29-64. -/
def NumberListNode.parse (o : Object) : Res NumberListNode := do
  assertPropertySet o .numberListNode
  let lastModified ← required (← Time.parse .lastModifiedTime o)
  let listFont ← Simple.parseString .listFont o
  let listRestart ← Simple.parseU32 .listRestart o
  let listFormat ← required (← optM parseListFormat (← Simple.parseVecU16 .numberListFormat o))
  let bold ← Simple.parseBool .bold o
  let italic ← Simple.parseBool .italic o
  let languageCode ← Simple.parseU32 .languageId o
  let font ← Simple.parseString .font o
  let fontSize ← Simple.parseU16 .fontSize o
  let fontColor ← ColorRef.parse .fontColor o
  pure { lastModified, listFont, listRestart := listRestart.map toI32, listFormat
         bold := bold.getD false, italic := italic.getD false
         languageCode, font, fontSize, fontColor }

/-- `outline_element_node::Data`, outline_element_node.rs L16-30. -/
structure OutlineElementNode where
  createdAt : Nat
  lastModified : Nat
  children : List ExGuid
  childLevel : Nat
  contents : List ExGuid
  listContents : List ExGuid
  listSpacing : Option F32
  authorOriginal : ExGuid
  authorMostRecent : ExGuid
  rtl : Bool
  isDeletable : Bool
  isSelectable : Bool
  isTitleText : Bool
  deriving DecidableEq, Repr, Inhabited

/-- `outline_element_node::parse`, outline_element_node.rs L32-84. -/
def OutlineElementNode.parse (o : Object) : Res OutlineElementNode := do
  assertPropertySet o .outlineElementNode
  let createdAt ← required (← Time.parse .creationTimeStamp o)
  let lastModified ← required (← Time.parse .lastModifiedTime o)
  let children ← ObjectReference.parseVec .elementChildNodes o
  let childLevel ← required (← Simple.parseU8 .outlineElementChildLevel o)
  let contents ← ObjectReference.parseVec .contentChildNodes o
  let listContents ← ObjectReference.parseVec .listNodes o
  let listSpacing ← Simple.parseF32 .listSpacingMu o
  let authorOriginal ← required (← ObjectReference.parse .authorOriginal o)
  let authorMostRecent ← required (← ObjectReference.parse .authorMostRecent o)
  let rtl ← Simple.parseBool .outlineElementRtl o
  let isDeletable ← Simple.parseBool .deletable o
  let cannotBeSelected ← Simple.parseBool .cannotBeSelected o
  let isTitleText ← Simple.parseBool .isTitleText o
  pure { createdAt, lastModified, children := children.getD [], childLevel
         contents := contents.getD [], listContents := listContents.getD [], listSpacing
         authorOriginal, authorMostRecent, rtl := rtl.getD false
         isDeletable := isDeletable.getD false
         isSelectable := (cannotBeSelected.map (!·)).getD false
         isTitleText := isTitleText.getD false }

/-- `outline_group::Data`, outline_group.rs L16-20. -/
structure OutlineGroupNode where
  lastModified : Nat
  children : List ExGuid
  childLevel : Nat
  deriving DecidableEq, Repr, Inhabited

/-- `outline_group::parse`, outline_group.rs L22-42. -/
def OutlineGroupNode.parse (o : Object) : Res OutlineGroupNode := do
  assertPropertySet o .outlineGroup
  let lastModified ← required (← Time.parse .lastModifiedTime o)
  let children ← ObjectReference.parseVec .elementChildNodes o
  let childLevel ← required (← Simple.parseU8 .outlineElementChildLevel o)
  pure { lastModified, children := children.getD [], childLevel }

/-- `outline_node::Data`, outline_node.rs L18-41. -/
structure OutlineNode where
  lastModified : Nat
  children : List ExGuid
  childLevel : Nat
  layoutMaxHeight : Option F32
  layoutMaxWidth : Option F32
  layoutReservedWidth : Option F32
  layoutMinimumOutlineWidth : Option F32
  layoutTightAlignment : Bool
  isLayoutSizeSetByUser : Bool
  offsetFromParentHoriz : Option F32
  offsetFromParentVert : Option F32
  listSpacing : Option F32
  outlineIndentDistance : OutlineIndentDistance
  layoutAlignmentInParent : Option LayoutAlignment
  layoutAlignmentSelf : Option LayoutAlignment
  isDeletable : Bool
  isTitleDate : Bool
  isSelectable : Bool
  isTitleText : Bool
  isReadOnly : Bool
  descendantsCannotBeMoved : Bool
  tightLayout : Bool
  deriving DecidableEq, Repr, Inhabited

/-- `outline_node::parse`, outline_node.rs L43-116. -/
def OutlineNode.parse (o : Object) : Res OutlineNode := do
  assertPropertySet o .outlineNode
  let lastModified ← required (← Time.parse .lastModifiedTime o)
  let children ← ObjectReference.parseVec .elementChildNodes o
  let childLevel ← required (← Simple.parseU8 .outlineElementChildLevel o)
  let layoutMaxHeight ← Simple.parseF32 .layoutMaxHeight o
  let layoutReservedWidth ← Simple.parseF32 .layoutOutlineReservedWidth o
  let layoutMinimumOutlineWidth ← Simple.parseF32 .layoutMinimumOutlineWidth o
  let layoutMaxWidth ← Simple.parseF32 .layoutMaxWidth o
  let layoutTightAlignment ← Simple.parseBool .layoutTightAlignment o
  let isLayoutSizeSetByUser ← Simple.parseBool .isLayoutSizeSetByUser o
  let listSpacing ← Simple.parseF32 .listSpacingMu o
  let outlineIndentDistance ← required (← OutlineIndentDistance.parse o)
  let offsetFromParentHoriz ← Simple.parseF32 .offsetFromParentHoriz o
  let offsetFromParentVert ← Simple.parseF32 .offsetFromParentVert o
  let layoutAlignmentInParent ← LayoutAlignment.parse .layoutAlignmentInParent o
  let layoutAlignmentSelf ← LayoutAlignment.parse .layoutAlignmentSelf o
  let isDeletable ← Simple.parseBool .deletable o
  let isTitleDate ← Simple.parseBool .isTitleDate o
  let cannotBeSelected ← Simple.parseBool .cannotBeSelected o
  let isTitleText ← Simple.parseBool .isTitleText o
  let isReadOnly ← Simple.parseBool .isReadOnly o
  let descendantsCannotBeMoved ← Simple.parseBool .descendantsCannotBeMoved o
  let tightLayout ← Simple.parseBool .layoutTightLayout o
  pure { lastModified, children := children.getD [], childLevel, layoutMaxHeight, layoutMaxWidth
         layoutReservedWidth, layoutMinimumOutlineWidth
         layoutTightAlignment := layoutTightAlignment.getD false
         isLayoutSizeSetByUser := isLayoutSizeSetByUser.getD false
         offsetFromParentHoriz, offsetFromParentVert, listSpacing, outlineIndentDistance
         layoutAlignmentInParent, layoutAlignmentSelf
         isDeletable := isDeletable.getD false
         isTitleDate := isTitleDate.getD false
         isSelectable := (cannotBeSelected.map (!·)).getD true
         isTitleText := isTitleText.getD false
         isReadOnly := isReadOnly.getD false
         descendantsCannotBeMoved := descendantsCannotBeMoved.getD false
         tightLayout := tightLayout.getD false }

/-- `page_manifest_node::parse`, page_manifest_node.rs L19-27: the page object. -/
def PageManifestNode.parse (o : Object) : Res ExGuid := do
  assertPropertySet o .pageManifestNode
  let ids ← ObjectReference.parseVec .contentChildNodes o
  required (ids.bind List.head?)

/-- `page_metadata::Data`, page_metadata.rs L15-23. -/
structure PageMetadata where
  entityGuid : Guid
  cachedTitle : Text
  schemaRevisionInOrderToRead : Option Nat
  schemaRevisionInOrderToWrite : Option Nat
  pageLevel : Int
  createdAt : Nat
  isDeleted : Bool
  deriving DecidableEq, Repr, Inhabited

/-- `page_metadata::parse`, page_metadata.rs L25-57. -/
def PageMetadata.parse (o : Object) : Res PageMetadata := do
  assertPropertySet o .pageMetadata
  let entityGuid ← required (← Simple.parseGuid .notebookManagementEntityGuid o)
  let cachedTitle ← required (← Simple.parseString .cachedTitleString o)
  let schemaRevisionInOrderToRead ← Simple.parseU32 .schemaRevisionInOrderToRead o
  let schemaRevisionInOrderToWrite ← Simple.parseU32 .schemaRevisionInOrderToWrite o
  let pageLevel ← Simple.parseU32 .pageLevel o
  let createdAt ← required (← Timestamp.parse .topologyCreationTimeStamp o)
  let isDeleted ← Simple.parseBool .isDeletedGraphSpaceContent o
  pure { entityGuid, cachedTitle, schemaRevisionInOrderToRead, schemaRevisionInOrderToWrite
         pageLevel := toI32 (pageLevel.getD 0), createdAt, isDeleted := isDeleted.getD false }

/-- `page_node::Data`, page_node.rs L18-35. -/
structure PageNode where
  lastModified : Option Nat
  cachedTitle : Option Text
  author : Option Text
  content : List ExGuid
  title : Option ExGuid
  orientationPortrait : Bool
  pageWidth : Option F32
  pageHeight : Option F32
  pageMarginOriginX : Option F32
  pageMarginOriginY : Option F32
  pageMarginLeft : Option F32
  pageMarginRight : Option F32
  pageMarginTop : Option F32
  pageMarginBottom : Option F32
  pageSize : PageSize
  rtl : Bool
  deriving DecidableEq, Repr, Inhabited

/-- `page_node::parse`, page_node.rs L37-82. -/
def PageNode.parse (o : Object) : Res PageNode := do
  assertPropertySet o .pageNode
  let lastModified ← Time.parse .lastModifiedTime o
  let cachedTitle ← Simple.parseString .cachedTitleStringFromPage o
  let author ← Author.parse o
  let content ← ObjectReference.parseVec .elementChildNodes o
  let title ← ObjectReference.parseVec .structureElementChildNodes o
  let orientationPortrait ← Simple.parseBool .portraitPage o
  let pageWidth ← Simple.parseF32 .pageWidth o
  let pageHeight ← Simple.parseF32 .pageHeight o
  let pageMarginOriginX ← Simple.parseF32 .pageMarginOriginX o
  let pageMarginOriginY ← Simple.parseF32 .pageMarginOriginY o
  let pageMarginLeft ← Simple.parseF32 .pageMarginLeft o
  let pageMarginRight ← Simple.parseF32 .pageMarginRight o
  let pageMarginTop ← Simple.parseF32 .pageMarginTop o
  let pageMarginBottom ← Simple.parseF32 .pageMarginBottom o
  let pageSize ← PageSize.parse .pageSize o
  let rtl ← Simple.parseBool .editRootRtl o
  pure { lastModified, cachedTitle, author, content := content.getD []
         title := (title.getD []).head?
         orientationPortrait := orientationPortrait.getD false
         pageWidth, pageHeight, pageMarginOriginX, pageMarginOriginY, pageMarginLeft
         pageMarginRight, pageMarginTop, pageMarginBottom
         pageSize := pageSize.getD .auto, rtl := rtl.getD false }

/-- `page_series_node::Data`, page_series_node.rs L19-24. -/
structure PageSeriesNode where
  entityGuid : Guid
  pageSpaces : List CellId
  pageMetadata : List ExGuid
  createdAt : Option Nat
  deriving DecidableEq, Repr, Inhabited

/-- `page_series_node::parse`, page_series_node.rs L26-47. -/
def PageSeriesNode.parse (o : Object) : Res PageSeriesNode := do
  assertPropertySet o .pageSeriesNode
  let entityGuid ← required (← Simple.parseGuid .notebookManagementEntityGuid o)
  let pageSpaces ← ObjectSpaceReference.parseVec .childGraphSpaceElementNodes o
  let pageMetadata ← ObjectReference.parseVec .metaDataObjectsAboveGraphSpace o
  let createdAt ← Timestamp.parse .topologyCreationTimeStamp o
  pure { entityGuid, pageSpaces := pageSpaces.getD [], pageMetadata := pageMetadata.getD []
         createdAt }

/-- `paragraph_style_object::Data`, paragraph_style_object.rs L17-42. -/
structure ParagraphStyleObject where
  charset : Option Charset
  bold : Bool
  italic : Bool
  underline : Bool
  strikethrough : Bool
  superscript : Bool
  subscript : Bool
  font : Option Text
  fontSize : Option Nat
  fontColor : Option ColorRef
  highlight : Option ColorRef
  nextStyle : Option Text
  styleId : Option Text
  paragraphAlignment : Option ParagraphAlignment
  paragraphSpaceBefore : Option F32
  paragraphSpaceAfter : Option F32
  paragraphLineSpacingExact : Option F32
  languageCode : Option Nat
  mathFormatting : Bool
  hyperlink : Bool
  hyperlinkProtected : Bool
  hidden : Bool
  textRunIsEmbeddedObject : Bool
  textRunObjectType : Option Nat
  deriving DecidableEq, Repr, Inhabited

/-- `paragraph_style_object::parse`, paragraph_style_object.rs L44-105. -/
def ParagraphStyleObject.parse (o : Object) : Res ParagraphStyleObject := do
  assertPropertySet o .paragraphStyleObject
  let charset ← Charset.parse .charset o
  let bold ← Simple.parseBool .bold o
  let italic ← Simple.parseBool .italic o
  let underline ← Simple.parseBool .underline o
  let strikethrough ← Simple.parseBool .strikethrough o
  let superscript ← Simple.parseBool .superscript o
  let subscript ← Simple.parseBool .subscript o
  let font ← Simple.parseString .font o
  let fontSize ← Simple.parseU16 .fontSize o
  let fontColor ← ColorRef.parse .fontColor o
  let highlight ← ColorRef.parse .highlight o
  let nextStyle ← Simple.parseString .nextStyle o
  let styleId ← Simple.parseString .paragraphStyleId o
  let paragraphAlignment ← ParagraphAlignment.parse o
  let paragraphSpaceBefore ← Simple.parseF32 .paragraphSpaceBefore o
  let paragraphSpaceAfter ← Simple.parseF32 .paragraphSpaceAfter o
  let paragraphLineSpacingExact ← Simple.parseF32 .paragraphLineSpacingExact o
  let languageCode ← Simple.parseU32 .languageId o
  let mathFormatting ← Simple.parseBool .mathFormatting o
  let hyperlink ← Simple.parseBool .hyperlink o
  let hyperlinkProtected ← Simple.parseBool .hyperlinkProtected o
  let hidden ← Simple.parseBool .hidden o
  let textRunIsEmbeddedObject ← Simple.parseBool .textRunIsEmbeddedObject o
  let textRunObjectType ← Simple.parseU32 .embeddedObjectType o
  pure { charset, bold := bold.getD false, italic := italic.getD false
         underline := underline.getD false, strikethrough := strikethrough.getD false
         superscript := superscript.getD false, subscript := subscript.getD false
         font, fontSize, fontColor, highlight, nextStyle, styleId, paragraphAlignment
         paragraphSpaceBefore, paragraphSpaceAfter, paragraphLineSpacingExact, languageCode
         mathFormatting := mathFormatting.getD false, hyperlink := hyperlink.getD false
         hyperlinkProtected := hyperlinkProtected.getD false, hidden := hidden.getD false
         textRunIsEmbeddedObject := textRunIsEmbeddedObject.getD false
         textRunObjectType }

/-- `picture_container::Data`, picture_container.rs L13-16. -/
structure PictureContainer where
  data : Bytes
  extension : Option Text
  deriving DecidableEq, Repr, Inhabited

/-- `picture_container::parse`, picture_container.rs L18-32. -/
def PictureContainer.parse (o : Object) : Res PictureContainer := do
  if o.jcId ≠ PropertySetId.pictureContainer.asJcid ∧ o.jcId ≠ PropertySetId.xpsContainer.asJcid then
    .error .malformedOneNoteFile
  else
    let extension ← Simple.parseString .pictureFileExtension o
    pure { data := o.fileData.getD [], extension }

/-- `rich_text_node::Data`, rich_text_node.rs L19-40. -/
structure RichTextNode where
  lastModifiedTime : Nat
  tightLayout : Bool
  textRunFormatting : List ExGuid
  textRunIndices : List Nat
  textRunDataObject : List ExGuid
  paragraphStyle : ExGuid
  paragraphSpaceBefore : F32
  paragraphSpaceAfter : F32
  paragraphLineSpacingExact : Option F32
  paragraphAlignment : ParagraphAlignment
  text : Option Text
  isTitleTime : Bool
  isBoilerText : Bool
  isTitleDate : Bool
  isTitleText : Bool
  layoutAlignmentInParent : Option LayoutAlignment
  layoutAlignmentSelf : Option LayoutAlignment
  languageCode : Option Nat
  rtl : Bool
  noteTags : List NoteTagData
  deriving DecidableEq, Repr, Inhabited

/-- The text of a rich text node, rich_text_node.rs L69-72. -/
def RichTextNode.parseText (o : Object) : Res (Option Text) := do
  match ← Simple.parseString .richEditTextUnicode o with
  | none => Simple.parseAscii .textExtendedAscii o
  | text => pure text

/-- `rich_text_node::parse`, rich_text_node.rs L42-113 (`0` is the bit pattern of `0.0`, the default
of an `f32`). -/
def RichTextNode.parse (o : Object) : Res RichTextNode := do
  assertPropertySet o .richTextNode
  let lastModifiedTime ← required (← Time.parse .lastModifiedTime o)
  let tightLayout ← Simple.parseBool .layoutTightLayout o
  let textRunFormatting ← ObjectReference.parseVec .textRunFormatting o
  let textRunIndices ← Simple.parseVecU32 .textRunIndex o
  let textRunDataObject ← ObjectReference.parseVec .textRunDataObject o
  let paragraphStyle ← required (← ObjectReference.parse .paragraphStyle o)
  let paragraphSpaceBefore ← Simple.parseF32 .paragraphSpaceBefore o
  let paragraphSpaceAfter ← Simple.parseF32 .paragraphSpaceAfter o
  let paragraphLineSpacingExact ← Simple.parseF32 .paragraphLineSpacingExact o
  let paragraphAlignment ← ParagraphAlignment.parse o
  let text ← RichTextNode.parseText o
  let layoutAlignmentInParent ← LayoutAlignment.parse .layoutAlignmentInParent o
  let layoutAlignmentSelf ← LayoutAlignment.parse .layoutAlignmentSelf o
  let isTitleTime ← Simple.parseBool .isTitleTime o
  let isBoilerText ← Simple.parseBool .isBoilerText o
  let isTitleDate ← Simple.parseBool .isTitleDate o
  let isTitleText ← Simple.parseBool .isTitleText o
  let languageCode ← Simple.parseU16 .richEditTextLangId o
  let rtl ← Simple.parseBool .readingOrderRtl o
  let noteTags ← NoteTagData.parse o
  pure { lastModifiedTime, tightLayout := tightLayout.getD false
         textRunFormatting := textRunFormatting.getD [], textRunIndices := textRunIndices.getD []
         textRunDataObject := textRunDataObject.getD [], paragraphStyle
         paragraphSpaceBefore := paragraphSpaceBefore.getD 0
         paragraphSpaceAfter := paragraphSpaceAfter.getD 0
         paragraphLineSpacingExact, paragraphAlignment := paragraphAlignment.getD .left, text
         isTitleTime := isTitleTime.getD false, isBoilerText := isBoilerText.getD false
         isTitleDate := isTitleDate.getD false, isTitleText := isTitleText.getD false
         layoutAlignmentInParent, layoutAlignmentSelf, languageCode, rtl := rtl.getD false
         noteTags := noteTags.getD [] }

/-- `section_metadata_node::Data`, section_metadata_node.rs L14-19. -/
structure SectionMetadata where
  schemaRevisionInOrderToRead : Nat
  schemaRevisionInOrderToWrite : Nat
  displayName : Option Text
  color : Option Color
  deriving DecidableEq, Repr, Inhabited

/-- `section_metadata_node::parse`, section_metadata_node.rs L21-49. -/
def SectionMetadata.parse (o : Object) : Res SectionMetadata := do
  assertPropertySet o .sectionMetadata
  let schemaRevisionInOrderToRead ← required (← Simple.parseU32 .schemaRevisionInOrderToRead o)
  let schemaRevisionInOrderToWrite ← required (← Simple.parseU32 .schemaRevisionInOrderToWrite o)
  let displayName ← Simple.parseString .sectionDisplayName o
  let color ← Color.parse .sectionColor o
  pure { schemaRevisionInOrderToRead, schemaRevisionInOrderToWrite, displayName, color }

/-- `section_node::Data`, section_node.rs L17-22. -/
structure SectionNode where
  contextId : ExGuid
  entityGuid : Guid
  pageSeries : List ExGuid
  createdAt : Nat
  deriving DecidableEq, Repr, Inhabited

/-- `section_node::parse`, section_node.rs L24-46. -/
def SectionNode.parse (o : Object) : Res SectionNode := do
  assertPropertySet o .sectionNode
  let entityGuid ← required (← Simple.parseGuid .notebookManagementEntityGuid o)
  let pageSeries ← ObjectReference.parseVec .elementChildNodes o
  let createdAt ← required (← Timestamp.parse .topologyCreationTimeStamp o)
  pure { contextId := o.contextId, entityGuid, pageSeries := pageSeries.getD [], createdAt }

/-- `stroke_properties_node::Data`, stroke_properties_node.rs L9-20. -/
structure StrokeProperties where
  aliased : Bool
  fitToCurve : Bool
  ignorePressure : Bool
  penTip : Option Nat
  rasterOperation : Option Nat
  transparency : Option Nat
  inkHeight : F32
  inkWidth : F32
  color : Option Nat
  dimensions : List InkDimension
  deriving DecidableEq, Repr, Inhabited

/-- `stroke_properties_node::parse`, stroke_properties_node.rs L22-53. `ink_width` is read from
`InkHeight` and `ink_height` from `InkWidth` (L32-37). -/
def StrokeProperties.parse (o : Object) : Res StrokeProperties := do
  assertPropertySet o .strokePropertiesNode
  let aliased ← Simple.parseBool .inkAntialised o
  let fitToCurve ← Simple.parseBool .inkFitToCurve o
  let ignorePressure ← Simple.parseBool .inkIgnorePressure o
  let penTip ← Simple.parseU8 .inkPenTip o
  let rasterOperation ← Simple.parseU8 .inkRasterOperation o
  let transparency ← Simple.parseU8 .inkTransparency o
  let inkWidth ← required (← Simple.parseF32 .inkHeight o)
  let inkHeight ← required (← Simple.parseF32 .inkWidth o)
  let color ← Simple.parseU32 .inkColor o
  let dimensions ← InkDimension.parse .inkDimensions o
  pure { aliased := aliased.getD false, fitToCurve := fitToCurve.getD false
         ignorePressure := ignorePressure.getD false, penTip, rasterOperation, transparency
         inkHeight, inkWidth, color, dimensions }

/-- `table_cell_node::Data`, table_cell_node.rs L18-24. -/
structure TableCellNode where
  lastModified : Option Nat
  contents : List ExGuid
  layoutMaxWidth : Option F32
  outlineIndentDistance : OutlineIndentDistance
  backgroundColor : Option Color
  deriving DecidableEq, Repr, Inhabited

/-- `table_cell_node::parse`, table_cell_node.rs L26-47. -/
def TableCellNode.parse (o : Object) : Res TableCellNode := do
  assertPropertySet o .tableCellNode
  let lastModified ← Time.parse .lastModifiedTime o
  let contents ← required (← ObjectReference.parseVec .elementChildNodes o)
  let layoutMaxWidth ← Simple.parseF32 .layoutMaxWidth o
  let outlineIndentDistance ← required (← OutlineIndentDistance.parse o)
  let backgroundColor ← Color.parse .cellBackgroundColor o
  pure { lastModified, contents, layoutMaxWidth, outlineIndentDistance, backgroundColor }

/-- `table_node::Data`, table_node.rs L18-29. -/
structure TableNode where
  lastModified : Nat
  rows : List ExGuid
  rowCount : Nat
  colCount : Nat
  colsLocked : Bytes
  colWidths : List F32
  bordersVisible : Bool
  layoutAlignmentInParent : Option LayoutAlignment
  layoutAlignmentSelf : Option LayoutAlignment
  noteTags : List NoteTagData
  deriving DecidableEq, Repr, Inhabited

/-- `table_node::parse`, table_node.rs L31-79. -/
def TableNode.parse (o : Object) : Res TableNode := do
  assertPropertySet o .tableNode
  let lastModified ← required (← Time.parse .lastModifiedTime o)
  let rows ← required (← ObjectReference.parseVec .elementChildNodes o)
  let rowCount ← required (← Simple.parseU32 .rowCount o)
  let colCount ← required (← Simple.parseU32 .columnCount o)
  let colsLocked ← Simple.parseVec .tableColumnsLocked o
  let colWidths ← Simple.parseVec .tableColumnWidths o
  let bordersVisible ← Simple.parseBool .tableBordersVisible o
  let layoutAlignmentInParent ← LayoutAlignment.parse .layoutAlignmentInParent o
  let layoutAlignmentSelf ← LayoutAlignment.parse .layoutAlignmentSelf o
  let noteTags ← NoteTagData.parse o
  pure { lastModified, rows, rowCount, colCount
         colsLocked := (colsLocked.map (List.drop 1)).getD []
         colWidths := (colWidths.map fun value => chunks4 (value.drop 1)).getD []
         bordersVisible := bordersVisible.getD true
         layoutAlignmentInParent, layoutAlignmentSelf, noteTags := noteTags.getD [] }

/-- `table_row_node::Data`, table_row_node.rs L16-19. -/
structure TableRowNode where
  lastModified : Option Nat
  cells : List ExGuid
  deriving DecidableEq, Repr, Inhabited

/-- `table_row_node::parse`, table_row_node.rs L21-32. -/
def TableRowNode.parse (o : Object) : Res TableRowNode := do
  assertPropertySet o .tableRowNode
  let lastModified ← Time.parse .lastModifiedTime o
  let cells ← required (← ObjectReference.parseVec .elementChildNodes o)
  pure { lastModified, cells }

/-- `text_run_data::parse`, text_run_data.rs L12-28. -/
def TextRunData.parse (o : Object) : Res (Option (List Object)) := nestedObjects .textRunData o

/-- `title_node::Data`, title_node.rs L17-24. -/
structure TitleNode where
  lastModifiedTime : Nat
  children : List ExGuid
  offsetHorizontal : F32
  offsetVertical : F32
  layoutAlignmentInParent : Option LayoutAlignment
  layoutAlignmentSelf : Option LayoutAlignment
  deriving DecidableEq, Repr, Inhabited

/-- `title_node::parse`, title_node.rs L26-61. -/
def TitleNode.parse (o : Object) : Res TitleNode := do
  assertPropertySet o .titleNode
  let lastModifiedTime ← required (← Time.parse .lastModifiedTime o)
  let children ← required (← ObjectReference.parseVec .elementChildNodes o)
  let offsetHorizontal ← required (← Simple.parseF32 .offsetFromParentHoriz o)
  let offsetVertical ← required (← Simple.parseF32 .offsetFromParentVert o)
  let layoutAlignmentInParent ← LayoutAlignment.parse .layoutAlignmentInParent o
  let layoutAlignmentSelf ← LayoutAlignment.parse .layoutAlignmentSelf o
  pure { lastModifiedTime, children, offsetHorizontal, offsetVertical
         layoutAlignmentInParent, layoutAlignmentSelf }

/-- `s.replace("ab", "c")` for two- and one-character strings. -/
def replacePair (a b : Char) (c : Char) : Text → Text
  | [] => []
  | [x] => [x]
  | x :: y :: rest =>
    if x = a ∧ y = b then c :: replacePair a b c rest else x :: replacePair a b c (y :: rest)

/-- `toc_container::Data`, toc_container.rs L16-21. -/
structure TocContainer where
  children : List ExGuid
  filename : Option Text
  orderingId : Option Nat
  color : Option Color
  deriving DecidableEq, Repr, Inhabited

/-- `.map(|s| s.replace("^M", "+")).map(|s| s.replace("^J", ","))`, toc_container.rs L29-30. -/
def unescapeFilename (s : Text) : Text := replacePair '^' 'J' ',' (replacePair '^' 'M' '+' s)

/-- `toc_container::parse`, toc_container.rs L23-40. -/
def TocContainer.parse (o : Object) : Res TocContainer := do
  assertPropertySet o .tocContainer
  let children ← ObjectReference.parseVec .tocChildren o
  let filename ← Simple.parseString .folderChildFilename o
  let orderingId ← Simple.parseU32 .notebookElementOrderingId o
  let color ← Color.parse .sectionColor o
  pure { children := children.getD [], filename := filename.map unescapeFilename, orderingId, color }

end OneNote
