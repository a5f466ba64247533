/-
The property identifiers the parser asks for.
Models `enum PropertyType`, /repo/src/one/property/mod.rs L30-216.
-/

namespace OneNote

/-- `PropertyType`, /repo/src/one/property/mod.rs L30-216. -/
inductive PropertyType where
  | actionItemSchemaVersion
  | actionItemStatus
  | actionItemType
  | author
  | authorMostRecent
  | authorOriginal
  | bodyTextAlignment
  | bold
  | cachedTitleString
  | cachedTitleStringFromPage
  | cannotBeSelected
  | charset
  | childGraphSpaceElementNodes
  | columnCount
  | conflictingUserName
  | contentChildNodes
  | creationTimeStamp
  | deletable
  | descendantsCannotBeMoved
  | displayedPageNumber
  | editRootRtl
  | elementChildNodes
  | embeddedFileContainer
  | embeddedFileName
  | enableHistory
  | enforceOutlineStructure
  | fileAncestorIdentityGuid
  | fileIdentityGuid
  | fileLastCodeVersionThatWroteToIt
  | fileNameCrc
  | font
  | fontColor
  | fontSize
  | hasVersionPages
  | hidden
  | highlight
  | hyperlink
  | hyperlinkProtected
  | iRecordMedia
  | imageAltText
  | imageFilename
  | imageUploadState
  | isBackground
  | isBoilerText
  | isConflictObjectForRender
  | isConflictObjectForSelection
  | isConflictPage
  | isDeletedGraphSpaceContent
  | isLayoutSizeSetByUser
  | isReadOnly
  | isTitleDate
  | isTitleText
  | isTitleTime
  | italic
  | languageId
  | lastModifiedTime
  | lastModifiedTimeStamp
  | layoutAlignmentInParent
  | layoutAlignmentSelf
  | layoutCollisionPriority
  | layoutMaxHeight
  | layoutMaxWidth
  | layoutMinimumOutlineWidth
  | layoutOutlineReservedWidth
  | layoutResolveChildCollisions
  | layoutTightAlignment
  | layoutTightLayout
  | listFont
  | listMsaaIndex
  | listNodes
  | listRestart
  | listSpacingMu
  | mathFormatting
  | metaDataObjectsAboveGraphSpace
  | nextStyle
  | noteTagCompleted
  | noteTagCreated
  | noteTagDefinitionOid
  | noteTagHighlightColor
  | noteTagLabel
  | noteTagPropertyStatus
  | noteTagShape
  | noteTagStates
  | noteTagTextColor
  | notebookManagementEntityGuid
  | numberListFormat
  | offsetFromParentHoriz
  | offsetFromParentVert
  | outlineElementChildLevel
  | outlineElementRtl
  | pageHeight
  | pageLevel
  | pageMarginBottom
  | pageMarginLeft
  | pageMarginOriginX
  | pageMarginOriginY
  | pageMarginRight
  | pageMarginTop
  | pageSize
  | pageWidth
  | paragraphAlignment
  | paragraphLineSpacingExact
  | paragraphSpaceAfter
  | paragraphSpaceBefore
  | paragraphStyle
  | paragraphStyleId
  | pictureContainer
  | pictureHeight
  | pictureWidth
  | portraitPage
  | readingOrderRtl
  | rgOutlineIndentDistance
  | richEditTextLangId
  | richEditTextUnicode
  | rowCount
  | schemaRevisionInOrderToRead
  | schemaRevisionInOrderToWrite
  | sectionDisplayName
  | sourceFilepath
  | strikethrough
  | structureElementChildNodes
  | subscript
  | superscript
  | tableBordersVisible
  | tableColumnWidths
  | tableColumnsLocked
  | taskTagDueDat
  | textExtendedAscii
  | textRunData
  | textRunDataObject
  | textRunFormatting
  | textRunIndex
  | textRunIsEmbeddedObject
  | topologyCreationTimeStamp
  | underline
  | underlineType
  | versionHistoryGraphSpaceContextNodes
  | webPictureContainer14
  | wzHyperlinkUrl
  | tocChildren
  | folderChildFilename
  | notebookElementOrderingId
  | pictureFileExtension
  | noteTags
  | noteTag
  | sectionColor
  | cellBackgroundColor
  | inkBias
  | inkData
  | inkDimensions
  | inkPath
  | inkStrokeProperties
  | inkStrokes
  | inkAntialised
  | inkFitToCurve
  | inkIgnorePressure
  | inkPenTip
  | inkRasterOperation
  | inkTransparency
  | inkHeight
  | inkWidth
  | inkColor
  | inkScalingX
  | inkScalingY
  | inkBoundingBox
  | embeddedObjectType
  | embeddedInkStartX
  | embeddedInkStartY
  | embeddedInkWidth
  | embeddedInkHeight
  | embeddedInkOffsetHoriz
  | embeddedInkOffsetVert
  | embeddedInkSpaceWidth
  | embeddedInkSpaceHeight
  | imageEmbedType
  | imageEmbeddedUrl
  | mathInlineObjectType
  | mathInlineObjectCount
  | mathInlineObjectCol
  | mathInlineObjectAlign
  | mathInlineObjectChar
  | mathInlineObjectChar1
  | mathInlineObjectChar2
  deriving DecidableEq, Repr

/-- The discriminant `prop_type as u32`, /repo/src/one/property/mod.rs L31-215. -/
def PropertyType.code : PropertyType → Nat
  | .actionItemSchemaVersion => 0x0C003473
  | .actionItemStatus => 0x10003470
  | .actionItemType => 0x10003463
  | .author => 0x1C001D75
  | .authorMostRecent => 0x20001D79
  | .authorOriginal => 0x20001D78
  | .bodyTextAlignment => 0x0C001C13
  | .bold => 0x08001C04
  | .cachedTitleString => 0x1C001CF3
  | .cachedTitleStringFromPage => 0x1C001D3C
  | .cannotBeSelected => 0x08001CB2
  | .charset => 0x0C001D01
  | .childGraphSpaceElementNodes => 0x2C001D63
  | .columnCount => 0x14001D58
  | .conflictingUserName => 0x1C001D9E
  | .contentChildNodes => 0x24001C1F
  | .creationTimeStamp => 0x14001D09
  | .deletable => 0x08001D0C
  | .descendantsCannotBeMoved => 0x08001CF9
  | .displayedPageNumber => 0x14003480
  | .editRootRtl => 0x08001C92
  | .elementChildNodes => 0x24001C20
  | .embeddedFileContainer => 0x20001D9B
  | .embeddedFileName => 0x1C001D9C
  | .enableHistory => 0x08001E1E
  | .enforceOutlineStructure => 0x08001C91
  | .fileAncestorIdentityGuid => 0x1C001D95
  | .fileIdentityGuid => 0x1C001D94
  | .fileLastCodeVersionThatWroteToIt => 0x14001D99
  | .fileNameCrc => 0x14001D93
  | .font => 0x1C001C0A
  | .fontColor => 0x14001C0C
  | .fontSize => 0x10001C0B
  | .hasVersionPages => 0x08003462
  | .hidden => 0x08001E16
  | .highlight => 0x14001C0D
  | .hyperlink => 0x08001E14
  | .hyperlinkProtected => 0x08001E19
  | .iRecordMedia => 0x14001D24
  | .imageAltText => 0x1C001E58
  | .imageFilename => 0x1C001DD7
  | .imageUploadState => 0x140034CB
  | .isBackground => 0x08001D13
  | .isBoilerText => 0x08001C88
  | .isConflictObjectForRender => 0x08001D96
  | .isConflictObjectForSelection => 0x08001DDB
  | .isConflictPage => 0x08001D7C
  | .isDeletedGraphSpaceContent => 0x00001DE9
  | .isLayoutSizeSetByUser => 0x08001CBD
  | .isReadOnly => 0x08001CDE
  | .isTitleDate => 0x08001CB5
  | .isTitleText => 0x08001CB4
  | .isTitleTime => 0x08001C87
  | .italic => 0x08001C05
  | .languageId => 0x14001C3B
  | .lastModifiedTime => 0x14001D7A
  | .lastModifiedTimeStamp => 0x18001D77
  | .layoutAlignmentInParent => 0x14001C3E
  | .layoutAlignmentSelf => 0x14001C84
  | .layoutCollisionPriority => 0x14001CF1
  | .layoutMaxHeight => 0x14001C1C
  | .layoutMaxWidth => 0x14001C1B
  | .layoutMinimumOutlineWidth => 0x14001CEC
  | .layoutOutlineReservedWidth => 0x14001CDB
  | .layoutResolveChildCollisions => 0x08001CDC
  | .layoutTightAlignment => 0x08001CFF
  | .layoutTightLayout => 0x08001C00
  | .listFont => 0x1C001C52
  | .listMsaaIndex => 0x10001D0E
  | .listNodes => 0x24001C26
  | .listRestart => 0x14001CB7
  | .listSpacingMu => 0x14001CCB
  | .mathFormatting => 0x08003401
  | .metaDataObjectsAboveGraphSpace => 0x24003442
  | .nextStyle => 0x1C00348A
  | .noteTagCompleted => 0x1400346F
  | .noteTagCreated => 0x1400346E
  | .noteTagDefinitionOid => 0x20003488
  | .noteTagHighlightColor => 0x14003465
  | .noteTagLabel => 0x1C003468
  | .noteTagPropertyStatus => 0x14003467
  | .noteTagShape => 0x10003464
  | .noteTagStates => 0x04003489
  | .noteTagTextColor => 0x14003466
  | .notebookManagementEntityGuid => 0x1C001C30
  | .numberListFormat => 0x1C001C1A
  | .offsetFromParentHoriz => 0x14001C14
  | .offsetFromParentVert => 0x14001C15
  | .outlineElementChildLevel => 0x0C001C03
  | .outlineElementRtl => 0x08001C34
  | .pageHeight => 0x14001C02
  | .pageLevel => 0x14001DFF
  | .pageMarginBottom => 0x14001C4D
  | .pageMarginLeft => 0x14001C4E
  | .pageMarginOriginX => 0x14001D0F
  | .pageMarginOriginY => 0x14001D10
  | .pageMarginRight => 0x14001C4F
  | .pageMarginTop => 0x14001C4C
  | .pageSize => 0x14001C8B
  | .pageWidth => 0x14001C01
  | .paragraphAlignment => 0x0C003477
  | .paragraphLineSpacingExact => 0x14003430
  | .paragraphSpaceAfter => 0x1400342F
  | .paragraphSpaceBefore => 0x1400342E
  | .paragraphStyle => 0x2000342C
  | .paragraphStyleId => 0x1C00345A
  | .pictureContainer => 0x20001C3F
  | .pictureHeight => 0x140034CE
  | .pictureWidth => 0x140034CD
  | .portraitPage => 0x08001C8E
  | .readingOrderRtl => 0x08003476
  | .rgOutlineIndentDistance => 0x1C001C12
  | .richEditTextLangId => 0x10001CFE
  | .richEditTextUnicode => 0x1C001C22
  | .rowCount => 0x14001D57
  | .schemaRevisionInOrderToRead => 0x14001D82
  | .schemaRevisionInOrderToWrite => 0x1400348B
  | .sectionDisplayName => 0x1C00349B
  | .sourceFilepath => 0x1C001D9D
  | .strikethrough => 0x08001C07
  | .structureElementChildNodes => 0x24001D5F
  | .subscript => 0x08001C09
  | .superscript => 0x08001C08
  | .tableBordersVisible => 0x08001D5E
  | .tableColumnWidths => 0x1C001D66
  | .tableColumnsLocked => 0x1C001D7D
  | .taskTagDueDat => 0x1400346B
  | .textExtendedAscii => 0x1C003498
  | .textRunData => 0x40003499
  | .textRunDataObject => 0x24003458
  | .textRunFormatting => 0x24001E13
  | .textRunIndex => 0x1C001E12
  | .textRunIsEmbeddedObject => 0x08001E22
  | .topologyCreationTimeStamp => 0x18001C65
  | .underline => 0x08001C06
  | .underlineType => 0x0C001E15
  | .versionHistoryGraphSpaceContextNodes => 0x3400347B
  | .webPictureContainer14 => 0x200034C8
  | .wzHyperlinkUrl => 0x1C001E20
  | .tocChildren => 0x24001CF6
  | .folderChildFilename => 0x1C001D6B
  | .notebookElementOrderingId => 0x14001CB9
  | .pictureFileExtension => 0x24003424
  | .noteTags => 0x40003489
  | .noteTag => 0x44000811
  | .sectionColor => 0x14001CBE
  | .cellBackgroundColor => 0x14001E26
  | .inkBias => 0x0C00341C
  | .inkData => 0x20003415
  | .inkDimensions => 0x1C00340A
  | .inkPath => 0x1C00340B
  | .inkStrokeProperties => 0x20003409
  | .inkStrokes => 0x24003416
  | .inkAntialised => 0x8000340E
  | .inkFitToCurve => 0x80003410
  | .inkIgnorePressure => 0x08003411
  | .inkPenTip => 0x0C003412
  | .inkRasterOperation => 0x0C003413
  | .inkTransparency => 0x0C003414
  | .inkHeight => 0x1400340C
  | .inkWidth => 0x1400340D
  | .inkColor => 0x1400340F
  | .inkScalingX => 0x14001C46
  | .inkScalingY => 0x14001C47
  | .inkBoundingBox => 0x1C003418
  | .embeddedObjectType => 0x14003457
  | .embeddedInkStartX => 0x1400349E
  | .embeddedInkStartY => 0x1400349F
  | .embeddedInkWidth => 0x140034A0
  | .embeddedInkHeight => 0x140034A1
  | .embeddedInkOffsetHoriz => 0x140034A2
  | .embeddedInkOffsetVert => 0x140034A3
  | .embeddedInkSpaceWidth => 0x14001C27
  | .embeddedInkSpaceHeight => 0x14001C28
  | .imageEmbedType => 0x140035F2
  | .imageEmbeddedUrl => 0x1C0035F3
  | .mathInlineObjectType => 0x1400344F
  | .mathInlineObjectCount => 0x14003450
  | .mathInlineObjectCol => 0x0C003451
  | .mathInlineObjectAlign => 0x0C003452
  | .mathInlineObjectChar => 0x10003453
  | .mathInlineObjectChar1 => 0x10003454
  | .mathInlineObjectChar2 => 0x10003455

end OneNote
