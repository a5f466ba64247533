/-
The property identifiers of [MS-ONE] 2.1.12 that the parts of a document are stored under. The
highest bits of an identifier are the type of the value ([MS-ONESTORE] 2.6.6).
-/
namespace OneNote.Spec.Word

def actionItemStatus : Nat := 0x10003470
def actionItemType : Nat := 0x10003463
def author : Nat := 0x1C001D75
def authorMostRecent : Nat := 0x20001D79
def authorOriginal : Nat := 0x20001D78
def bold : Nat := 0x08001C04
def cachedTitleString : Nat := 0x1C001CF3
def cachedTitleStringFromPage : Nat := 0x1C001D3C
def cannotBeSelected : Nat := 0x08001CB2
def cellBackgroundColor : Nat := 0x14001E26
def charset : Nat := 0x0C001D01
def childGraphSpaceElementNodes : Nat := 0x2C001D63
def columnCount : Nat := 0x14001D58
def contentChildNodes : Nat := 0x24001C1F
def creationTimeStamp : Nat := 0x14001D09
def deletable : Nat := 0x08001D0C
def descendantsCannotBeMoved : Nat := 0x08001CF9
def displayedPageNumber : Nat := 0x14003480
def editRootRtl : Nat := 0x08001C92
def elementChildNodes : Nat := 0x24001C20
def embeddedFileContainer : Nat := 0x20001D9B
def embeddedFileName : Nat := 0x1C001D9C
def embeddedInkHeight : Nat := 0x140034A1
def embeddedInkOffsetHoriz : Nat := 0x140034A2
def embeddedInkOffsetVert : Nat := 0x140034A3
def embeddedInkSpaceHeight : Nat := 0x14001C28
def embeddedInkSpaceWidth : Nat := 0x14001C27
def embeddedInkStartX : Nat := 0x1400349E
def embeddedInkStartY : Nat := 0x1400349F
def embeddedInkWidth : Nat := 0x140034A0
def embeddedObjectType : Nat := 0x14003457
def folderChildFilename : Nat := 0x1C001D6B
def font : Nat := 0x1C001C0A
def fontColor : Nat := 0x14001C0C
def fontSize : Nat := 0x10001C0B
def hidden : Nat := 0x08001E16
def highlight : Nat := 0x14001C0D
def hyperlink : Nat := 0x08001E14
def hyperlinkProtected : Nat := 0x08001E19
def iRecordMedia : Nat := 0x14001D24
def imageAltText : Nat := 0x1C001E58
def imageEmbedType : Nat := 0x140035F2
def imageEmbeddedUrl : Nat := 0x1C0035F3
def imageFilename : Nat := 0x1C001DD7
def inkAntialised : Nat := 0x8000340E
def inkBias : Nat := 0x0C00341C
def inkBoundingBox : Nat := 0x1C003418
def inkColor : Nat := 0x1400340F
def inkData : Nat := 0x20003415
def inkDimensions : Nat := 0x1C00340A
def inkFitToCurve : Nat := 0x80003410
def inkHeight : Nat := 0x1400340C
def inkIgnorePressure : Nat := 0x08003411
def inkPath : Nat := 0x1C00340B
def inkPenTip : Nat := 0x0C003412
def inkRasterOperation : Nat := 0x0C003413
def inkScalingX : Nat := 0x14001C46
def inkStrokeProperties : Nat := 0x20003409
def inkStrokes : Nat := 0x24003416
def inkTransparency : Nat := 0x0C003414
def inkWidth : Nat := 0x1400340D
def isBackground : Nat := 0x08001D13
def isBoilerText : Nat := 0x08001C88
def isDeletedGraphSpaceContent : Nat := 0x00001DE9
def isLayoutSizeSetByUser : Nat := 0x08001CBD
def isReadOnly : Nat := 0x08001CDE
def isTitleDate : Nat := 0x08001CB5
def isTitleText : Nat := 0x08001CB4
def isTitleTime : Nat := 0x08001C87
def italic : Nat := 0x08001C05
def languageId : Nat := 0x14001C3B
def lastModifiedTime : Nat := 0x14001D7A
def layoutAlignmentInParent : Nat := 0x14001C3E
def layoutAlignmentSelf : Nat := 0x14001C84
def layoutMaxHeight : Nat := 0x14001C1C
def layoutMaxWidth : Nat := 0x14001C1B
def layoutMinimumOutlineWidth : Nat := 0x14001CEC
def layoutOutlineReservedWidth : Nat := 0x14001CDB
def layoutTightAlignment : Nat := 0x08001CFF
def layoutTightLayout : Nat := 0x08001C00
def listFont : Nat := 0x1C001C52
def listNodes : Nat := 0x24001C26
def listRestart : Nat := 0x14001CB7
def listSpacingMu : Nat := 0x14001CCB
def mathFormatting : Nat := 0x08003401
def mathInlineObjectAlign : Nat := 0x0C003452
def mathInlineObjectChar : Nat := 0x10003453
def mathInlineObjectChar1 : Nat := 0x10003454
def mathInlineObjectChar2 : Nat := 0x10003455
def mathInlineObjectCol : Nat := 0x0C003451
def mathInlineObjectCount : Nat := 0x14003450
def mathInlineObjectType : Nat := 0x1400344F
def metaDataObjectsAboveGraphSpace : Nat := 0x24003442
def nextStyle : Nat := 0x1C00348A
def noteTagCompleted : Nat := 0x1400346F
def noteTagCreated : Nat := 0x1400346E
def noteTagDefinitionOid : Nat := 0x20003488
def noteTagHighlightColor : Nat := 0x14003465
def noteTagLabel : Nat := 0x1C003468
def noteTagPropertyStatus : Nat := 0x14003467
def noteTagShape : Nat := 0x10003464
def noteTagTextColor : Nat := 0x14003466
def noteTags : Nat := 0x40003489
def notebookElementOrderingId : Nat := 0x14001CB9
def notebookManagementEntityGuid : Nat := 0x1C001C30
def numberListFormat : Nat := 0x1C001C1A
def offsetFromParentHoriz : Nat := 0x14001C14
def offsetFromParentVert : Nat := 0x14001C15
def outlineElementChildLevel : Nat := 0x0C001C03
def outlineElementRtl : Nat := 0x08001C34
def pageHeight : Nat := 0x14001C02
def pageLevel : Nat := 0x14001DFF
def pageMarginBottom : Nat := 0x14001C4D
def pageMarginLeft : Nat := 0x14001C4E
def pageMarginOriginX : Nat := 0x14001D0F
def pageMarginOriginY : Nat := 0x14001D10
def pageMarginRight : Nat := 0x14001C4F
def pageMarginTop : Nat := 0x14001C4C
def pageSize : Nat := 0x14001C8B
def pageWidth : Nat := 0x14001C01
def paragraphAlignment : Nat := 0x0C003477
def paragraphLineSpacingExact : Nat := 0x14003430
def paragraphSpaceAfter : Nat := 0x1400342F
def paragraphSpaceBefore : Nat := 0x1400342E
def paragraphStyle : Nat := 0x2000342C
def paragraphStyleId : Nat := 0x1C00345A
def pictureContainer : Nat := 0x20001C3F
def pictureFileExtension : Nat := 0x24003424
def pictureHeight : Nat := 0x140034CE
def pictureWidth : Nat := 0x140034CD
def portraitPage : Nat := 0x08001C8E
def readingOrderRtl : Nat := 0x08003476
def rgOutlineIndentDistance : Nat := 0x1C001C12
def richEditTextLangId : Nat := 0x10001CFE
def richEditTextUnicode : Nat := 0x1C001C22
def rowCount : Nat := 0x14001D57
def schemaRevisionInOrderToRead : Nat := 0x14001D82
def schemaRevisionInOrderToWrite : Nat := 0x1400348B
def sectionColor : Nat := 0x14001CBE
def sectionDisplayName : Nat := 0x1C00349B
def sourceFilepath : Nat := 0x1C001D9D
def strikethrough : Nat := 0x08001C07
def structureElementChildNodes : Nat := 0x24001D5F
def subscript : Nat := 0x08001C09
def superscript : Nat := 0x08001C08
def tableBordersVisible : Nat := 0x08001D5E
def tableColumnWidths : Nat := 0x1C001D66
def tableColumnsLocked : Nat := 0x1C001D7D
def textExtendedAscii : Nat := 0x1C003498
def textRunData : Nat := 0x40003499
def textRunDataObject : Nat := 0x24003458
def textRunFormatting : Nat := 0x24001E13
def textRunIndex : Nat := 0x1C001E12
def textRunIsEmbeddedObject : Nat := 0x08001E22
def tocChildren : Nat := 0x24001CF6
def topologyCreationTimeStamp : Nat := 0x18001C65
def underline : Nat := 0x08001C06
def wzHyperlinkUrl : Nat := 0x1C001E20

end OneNote.Spec.Word
