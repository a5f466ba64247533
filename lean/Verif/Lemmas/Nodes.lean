/-
Reading the property sets of objects neither panics nor runs out of fuel, except for the format of a
number list.
-/
import Verif.Lemmas.Fine
import Verif.Model.Nodes

namespace OneNote

variable {α β : Type}

theorem Fine.required (x : Option α) : Fine (required x) := by
  cases x
  · exact Fine.error (by simp) (by simp)
  · exact Fine.ok _

theorem Fine.propAs (to : PropertyValue → Option α) (t : PropertyType) (o : Object) :
    Fine (propAs to t o) := by
  unfold OneNote.propAs
  split
  · exact Fine.ok _
  · split
    · exact Fine.ok _
    · exact Fine.error (by simp) (by simp)

theorem Fine.optM {f : α → Res β} (hf : ∀ a, Fine (f a)) (x : Option α) : Fine (optM f x) := by
  cases x with
  | none => exact Fine.ok _
  | some a =>
    have := hf a
    unfold OneNote.optM
    simp only
    split
    · exact Fine.ok _
    · rename_i e h
      have he := this.error_ne h
      exact Fine.error he.1 he.2

theorem Fine.assertKind (o : Object) (k : PropertySetId) : Fine (assertPropertySet o k) := by
  unfold assertPropertySet
  split
  · exact Fine.ok _
  · exact Fine.error (by simp) (by simp)

theorem Fine.predecessors (t : PropertyType) (o : Object) : Fine (predecessors t o) := by
  unfold OneNote.predecessors
  split
  · exact Fine.error (by simp) (by simp)
  · exact Fine.ok _

theorem Fine.offset (t : PropertyType) (o : Object) : Fine (ObjectReference.getOffset t o) := by
  unfold ObjectReference.getOffset
  split
  · rename_i e h
    have := (Fine.predecessors t o).error_ne h
    exact Fine.error this.1 this.2
  · exact Fine.ok _

theorem Fine.spaceOffset (t : PropertyType) (o : Object) :
    Fine (ObjectSpaceReference.getOffset t o) := by
  unfold ObjectSpaceReference.getOffset
  split
  · rename_i e h
    have := (Fine.predecessors t o).error_ne h
    exact Fine.error this.1 this.2
  · exact Fine.ok _

theorem Fine.reference (t : PropertyType) (o : Object) : Fine (ObjectReference.parse t o) := by
  unfold ObjectReference.parse
  split
  · exact Fine.ok _
  · split
    · rename_i e h
      have := (Fine.offset t o).error_ne h
      exact Fine.error this.1 this.2
    · split
      · exact Fine.error (by simp) (by simp)
      · exact Fine.ok _
  · exact Fine.error (by simp) (by simp)

theorem Fine.references (t : PropertyType) (o : Object) : Fine (ObjectReference.parseVec t o) := by
  unfold ObjectReference.parseVec
  split
  · exact Fine.ok _
  · split
    · rename_i e h
      have := (Fine.offset t o).error_ne h
      exact Fine.error this.1 this.2
    · exact Fine.ok _
  · exact Fine.error (by simp) (by simp)

theorem Fine.cellReferences (t : PropertyType) (o : Object) :
    Fine (ObjectSpaceReference.parseVec t o) := by
  unfold ObjectSpaceReference.parseVec
  split
  · exact Fine.ok _
  · split
    · rename_i e h
      have := (Fine.spaceOffset t o).error_ne h
      exact Fine.error this.1 this.2
    · exact Fine.ok _
  · exact Fine.error (by simp) (by simp)

theorem Fine.nestedObject (t : PropertyType) (o : Object) (id : Nat) (props : PropertySet) :
    Fine (nestedObject t o id props) := by
  unfold OneNote.nestedObject
  split
  · rename_i e h
    have := (Fine.offset t o).error_ne h
    exact Fine.error this.1 this.2
  · split
    · rename_i e h
      have := (Fine.spaceOffset t o).error_ne h
      exact Fine.error this.1 this.2
    · exact Fine.ok _

theorem Fine.nestedObjects (t : PropertyType) (o : Object) : Fine (nestedObjects t o) := by
  unfold OneNote.nestedObjects
  split
  · exact Fine.ok _
  · rename_i id sets _
    split
    · rename_i e h
      have := (Fine.mapM sets fun s _ => Fine.nestedObject t o id s).error_ne h
      exact Fine.error this.1 this.2
    · exact Fine.ok _
  · exact Fine.error (by simp) (by simp)

theorem Fine.string (t : PropertyType) (o : Object) : Fine (Simple.parseString t o) := by
  unfold Simple.parseString
  refine Fine.bind (Fine.propAs _ _ _) fun x => ?_
  split
  · exact Fine.ok _
  · split
    · exact Fine.ok _
    · exact Fine.error (by simp) (by simp)

theorem Fine.guid (t : PropertyType) (o : Object) : Fine (Simple.parseGuid t o) := by
  unfold Simple.parseGuid
  refine Fine.bind (Fine.propAs _ _ _) fun x => ?_
  split
  · exact Fine.ok _
  · exact Fine.bind (Fine.run Good.guid _) fun _ => Fine.ok _

theorem Fine.vecU16 (t : PropertyType) (o : Object) : Fine (Simple.parseVecU16 t o) :=
  Fine.bind (Fine.propAs _ _ _) fun _ => Fine.ok _

theorem Fine.vecU32 (t : PropertyType) (o : Object) : Fine (Simple.parseVecU32 t o) :=
  Fine.bind (Fine.propAs _ _ _) fun _ => Fine.ok _

theorem Fine.ascii (t : PropertyType) (o : Object) : Fine (Simple.parseAscii t o) :=
  Fine.bind (Fine.propAs _ _ _) fun _ => Fine.ok _

theorem Fine.color (t : PropertyType) (o : Object) : Fine (Color.parse t o) :=
  Fine.bind (Fine.propAs _ _ _) fun _ => Fine.ok _

theorem Fine.colorRef (t : PropertyType) (o : Object) : Fine (ColorRef.parse t o) := by
  refine Fine.bind (Fine.propAs _ _ _) fun x => Fine.optM (fun v => ?_) x
  unfold ColorRef.ofValue
  split
  · exact Fine.ok _
  · exact Fine.ok _
  · exact Fine.error (by simp) (by simp)

theorem Good.indents : Good OutlineIndentDistance.reader :=
  Good.bind (Good.getLE 1) fun _ => Good.bind (Good.advance 3) fun _ => Good.replicateP (Good.getLE 4) _

theorem Fine.indents (o : Object) : Fine (OutlineIndentDistance.parse o) := by
  unfold OutlineIndentDistance.parse
  refine Fine.bind (Fine.propAs _ _ _) fun x => ?_
  split
  · exact Fine.ok _
  · exact Fine.bind (Fine.run Good.indents _) fun _ => Fine.ok _

/-- A table of results without panics. -/
macro "table" : tactic =>
  `(tactic| (split <;> first | exact Fine.ok _ | exact Fine.error (by simp) (by simp)))

theorem Fine.pageSize (t : PropertyType) (o : Object) : Fine (PageSize.parse t o) := by
  refine Fine.bind (Fine.propAs _ _ _) fun x => Fine.optM (fun v => ?_) x
  unfold PageSize.ofValue
  table

theorem Fine.actionItemStatus (o : Object) : Fine (ActionItemStatus.parse o) :=
  Fine.bind (Fine.propAs _ _ _) fun _ => Fine.ok _

theorem Fine.actionItemType (o : Object) : Fine (ActionItemType.parse o) :=
  Fine.bind (Fine.propAs _ _ _) fun _ => Fine.ok _

theorem Fine.tagStatus (o : Object) : Fine (NoteTagPropertyStatus.parse o) :=
  Fine.bind (Fine.propAs _ _ _) fun _ => Fine.ok _

theorem Fine.charset (t : PropertyType) (o : Object) : Fine (Charset.parse t o) := by
  refine Fine.bind (Fine.propAs _ _ _) fun x => Fine.optM (fun v => ?_) x
  unfold Charset.ofValue
  table

theorem Fine.fileType (o : Object) : Fine (FileType.parse o) := by
  unfold FileType.parse
  refine Fine.bind (Fine.propAs _ _ _) fun x => ?_
  split
  · exact Fine.ok _
  · unfold FileType.ofValue
    table

theorem Fine.paragraphAlignment (o : Object) : Fine (ParagraphAlignment.parse o) :=
  Fine.bind (Fine.propAs _ _ _) fun _ => Fine.ok _

theorem Good.inkDimension : Good InkDimension.entry :=
  Good.bind Good.guid fun _ => Good.bind (Good.getLE 4) fun _ => Good.bind (Good.getLE 4) fun _ =>
    Good.pure _

theorem Fine.dimensions (t : PropertyType) (o : Object) : Fine (InkDimension.parse t o) := by
  unfold InkDimension.parse
  refine Fine.bind (Fine.propAs _ _ _) fun x => ?_
  split
  · exact Fine.ok _
  · exact Fine.mapM _ fun _ _ => Fine.run Good.inkDimension _

theorem Fine.layout (t : PropertyType) (o : Object) : Fine (LayoutAlignment.parse t o) := by
  unfold LayoutAlignment.parse
  refine Fine.bind (Fine.propAs _ _ _) fun x => ?_
  split
  · exact Fine.ok _
  · unfold LayoutAlignment.ofValue
    refine Fine.ite (fun _ => Fine.ok _) fun _ => ?_
    refine Fine.bind (by unfold HorizontalAlignment.parse; table) fun _ => ?_
    refine Fine.bind (by unfold HorizontalAlignmentMargin.parse; table) fun _ => ?_
    refine Fine.bind (by unfold VerticalAlignment.parse; table) fun _ => ?_
    exact Fine.bind (by unfold VerticalAlignment.parse; table) fun _ => Fine.ok _

theorem Fine.tagShape (v : Nat) : Fine (NoteTagShape.parse v) := by
  by_cases h : v < 256
  · have key : ∀ v, v < 256 → NoteTagShape.parse v ≠ .error .fuel ∧
        NoteTagShape.parse v ≠ .error .panic := by decide +kernel
    exact key v h
  · have : NoteTagShape.parse v = .error .malformedOneNoteFile := by
      unfold NoteTagShape.parse
      split
      all_goals first | rfl | omega
    rw [this]
    exact Fine.error (by simp) (by simp)

theorem Fine.decodeUintLoop (data : Bytes) (value count : Nat) :
    Fine (MultiByte.decodeUintLoop data value count) := by
  induction data generalizing value count with
  | nil =>
    unfold MultiByte.decodeUintLoop
    exact Fine.ite (fun _ => Fine.error (by simp) (by simp)) fun _ => Fine.ok _
  | cons b rest ih =>
    unfold MultiByte.decodeUintLoop
    refine Fine.ite (fun _ => Fine.error (by simp) (by simp)) fun _ =>
      Fine.ite (fun _ => Fine.error (by simp) (by simp)) fun _ => ?_
    exact Fine.ite (fun _ => ih _ _) fun _ => Fine.ok _

theorem Fine.decodeLoop (input : Bytes) (n index : Nat) :
    Fine (MultiByte.decodeLoop input n index) := by
  induction n generalizing index with
  | zero => exact Fine.ok _
  | succ n ih =>
    unfold MultiByte.decodeLoop
    refine Fine.ite (fun _ => Fine.error (by simp) (by simp)) fun _ => ?_
    split
    · rename_i e h
      have := (Fine.decodeUintLoop _ 0 0).error_ne h
      exact Fine.error this.1 this.2
    · split
      · rename_i e h
        have := (ih _).error_ne h
        exact Fine.error this.1 this.2
      · exact Fine.ok _

theorem Fine.decodeSigned (input : Bytes) : Fine (MultiByte.decodeSigned input) := by
  have hd : Fine (MultiByte.decode input) := by
    unfold MultiByte.decode
    split
    · rename_i e h
      have := (Fine.decodeUintLoop _ 0 0).error_ne h
      exact Fine.error this.1 this.2
    · exact Fine.decodeLoop _ _ _
  unfold MultiByte.decodeSigned
  split
  · rename_i e h
    have := hd.error_ne h
    exact Fine.error this.1 this.2
  · exact Fine.ok _

theorem Fine.inkBias (v : Nat) : Fine (InkBias.ofValue v) := by
  unfold InkBias.ofValue
  table

theorem Fine.utf16Char (c : Nat) : Fine (parseUtf16Char c) := by
  unfold parseUtf16Char
  table

/-- Readers of single properties. -/
macro "reader" : tactic => `(tactic| first
  | exact Fine.required _
  | exact Fine.assertKind _ _
  | exact Fine.reference _ _
  | exact Fine.references _ _
  | exact Fine.cellReferences _ _
  | exact Fine.nestedObject _ _ _ _
  | exact Fine.nestedObjects _ _
  | exact Fine.string _ _
  | exact Fine.guid _ _
  | exact Fine.vecU16 _ _
  | exact Fine.vecU32 _ _
  | exact Fine.ascii _ _
  | exact Fine.color _ _
  | exact Fine.colorRef _ _
  | exact Fine.indents _
  | exact Fine.pageSize _ _
  | exact Fine.actionItemStatus _
  | exact Fine.actionItemType _
  | exact Fine.tagStatus _
  | exact Fine.charset _ _
  | exact Fine.fileType _
  | exact Fine.paragraphAlignment _
  | exact Fine.dimensions _ _
  | exact Fine.layout _ _
  | exact Fine.propAs _ _ _
  | exact Fine.optM Fine.tagShape _
  | exact Fine.optM Fine.decodeSigned _
  | exact Fine.optM Fine.inkBias _
  | exact Fine.optM Fine.utf16Char _)

/-- A sequence of readers. -/
macro "readers" : tactic =>
  `(tactic| repeat first | (refine Fine.bind (by reader) fun _ => ?_) | exact Fine.ok _ | reader)

theorem Fine.noteTagData (o : Object) : Fine (NoteTagData.parseData o) := by
  unfold NoteTagData.parseData
  readers

theorem Fine.noteTags (o : Object) : Fine (NoteTagData.parse o) := by
  unfold NoteTagData.parse
  split
  · exact Fine.ok _
  · refine Fine.bind (Fine.mapM _ fun s _ => ?_) fun _ => Fine.ok _
    exact Fine.bind (Fine.nestedObject _ _ _ _) fun _ => Fine.noteTagData _
  · exact Fine.error (by simp) (by simp)

/-- A sequence of readers, possibly with note tags. -/
macro "node" : tactic => `(tactic| repeat (first
  | (refine Fine.bind (by reader) fun _ => ?_)
  | (refine Fine.bind (Fine.noteTags _) fun _ => ?_)
  | exact Fine.ok _
  | reader))

theorem Fine.embeddedFileContainer (o : Object) : Fine (EmbeddedFileContainer.parse o) := by
  unfold EmbeddedFileContainer.parse
  node

theorem Fine.embeddedFileNode (o : Object) : Fine (EmbeddedFileNode.parse o) := by
  unfold EmbeddedFileNode.parse
  node

theorem Fine.embeddedInkData (o : Object) : Fine (EmbeddedInkData.parse o) := by
  unfold EmbeddedInkData.parse
  node

theorem Fine.iFrameNode (o : Object) : Fine (IFrameNode.parse o) := by
  unfold IFrameNode.parse
  node

theorem Fine.imageNode (o : Object) : Fine (ImageNode.parse o) := by
  unfold ImageNode.parse
  node

theorem Fine.inkContainerNode (o : Object) : Fine (InkContainerNode.parse o) := by
  unfold InkContainerNode.parse
  node

theorem Fine.inkDataNode (o : Object) : Fine (InkDataNode.parse o) := by
  unfold InkDataNode.parse
  node

theorem Fine.inkStrokeNode (o : Object) : Fine (InkStrokeNode.parse o) := by
  unfold InkStrokeNode.parse
  node

theorem Fine.mathInlineData (o : Object) : Fine (MathInlineData.parse o) := by
  unfold MathInlineData.parse
  node

theorem Fine.noteTagDefinition (o : Object) : Fine (NoteTagDefinition.parse o) := by
  unfold NoteTagDefinition.parse
  node

theorem Fine.outlineElementNode (o : Object) : Fine (OutlineElementNode.parse o) := by
  unfold OutlineElementNode.parse
  node

theorem Fine.outlineGroupNode (o : Object) : Fine (OutlineGroupNode.parse o) := by
  unfold OutlineGroupNode.parse
  node

theorem Fine.outlineNode (o : Object) : Fine (OutlineNode.parse o) := by
  unfold OutlineNode.parse
  node

theorem Fine.pageManifestNode (o : Object) : Fine (PageManifestNode.parse o) := by
  unfold PageManifestNode.parse
  node

theorem Fine.pageMetadata (o : Object) : Fine (PageMetadata.parse o) := by
  unfold PageMetadata.parse
  node

theorem Fine.pageNode (o : Object) : Fine (PageNode.parse o) := by
  unfold PageNode.parse Author.parse
  node

theorem Fine.pageSeriesNode (o : Object) : Fine (PageSeriesNode.parse o) := by
  unfold PageSeriesNode.parse
  node

theorem Fine.paragraphStyle (o : Object) : Fine (ParagraphStyleObject.parse o) := by
  unfold ParagraphStyleObject.parse
  node

theorem Fine.pictureContainer (o : Object) : Fine (PictureContainer.parse o) := by
  unfold PictureContainer.parse
  refine Fine.ite (fun _ => Fine.error (by simp) (by simp)) fun _ => ?_
  node

theorem Fine.richTextText (o : Object) : Fine (RichTextNode.parseText o) := by
  unfold RichTextNode.parseText
  refine Fine.bind (Fine.string _ _) fun x => ?_
  split
  · exact Fine.ascii _ _
  · exact Fine.ok _

theorem Fine.richTextNode (o : Object) : Fine (RichTextNode.parse o) := by
  unfold RichTextNode.parse
  repeat (first
    | (refine Fine.bind (by reader) fun _ => ?_)
    | (refine Fine.bind (Fine.noteTags _) fun _ => ?_)
    | (refine Fine.bind (Fine.richTextText _) fun _ => ?_)
    | exact Fine.ok _)

theorem Fine.sectionMetadata (o : Object) : Fine (SectionMetadata.parse o) := by
  unfold SectionMetadata.parse
  node

theorem Fine.sectionNode (o : Object) : Fine (SectionNode.parse o) := by
  unfold SectionNode.parse
  node

theorem Fine.strokeProperties (o : Object) : Fine (StrokeProperties.parse o) := by
  unfold StrokeProperties.parse
  node

theorem Fine.tableCellNode (o : Object) : Fine (TableCellNode.parse o) := by
  unfold TableCellNode.parse
  node

theorem Fine.tableNode (o : Object) : Fine (TableNode.parse o) := by
  unfold TableNode.parse
  node

theorem Fine.tableRowNode (o : Object) : Fine (TableRowNode.parse o) := by
  unfold TableRowNode.parse
  node

theorem Fine.titleNode (o : Object) : Fine (TitleNode.parse o) := by
  unfold TitleNode.parse
  node

theorem Fine.tocContainer (o : Object) : Fine (TocContainer.parse o) := by
  unfold TocContainer.parse
  node

end OneNote
