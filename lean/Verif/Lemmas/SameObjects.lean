/-
Objects that say the same have the same fields.
-/
import Verif.Lemmas.SameProperties
import Verif.Spec.Objects

namespace OneNote.Same

open Spec Spec.Fields Spec.Objects

/-- Objects with the same identifiers and properties that say the same. -/
structure Parallel (o o' : Object) : Prop where
  kind : o'.jcId = o.jcId
  context : o'.contextId = o.contextId
  file : o'.fileData = o.fileData
  mapping : o'.mapping = o.mapping
  objectIds : o'.props.objectIds = o.props.objectIds
  objectSpaceIds : o'.props.objectSpaceIds = o.props.objectSpaceIds
  props : SameSet SameValue o.props.properties o'.props.properties

/-- A property that is read and does not hold nested property sets. -/
def Plain (w : Nat) : Prop := w % 2 ^ 26 ∈ readKeys ∧ w % 2 ^ 26 ∉ nestedKeys

instance (w : Nat) : Decidable (Plain w) := inferInstanceAs (Decidable (_ ∧ _))

/-- The values that are read, but for nested property sets, are the same. -/
def SameValues (ps ps' : PropertySet) : Prop := ∀ w, Plain w → ps'.get w = ps.get w

section
variable {ps ps' : PropertySet} {w : Nat}

theorem stored_plain (h : SameSet SameValue ps ps') (hw : Plain w) {v : PropertyValue}
    (hg : ps.get w = some v) : ps'.get w = some v ∧
    ∀ s pos, StartsAt s ps w pos → ∃ pos', StartsAt s ps' w pos' ∧ (Takes v → pos' = pos) := by
  obtain ⟨v', h1, h2, h3⟩ := h.stored w v hw.1 hg
  rcases h2 with rfl | ⟨hk, -⟩
  · exact ⟨h1, h3⟩
  · exact absurd hk hw.2

theorem get_plain (h : SameSet SameValue ps ps') (hw : Plain w) : ps'.get w = ps.get w := by
  cases hg : ps.get w with
  | none => exact h.absent w hw.1 hg
  | some v => exact (stored_plain h hw hg).1

theorem optional {α : Type} {R : Reading α} {r : Option α} (hv : SameValues ps ps') (hw : Plain w)
    (h : Optional ps w R r) : Optional ps' w R r := by
  unfold Optional at *
  rwa [hv w hw]

theorem required {α : Type} {R : Reading α} {a : α} (hv : SameValues ps ps') (hw : Plain w)
    (h : Required ps w R a) : Required ps' w R a := by
  unfold Required at *
  rwa [hv w hw]

theorem dflt {α : Type} {R : Reading α} {d a : α} (hv : SameValues ps ps') (hw : Plain w)
    (h : Default ps w R d a) : Default ps' w R d a := by
  unfold Default at *
  rwa [hv w hw]

end

section
variable {o o' : Object} {w : Nat}

theorem parallel_ref (v : Parallel o o') (hw : Plain w) {x : Option ExGuid} (h : Ref o w x) : Ref o' w x := by
  rcases h with ⟨h1, rfl⟩ | ⟨pos, id, h1, h2, h3, rfl⟩
  · exact .inl ⟨(get_plain v.props hw).trans h1, rfl⟩
  · obtain ⟨h4, h5⟩ := stored_plain v.props hw h1
    obtain ⟨pos', h6, h7⟩ := h5 _ _ h2
    obtain rfl := h7 (.inl (by decide))
    exact .inr ⟨pos', id, h4, h6, v.objectIds ▸ h3, by rw [v.mapping]⟩

theorem parallel_refList (v : Parallel o o') (hw : Plain w) {x : List ExGuid} (h : RefList o w x) :
    RefList o' w x := by
  obtain ⟨n, pos, h1, h2, rfl⟩ := h
  obtain ⟨h4, h5⟩ := stored_plain v.props hw h1
  obtain ⟨pos', h6, h7⟩ := h5 _ _ h2
  refine ⟨n, pos', h4, h6, ?_⟩
  cases n with
  | zero => rfl
  | succ n =>
    obtain rfl := h7 (.inl (by simp [idsCounted]))
    rw [v.objectIds, v.mapping]

theorem parallel_cellRefs (v : Parallel o o') (hw : Plain w) {x : List CellId} (h : CellRefs o w x) :
    CellRefs o' w x := by
  rcases h with ⟨h1, rfl⟩ | ⟨n, pos, h1, h2, rfl⟩
  · exact .inl ⟨(get_plain v.props hw).trans h1, rfl⟩
  · obtain ⟨h4, h5⟩ := stored_plain v.props hw h1
    obtain ⟨pos', h6, h7⟩ := h5 _ _ h2
    refine .inr ⟨n, pos', h4, h6, ?_⟩
    cases n with
    | zero => rfl
    | succ n =>
      obtain rfl := h7 (.inr (by simp [idsCounted]))
      rw [v.objectSpaceIds, v.mapping]

theorem sameSet_mono {R R' : Nat → PropertyValue → PropertyValue → Prop} {ps ps' : PropertySet}
    (hr : ∀ k v v', R k v v' → R' k v v') (h : SameSet R ps ps') : SameSet R' ps ps' where
  absent := h.absent
  stored := fun w v hw hg => by
    obtain ⟨v', h1, h2, h3⟩ := h.stored w v hw hg
    exact ⟨v', h1, hr _ _ _ h2, h3⟩
  total := h.total

theorem sameSet_refl (ps : PropertySet) : SameSet SameValue ps ps where
  absent := fun _ _ h => h
  stored := fun _ v _ h => ⟨v, h, .inl rfl, fun _ pos hp => ⟨pos, hp, fun _ => rfl⟩⟩
  total := fun _ => rfl

theorem sets_count {s : Stream} {sets : List PropertySet} {set : PropertySet} (h : set ∈ sets) :
    idsCountedSet s set ≤ idsCountedSets s sets := by
  induction h with
  | head => rw [idsCountedSets]; exact Nat.le_add_right ..
  | tail _ _ ih => rw [idsCountedSets]; exact Nat.le_trans ih (Nat.le_add_left ..)

/-- The sets of a property that takes no identifiers have none, the others start at the same place. -/
theorem inside_same (v : Parallel o o') {kind : Nat} {set set' : PropertySet} {inner : Object}
    {takes : Prop} [Decidable takes]
    (hp : ∀ s pos, StartsAt s o.props.properties w pos →
      ∃ pos', StartsAt s o'.props.properties w pos' ∧ (takes → pos' = pos))
    (h0 : ¬ takes → ∀ s, idsCountedSet s set = 0)
    (hs : SameSet SameValue set set') (h : Fields.Inside o w kind set inner) :
    ∃ inner', Fields.Inside o' w kind set' inner' ∧ Parallel inner inner' := by
  obtain ⟨pos, pos', h1, h2, rfl⟩ := h
  obtain ⟨q, h3, h4⟩ := hp _ _ h1
  obtain ⟨q', h5, h6⟩ := hp _ _ h2
  refine ⟨_, ⟨q, q', h3, h5, rfl⟩, rfl, v.context, rfl, v.mapping, ?_, ?_, hs⟩
  · show (o'.props.objectIds.drop q).take _ = (o.props.objectIds.drop pos).take _
    rw [hs.total, v.objectIds]
    by_cases ht : takes
    · rw [h4 ht]
    · rw [h0 ht, List.take_zero, List.take_zero]
  · show (o'.props.objectIds.drop q').take _ = (o.props.objectIds.drop pos').take _
    rw [hs.total, v.objectIds]
    by_cases ht : takes
    · rw [h6 ht]
    · rw [h0 ht, List.take_zero, List.take_zero]

theorem insides (v : Parallel o o') {kind : Nat} {sets sets' : List PropertySet} {inners : List Object}
    {takes : Prop} [Decidable takes]
    (hp : ∀ s pos, StartsAt s o.props.properties w pos →
      ∃ pos', StartsAt s o'.props.properties w pos' ∧ (takes → pos' = pos))
    (h0 : ¬ takes → ∀ s, ∀ set ∈ sets, idsCountedSet s set = 0)
    (hs : Each (SameSet SameValue) sets sets') (h : Each (Fields.Inside o w kind) sets inners) :
    ∃ inners', Each (Fields.Inside o' w kind) sets' inners' ∧ Each Parallel inners inners' := by
  induction hs generalizing inners with
  | nil => cases h; exact ⟨[], .nil, .nil⟩
  | cons h1 _ ih =>
    cases h with
    | cons h2 h3 =>
      obtain ⟨inner', h4, h5⟩ := inside_same v hp (fun ht s => h0 ht s _ (.head _)) h1 h2
      obtain ⟨inners', h6, h7⟩ := ih (fun ht s set hset => h0 ht s set (.tail _ hset)) h3
      exact ⟨inner' :: inners', .cons h4 h6, .cons h5 h7⟩

theorem parallel_nested (v : Parallel o o') (hw : w % 2 ^ 26 ∈ readKeys) {inners : List Object}
    (h : Nested o w inners) : ∃ inners', Nested o' w inners' ∧ Each Parallel inners inners' := by
  rcases h with ⟨h1, rfl⟩ | ⟨kind, sets, h1, he⟩
  · exact ⟨[], .inl ⟨v.props.absent w hw h1, rfl⟩, .nil⟩
  · obtain ⟨v', h2, h3, h4⟩ := v.props.stored w _ hw h1
    have h0 : ¬ Takes (.propertyValues kind sets) → ∀ s, ∀ set ∈ sets, idsCountedSet s set = 0 := by
      intro ht s set hset
      have := sets_count (s := s) hset
      have h : idsCountedSets s sets = 0 := by
        unfold Takes at ht
        simp only [idsCounted] at ht
        cases s <;> omega
      omega
    rcases h3 with rfl | ⟨-, kind', sets1, sets', h5, rfl, h6⟩
    · have hs : Each (SameSet SameValue) sets sets := by
        clear h0 h4 h2 h1 he
        induction sets with
        | nil => exact .nil
        | cons s _ ih => exact .cons (sameSet_refl s) ih
      obtain ⟨inners', h7, h8⟩ := insides v h4 h0 hs he
      exact ⟨inners', .inr ⟨kind, sets, h2, h7⟩, h8⟩
    · cases h5
      have hs : Each (SameSet SameValue) sets sets' := by
        refine each_mono h6 ?_
        rintro s s' - ⟨es, es', rfl, rfl, hss⟩
        exact sameSet_mono (fun _ _ _ h => .inl h)
          (same_set (R := fun _ => Eq) (fun _ _ _ h _ => h ▸ rfl) (fun _ _ _ h => h.symm) hss)
      obtain ⟨inners', h7, h8⟩ := insides v h4 h0 hs he
      exact ⟨inners', .inr ⟨kind, sets', h2, h7⟩, h8⟩

end

/-- What a reader sees of two nested property sets. -/
structure Seen (o o' : Object) : Prop where
  props : SameValues o.props.properties o'.props.properties
  ref : ∀ w x, Plain w → Ref o w x → Ref o' w x

/-- What a reader sees of two objects. -/
structure View (o o' : Object) : Prop where
  kind : o'.jcId = o.jcId
  context : o'.contextId = o.contextId
  file : o'.fileData = o.fileData
  props : SameValues o.props.properties o'.props.properties
  ref : ∀ w x, Plain w → Ref o w x → Ref o' w x
  refList : ∀ w x, Plain w → RefList o w x → RefList o' w x
  cellRefs : ∀ w x, Plain w → CellRefs o w x → CellRefs o' w x
  nested : ∀ w inners, w % 2 ^ 26 ∈ readKeys ∧ w % 2 ^ 26 ∈ nestedKeys → Nested o w inners →
    ∃ inners', Nested o' w inners' ∧ Each Seen inners inners'

theorem parallel_seen {o o' : Object} (v : Parallel o o') : Seen o o' where
  props := fun _ hw => get_plain v.props hw
  ref := fun _ _ hw h => parallel_ref v hw h

theorem parallel_view {o o' : Object} (v : Parallel o o') : View o o' where
  kind := v.kind
  context := v.context
  file := v.file
  props := fun _ hw => get_plain v.props hw
  ref := fun _ _ hw h => parallel_ref v hw h
  refList := fun _ _ hw h => parallel_refList v hw h
  cellRefs := fun _ _ hw h => parallel_cellRefs v hw h
  nested := fun _ _ hw h => by
    obtain ⟨inners', h1, h2⟩ := parallel_nested v hw.1 h
    exact ⟨inners', h1, each_mono h2 fun _ _ _ h => parallel_seen h⟩

section
variable {o o' : Object} {w : Nat}

theorem ref (v : View o o') (hw : Plain w) {x : Option ExGuid} (h : Ref o w x) : Ref o' w x :=
  v.ref w x hw h

theorem refList (v : View o o') (hw : Plain w) {x : List ExGuid} (h : RefList o w x) :
    RefList o' w x := v.refList w x hw h

theorem refs (v : View o o') (hw : Plain w) {x : List ExGuid} (h : Refs o w x) : Refs o' w x := by
  rcases h with ⟨h1, rfl⟩ | h
  · exact .inl ⟨(v.props w hw).trans h1, rfl⟩
  · exact .inr (refList v hw h)

theorem cellRefs (v : View o o') (hw : Plain w) {x : List CellId} (h : CellRefs o w x) :
    CellRefs o' w x := v.cellRefs w x hw h

theorem nested (v : View o o') (hw : w % 2 ^ 26 ∈ readKeys ∧ w % 2 ^ 26 ∈ nestedKeys) {inners : List Object}
    (h : Nested o w inners) : ∃ inners', Nested o' w inners' ∧ Each Seen inners inners' :=
  v.nested w inners hw h

theorem isText (v : View o o') {r : Option Text} (h : IsText o r) : IsText o' r := by
  rcases h with ⟨h1, h2⟩ | ⟨h1, h2⟩
  · exact .inl ⟨h1, optional v.props (by decide +kernel) h2⟩
  · exact .inr ⟨(v.props _ (by decide +kernel)).trans h1, optional v.props (by decide +kernel) h2⟩

end

theorem is_NoteTagData {o o' : Object} (v : Seen o o') {n : NoteTagData} (h : IsNoteTagData o n) :
    IsNoteTagData o' n where
  definition := v.ref _ _ (by decide +kernel) h.definition
  createdAt := required v.props (by decide +kernel) h.createdAt
  completedAt := optional v.props (by decide +kernel) h.completedAt
  itemStatus := required v.props (by decide +kernel) h.itemStatus

theorem noteTags {o o' : Object} (v : View o o') {w : Nat} (hw : w % 2 ^ 26 ∈ readKeys ∧ w % 2 ^ 26 ∈ nestedKeys)
    {tags : List NoteTagData} (h : ∃ inners, Nested o w inners ∧ Each IsNoteTagData inners tags) :
    ∃ inners, Nested o' w inners ∧ Each IsNoteTagData inners tags := by
  obtain ⟨inners, hn, he⟩ := h
  obtain ⟨inners', hn', hv⟩ := nested v hw hn
  refine ⟨inners', hn', ?_⟩
  clear hn hn'
  induction hv generalizing tags with
  | nil => cases he; exact .nil
  | cons h1 _ ih =>
    cases he with
    | cons h2 h3 => exact .cons (is_NoteTagData h1 h2) (ih h3)

theorem is_EmbeddedFileNode {o o' : Object} (v : View o o') {n : EmbeddedFileNode} (h : IsEmbeddedFileNode o n) :
    IsEmbeddedFileNode o' n where
  kind := by rw [v.kind]; exact h.kind
  lastModified := required v.props (by decide +kernel) h.lastModified
  pictureContainer := ref v (by decide +kernel) h.pictureContainer
  layoutMaxWidth := optional v.props (by decide +kernel) h.layoutMaxWidth
  layoutMaxHeight := optional v.props (by decide +kernel) h.layoutMaxHeight
  isLayoutSizeSetByUser := dflt v.props (by decide +kernel) h.isLayoutSizeSetByUser
  text := optional v.props (by decide +kernel) h.text
  textLanguageCode := optional v.props (by decide +kernel) h.textLanguageCode
  layoutAlignmentInParent := dflt v.props (by decide +kernel) h.layoutAlignmentInParent
  layoutAlignmentSelf := dflt v.props (by decide +kernel) h.layoutAlignmentSelf
  embeddedFileContainer := ref v (by decide +kernel) h.embeddedFileContainer
  embeddedFileName := required v.props (by decide +kernel) h.embeddedFileName
  sourcePath := optional v.props (by decide +kernel) h.sourcePath
  fileType := dflt v.props (by decide +kernel) h.fileType
  pictureWidth := optional v.props (by decide +kernel) h.pictureWidth
  pictureHeight := optional v.props (by decide +kernel) h.pictureHeight
  noteTags := noteTags v (by decide +kernel) h.noteTags
  offsetFromParentHoriz := optional v.props (by decide +kernel) h.offsetFromParentHoriz
  offsetFromParentVert := optional v.props (by decide +kernel) h.offsetFromParentVert

theorem is_EmbeddedInkData {o o' : Object} (v : Seen o o') {n : EmbeddedInkData} (h : IsEmbeddedInkData o n) :
    IsEmbeddedInkData o' n where
  spaceWidth := optional v.props (by decide +kernel) h.spaceWidth
  spaceHeight := optional v.props (by decide +kernel) h.spaceHeight
  startX := optional v.props (by decide +kernel) h.startX
  startY := optional v.props (by decide +kernel) h.startY
  height := optional v.props (by decide +kernel) h.height
  width := optional v.props (by decide +kernel) h.width
  offsetHoriz := optional v.props (by decide +kernel) h.offsetHoriz
  offsetVert := optional v.props (by decide +kernel) h.offsetVert

theorem is_ImageNode {o o' : Object} (v : View o o') {n : ImageNode} (h : IsImageNode o n) :
    IsImageNode o' n where
  kind := by rw [v.kind]; exact h.kind
  lastModified := optional v.props (by decide +kernel) h.lastModified
  pictureContainer := ref v (by decide +kernel) h.pictureContainer
  layoutMaxWidth := optional v.props (by decide +kernel) h.layoutMaxWidth
  layoutMaxHeight := optional v.props (by decide +kernel) h.layoutMaxHeight
  isLayoutSizeSetByUser := dflt v.props (by decide +kernel) h.isLayoutSizeSetByUser
  languageCode := optional v.props (by decide +kernel) h.languageCode
  altText := optional v.props (by decide +kernel) h.altText
  layoutAlignmentInParent := dflt v.props (by decide +kernel) h.layoutAlignmentInParent
  layoutAlignmentSelf := dflt v.props (by decide +kernel) h.layoutAlignmentSelf
  imageFilename := optional v.props (by decide +kernel) h.imageFilename
  displayedPageNumber := optional v.props (by decide +kernel) h.displayedPageNumber
  text := optional v.props (by decide +kernel) h.text
  textLanguageCode := optional v.props (by decide +kernel) h.textLanguageCode
  pictureWidth := optional v.props (by decide +kernel) h.pictureWidth
  pictureHeight := optional v.props (by decide +kernel) h.pictureHeight
  hyperlinkUrl := optional v.props (by decide +kernel) h.hyperlinkUrl
  noteTags := noteTags v (by decide +kernel) h.noteTags
  offsetFromParentHoriz := optional v.props (by decide +kernel) h.offsetFromParentHoriz
  offsetFromParentVert := optional v.props (by decide +kernel) h.offsetFromParentVert
  isBackground := dflt v.props (by decide +kernel) h.isBackground
  iframe := refs v (by decide +kernel) h.iframe

theorem is_InkContainerNode {o o' : Object} (v : View o o') {n : InkContainerNode} (h : IsInkContainerNode o n) :
    IsInkContainerNode o' n where
  kind := by rw [v.kind]; exact h.kind
  offsetFromParentHoriz := optional v.props (by decide +kernel) h.offsetFromParentHoriz
  offsetFromParentVert := optional v.props (by decide +kernel) h.offsetFromParentVert
  lastModified := optional v.props (by decide +kernel) h.lastModified
  inkData := ref v (by decide +kernel) h.inkData
  inkScalingX := optional v.props (by decide +kernel) h.inkScalingX
  inkScalingY := optional v.props (by decide +kernel) h.inkScalingY

theorem is_InkDataNode {o o' : Object} (v : View o o') {n : InkDataNode} (h : IsInkDataNode o n) :
    IsInkDataNode o' n where
  kind := by rw [v.kind]; exact h.kind
  strokes := refList v (by decide +kernel) h.strokes
  boundingBox := dflt v.props (by decide +kernel) h.boundingBox

theorem is_InkStrokeNode {o o' : Object} (v : View o o') {n : InkStrokeNode} (h : IsInkStrokeNode o n) :
    IsInkStrokeNode o' n where
  kind := by rw [v.kind]; exact h.kind
  path := required v.props (by decide +kernel) h.path
  bias := required v.props (by decide +kernel) h.bias
  languageCode := optional v.props (by decide +kernel) h.languageCode
  properties := ref v (by decide +kernel) h.properties

theorem is_MathInlineData {o o' : Object} (v : Seen o o') {n : MathInlineData} (h : IsMathInlineData o n) :
    IsMathInlineData o' n where
  objectType := optional v.props (by decide +kernel) h.objectType
  argCount := optional v.props (by decide +kernel) h.argCount
  column := optional v.props (by decide +kernel) h.column
  align := optional v.props (by decide +kernel) h.align
  char := optional v.props (by decide +kernel) h.char
  char1 := optional v.props (by decide +kernel) h.char1
  char2 := optional v.props (by decide +kernel) h.char2

theorem is_NoteTagDefinition {o o' : Object} (v : View o o') {n : NoteTagDefinition} (h : IsNoteTagDefinition o n) :
    IsNoteTagDefinition o' n where
  kind := by rw [v.kind]; exact h.kind
  label := required v.props (by decide +kernel) h.label
  status := required v.props (by decide +kernel) h.status
  shape := required v.props (by decide +kernel) h.shape
  highlightColor := optional v.props (by decide +kernel) h.highlightColor
  textColor := optional v.props (by decide +kernel) h.textColor
  actionItemType := required v.props (by decide +kernel) h.actionItemType

theorem is_NumberListNode {o o' : Object} (v : View o o') {n : NumberListNode} (h : IsNumberListNode o n) :
    IsNumberListNode o' n where
  kind := by rw [v.kind]; exact h.kind
  lastModified := required v.props (by decide +kernel) h.lastModified
  listFont := optional v.props (by decide +kernel) h.listFont
  listRestart := optional v.props (by decide +kernel) h.listRestart
  listFormat := required v.props (by decide +kernel) h.listFormat
  bold := dflt v.props (by decide +kernel) h.bold
  italic := dflt v.props (by decide +kernel) h.italic
  languageCode := optional v.props (by decide +kernel) h.languageCode
  font := optional v.props (by decide +kernel) h.font
  fontSize := optional v.props (by decide +kernel) h.fontSize
  fontColor := optional v.props (by decide +kernel) h.fontColor

theorem is_OutlineElementNode {o o' : Object} (v : View o o') {n : OutlineElementNode} (h : IsOutlineElementNode o n) :
    IsOutlineElementNode o' n where
  kind := by rw [v.kind]; exact h.kind
  createdAt := required v.props (by decide +kernel) h.createdAt
  lastModified := required v.props (by decide +kernel) h.lastModified
  children := refs v (by decide +kernel) h.children
  childLevel := required v.props (by decide +kernel) h.childLevel
  contents := refs v (by decide +kernel) h.contents
  listContents := refs v (by decide +kernel) h.listContents
  listSpacing := optional v.props (by decide +kernel) h.listSpacing
  authorOriginal := ref v (by decide +kernel) h.authorOriginal
  authorMostRecent := ref v (by decide +kernel) h.authorMostRecent
  rtl := dflt v.props (by decide +kernel) h.rtl
  isDeletable := dflt v.props (by decide +kernel) h.isDeletable
  isSelectable := dflt v.props (by decide +kernel) h.isSelectable
  isTitleText := dflt v.props (by decide +kernel) h.isTitleText

theorem is_OutlineGroupNode {o o' : Object} (v : View o o') {n : OutlineGroupNode} (h : IsOutlineGroupNode o n) :
    IsOutlineGroupNode o' n where
  kind := by rw [v.kind]; exact h.kind
  lastModified := required v.props (by decide +kernel) h.lastModified
  children := refs v (by decide +kernel) h.children
  childLevel := required v.props (by decide +kernel) h.childLevel

theorem is_OutlineNode {o o' : Object} (v : View o o') {n : OutlineNode} (h : IsOutlineNode o n) :
    IsOutlineNode o' n where
  kind := by rw [v.kind]; exact h.kind
  lastModified := required v.props (by decide +kernel) h.lastModified
  children := refs v (by decide +kernel) h.children
  childLevel := required v.props (by decide +kernel) h.childLevel
  layoutMaxHeight := optional v.props (by decide +kernel) h.layoutMaxHeight
  layoutMaxWidth := optional v.props (by decide +kernel) h.layoutMaxWidth
  layoutReservedWidth := optional v.props (by decide +kernel) h.layoutReservedWidth
  layoutMinimumOutlineWidth := optional v.props (by decide +kernel) h.layoutMinimumOutlineWidth
  layoutTightAlignment := dflt v.props (by decide +kernel) h.layoutTightAlignment
  isLayoutSizeSetByUser := dflt v.props (by decide +kernel) h.isLayoutSizeSetByUser
  offsetFromParentHoriz := optional v.props (by decide +kernel) h.offsetFromParentHoriz
  offsetFromParentVert := optional v.props (by decide +kernel) h.offsetFromParentVert
  listSpacing := optional v.props (by decide +kernel) h.listSpacing
  outlineIndentDistance := required v.props (by decide +kernel) h.outlineIndentDistance
  layoutAlignmentInParent := dflt v.props (by decide +kernel) h.layoutAlignmentInParent
  layoutAlignmentSelf := dflt v.props (by decide +kernel) h.layoutAlignmentSelf
  isDeletable := dflt v.props (by decide +kernel) h.isDeletable
  isTitleDate := dflt v.props (by decide +kernel) h.isTitleDate
  isSelectable := dflt v.props (by decide +kernel) h.isSelectable
  isTitleText := dflt v.props (by decide +kernel) h.isTitleText
  isReadOnly := dflt v.props (by decide +kernel) h.isReadOnly
  descendantsCannotBeMoved := dflt v.props (by decide +kernel) h.descendantsCannotBeMoved
  tightLayout := dflt v.props (by decide +kernel) h.tightLayout

theorem is_PageMetadata {o o' : Object} (v : View o o') {n : PageMetadata} (h : IsPageMetadata o n) :
    IsPageMetadata o' n where
  kind := by rw [v.kind]; exact h.kind
  entityGuid := required v.props (by decide +kernel) h.entityGuid
  cachedTitle := required v.props (by decide +kernel) h.cachedTitle
  schemaRevisionInOrderToRead := optional v.props (by decide +kernel) h.schemaRevisionInOrderToRead
  schemaRevisionInOrderToWrite := optional v.props (by decide +kernel) h.schemaRevisionInOrderToWrite
  pageLevel := dflt v.props (by decide +kernel) h.pageLevel
  createdAt := required v.props (by decide +kernel) h.createdAt
  isDeleted := dflt v.props (by decide +kernel) h.isDeleted

theorem is_PageNode {o o' : Object} (v : View o o') {n : PageNode} (h : IsPageNode o n) :
    IsPageNode o' n where
  kind := by rw [v.kind]; exact h.kind
  lastModified := optional v.props (by decide +kernel) h.lastModified
  cachedTitle := optional v.props (by decide +kernel) h.cachedTitle
  author := optional v.props (by decide +kernel) h.author
  content := refs v (by decide +kernel) h.content
  title := by
    obtain ⟨ids, h1, h2⟩ := h.title
    exact ⟨ids, refs v (by decide +kernel) h1, h2⟩
  orientationPortrait := dflt v.props (by decide +kernel) h.orientationPortrait
  pageWidth := optional v.props (by decide +kernel) h.pageWidth
  pageHeight := optional v.props (by decide +kernel) h.pageHeight
  pageMarginOriginX := optional v.props (by decide +kernel) h.pageMarginOriginX
  pageMarginOriginY := optional v.props (by decide +kernel) h.pageMarginOriginY
  pageMarginLeft := optional v.props (by decide +kernel) h.pageMarginLeft
  pageMarginRight := optional v.props (by decide +kernel) h.pageMarginRight
  pageMarginTop := optional v.props (by decide +kernel) h.pageMarginTop
  pageMarginBottom := optional v.props (by decide +kernel) h.pageMarginBottom
  pageSize := dflt v.props (by decide +kernel) h.pageSize
  rtl := dflt v.props (by decide +kernel) h.rtl

theorem is_PageSeriesNode {o o' : Object} (v : View o o') {n : PageSeriesNode} (h : IsPageSeriesNode o n) :
    IsPageSeriesNode o' n where
  kind := by rw [v.kind]; exact h.kind
  entityGuid := required v.props (by decide +kernel) h.entityGuid
  pageSpaces := cellRefs v (by decide +kernel) h.pageSpaces
  pageMetadata := refs v (by decide +kernel) h.pageMetadata
  createdAt := optional v.props (by decide +kernel) h.createdAt

theorem is_ParagraphStyleObject {o o' : Object} (v : View o o') {n : ParagraphStyleObject} (h : IsParagraphStyleObject o n) :
    IsParagraphStyleObject o' n where
  kind := by rw [v.kind]; exact h.kind
  charset := optional v.props (by decide +kernel) h.charset
  bold := dflt v.props (by decide +kernel) h.bold
  italic := dflt v.props (by decide +kernel) h.italic
  underline := dflt v.props (by decide +kernel) h.underline
  strikethrough := dflt v.props (by decide +kernel) h.strikethrough
  superscript := dflt v.props (by decide +kernel) h.superscript
  subscript := dflt v.props (by decide +kernel) h.subscript
  font := optional v.props (by decide +kernel) h.font
  fontSize := optional v.props (by decide +kernel) h.fontSize
  fontColor := optional v.props (by decide +kernel) h.fontColor
  highlight := optional v.props (by decide +kernel) h.highlight
  nextStyle := optional v.props (by decide +kernel) h.nextStyle
  styleId := optional v.props (by decide +kernel) h.styleId
  paragraphAlignment := optional v.props (by decide +kernel) h.paragraphAlignment
  paragraphSpaceBefore := optional v.props (by decide +kernel) h.paragraphSpaceBefore
  paragraphSpaceAfter := optional v.props (by decide +kernel) h.paragraphSpaceAfter
  paragraphLineSpacingExact := optional v.props (by decide +kernel) h.paragraphLineSpacingExact
  languageCode := optional v.props (by decide +kernel) h.languageCode
  mathFormatting := dflt v.props (by decide +kernel) h.mathFormatting
  hyperlink := dflt v.props (by decide +kernel) h.hyperlink
  hyperlinkProtected := dflt v.props (by decide +kernel) h.hyperlinkProtected
  hidden := dflt v.props (by decide +kernel) h.hidden
  textRunIsEmbeddedObject := dflt v.props (by decide +kernel) h.textRunIsEmbeddedObject
  textRunObjectType := optional v.props (by decide +kernel) h.textRunObjectType

theorem is_RichTextNode {o o' : Object} (v : View o o') {n : RichTextNode} (h : IsRichTextNode o n) :
    IsRichTextNode o' n where
  kind := by rw [v.kind]; exact h.kind
  lastModifiedTime := required v.props (by decide +kernel) h.lastModifiedTime
  tightLayout := dflt v.props (by decide +kernel) h.tightLayout
  textRunFormatting := refs v (by decide +kernel) h.textRunFormatting
  textRunIndices := dflt v.props (by decide +kernel) h.textRunIndices
  textRunDataObject := refs v (by decide +kernel) h.textRunDataObject
  paragraphStyle := ref v (by decide +kernel) h.paragraphStyle
  paragraphSpaceBefore := dflt v.props (by decide +kernel) h.paragraphSpaceBefore
  paragraphSpaceAfter := dflt v.props (by decide +kernel) h.paragraphSpaceAfter
  paragraphLineSpacingExact := optional v.props (by decide +kernel) h.paragraphLineSpacingExact
  paragraphAlignment := dflt v.props (by decide +kernel) h.paragraphAlignment
  text := isText v h.text
  isTitleTime := dflt v.props (by decide +kernel) h.isTitleTime
  isBoilerText := dflt v.props (by decide +kernel) h.isBoilerText
  isTitleDate := dflt v.props (by decide +kernel) h.isTitleDate
  isTitleText := dflt v.props (by decide +kernel) h.isTitleText
  layoutAlignmentInParent := dflt v.props (by decide +kernel) h.layoutAlignmentInParent
  layoutAlignmentSelf := dflt v.props (by decide +kernel) h.layoutAlignmentSelf
  languageCode := optional v.props (by decide +kernel) h.languageCode
  rtl := dflt v.props (by decide +kernel) h.rtl
  noteTags := noteTags v (by decide +kernel) h.noteTags

theorem is_SectionMetadata {o o' : Object} (v : View o o') {n : SectionMetadata} (h : IsSectionMetadata o n) :
    IsSectionMetadata o' n where
  kind := by rw [v.kind]; exact h.kind
  schemaRevisionInOrderToRead := required v.props (by decide +kernel) h.schemaRevisionInOrderToRead
  schemaRevisionInOrderToWrite := required v.props (by decide +kernel) h.schemaRevisionInOrderToWrite
  displayName := optional v.props (by decide +kernel) h.displayName
  color := optional v.props (by decide +kernel) h.color

theorem is_SectionNode {o o' : Object} (v : View o o') {n : SectionNode} (h : IsSectionNode o n) :
    IsSectionNode o' n where
  kind := by rw [v.kind]; exact h.kind
  contextId := h.contextId.trans v.context.symm
  entityGuid := required v.props (by decide +kernel) h.entityGuid
  pageSeries := refs v (by decide +kernel) h.pageSeries
  createdAt := required v.props (by decide +kernel) h.createdAt

theorem is_StrokeProperties {o o' : Object} (v : View o o') {n : StrokeProperties} (h : IsStrokeProperties o n) :
    IsStrokeProperties o' n where
  kind := by rw [v.kind]; exact h.kind
  aliased := dflt v.props (by decide +kernel) h.aliased
  fitToCurve := dflt v.props (by decide +kernel) h.fitToCurve
  ignorePressure := dflt v.props (by decide +kernel) h.ignorePressure
  penTip := optional v.props (by decide +kernel) h.penTip
  rasterOperation := optional v.props (by decide +kernel) h.rasterOperation
  transparency := optional v.props (by decide +kernel) h.transparency
  inkHeight := required v.props (by decide +kernel) h.inkHeight
  inkWidth := required v.props (by decide +kernel) h.inkWidth
  color := optional v.props (by decide +kernel) h.color
  dimensions := dflt v.props (by decide +kernel) h.dimensions

theorem is_TableCellNode {o o' : Object} (v : View o o') {n : TableCellNode} (h : IsTableCellNode o n) :
    IsTableCellNode o' n where
  kind := by rw [v.kind]; exact h.kind
  lastModified := optional v.props (by decide +kernel) h.lastModified
  contents := refList v (by decide +kernel) h.contents
  layoutMaxWidth := optional v.props (by decide +kernel) h.layoutMaxWidth
  outlineIndentDistance := required v.props (by decide +kernel) h.outlineIndentDistance
  backgroundColor := optional v.props (by decide +kernel) h.backgroundColor

theorem is_TableNode {o o' : Object} (v : View o o') {n : TableNode} (h : IsTableNode o n) :
    IsTableNode o' n where
  kind := by rw [v.kind]; exact h.kind
  lastModified := required v.props (by decide +kernel) h.lastModified
  rows := refList v (by decide +kernel) h.rows
  rowCount := required v.props (by decide +kernel) h.rowCount
  colCount := required v.props (by decide +kernel) h.colCount
  colsLocked := dflt v.props (by decide +kernel) h.colsLocked
  colWidths := dflt v.props (by decide +kernel) h.colWidths
  bordersVisible := dflt v.props (by decide +kernel) h.bordersVisible
  layoutAlignmentInParent := dflt v.props (by decide +kernel) h.layoutAlignmentInParent
  layoutAlignmentSelf := dflt v.props (by decide +kernel) h.layoutAlignmentSelf
  noteTags := noteTags v (by decide +kernel) h.noteTags

theorem is_TableRowNode {o o' : Object} (v : View o o') {n : TableRowNode} (h : IsTableRowNode o n) :
    IsTableRowNode o' n where
  kind := by rw [v.kind]; exact h.kind
  lastModified := optional v.props (by decide +kernel) h.lastModified
  cells := refList v (by decide +kernel) h.cells

theorem is_TitleNode {o o' : Object} (v : View o o') {n : TitleNode} (h : IsTitleNode o n) :
    IsTitleNode o' n where
  kind := by rw [v.kind]; exact h.kind
  lastModifiedTime := required v.props (by decide +kernel) h.lastModifiedTime
  children := refList v (by decide +kernel) h.children
  offsetHorizontal := required v.props (by decide +kernel) h.offsetHorizontal
  offsetVertical := required v.props (by decide +kernel) h.offsetVertical
  layoutAlignmentInParent := dflt v.props (by decide +kernel) h.layoutAlignmentInParent
  layoutAlignmentSelf := dflt v.props (by decide +kernel) h.layoutAlignmentSelf

theorem is_TocContainer {o o' : Object} (v : View o o') {n : TocContainer} (h : IsTocContainer o n) :
    IsTocContainer o' n where
  kind := by rw [v.kind]; exact h.kind
  children := refs v (by decide +kernel) h.children
  filename := optional v.props (by decide +kernel) h.filename
  orderingId := optional v.props (by decide +kernel) h.orderingId
  color := optional v.props (by decide +kernel) h.color

theorem is_FileContainer {o o' : Object} (v : View o o') {data : Bytes} (h : IsFileContainer o data) :
    IsFileContainer o' data where
  kind := by rw [v.kind]; exact h.kind
  data := by rw [v.file]; exact h.data

theorem is_IFrame {o o' : Object} (v : View o o') {n : IFrame} (h : IsIFrame o n) :
    IsIFrame o' n where
  kind := by rw [v.kind]; exact h.kind
  embedType := optional v.props (by decide +kernel) h.embedType
  sourceUrl := required v.props (by decide +kernel) h.sourceUrl

theorem is_PictureContainer {o o' : Object} (v : View o o') {n : PictureContainer} (h : IsPictureContainer o n) :
    IsPictureContainer o' n where
  kind := by rw [v.kind]; exact h.kind
  data := by rw [v.file]; exact h.data
  extension := optional v.props (by decide +kernel) h.extension

theorem is_PageManifest {o o' : Object} (v : View o o') {page : ExGuid} (h : IsPageManifest o page) :
    IsPageManifest o' page where
  kind := by rw [v.kind]; exact h.kind
  page := by
    obtain ⟨ids, h1, h2⟩ := h.page
    exact ⟨ids, refList v (by decide +kernel) h1, h2⟩

end OneNote.Same
