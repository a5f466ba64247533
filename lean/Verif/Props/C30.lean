/-
C30: Ink scaling and pen size use their own fields. FALSE of the code: the vertical scale is read
from the x-scaling property, and a stroke's width and height are swapped.
-/
import Verif.Lemmas.Ink
import Verif.Spec.SampleObject
import Verif.Spec.MultiByte
import Verif.Spec.SampleDrawing

namespace OneNote

open Spec Spec.Ink

/-- What is read instead, for every ink container: both scales are the x-scaling property. They are
right when the container stores the same value for both. -/
theorem C30_scaling_partial (o : Object) (c : InkContainerNode)
    (h : InkContainerNode.parse o = .ok c) :
    Simple.parseF32 .inkScalingX o = .ok c.inkScalingX ∧ c.inkScalingY = c.inkScalingX ∧
    (o.props.get .inkScalingY = o.props.get .inkScalingX →
      Simple.parseF32 .inkScalingY o = .ok c.inkScalingY) := by
  unfold InkContainerNode.parse at h
  obtain ⟨_, _, h⟩ := Res.bind_ok h
  obtain ⟨_, _, h⟩ := Res.bind_ok h
  obtain ⟨_, _, h⟩ := Res.bind_ok h
  obtain ⟨_, _, h⟩ := Res.bind_ok h
  obtain ⟨_, _, h⟩ := Res.bind_ok h
  obtain ⟨x, hx, h⟩ := Res.bind_ok h
  obtain ⟨y, hy, h⟩ := Res.bind_ok h
  cases h
  have e : y = x := by rw [hx] at hy; cases hy; rfl
  subst e
  refine ⟨hx, rfl, fun he => ?_⟩
  unfold Simple.parseF32 propAs at hx ⊢
  rw [he]
  exact hx

/-- What is read instead, for every stroke: the width is the height property and the height is the
width property. They are right when the stroke stores the same value for both. -/
theorem C30_pen_size_partial (o : Object) (p : StrokeProperties)
    (h : StrokeProperties.parse o = .ok p) :
    o.props.get .inkHeight = some (.u32 p.inkWidth) ∧
    o.props.get .inkWidth = some (.u32 p.inkHeight) ∧
    (o.props.get .inkHeight = o.props.get .inkWidth →
      o.props.get .inkWidth = some (.u32 p.inkWidth) ∧
      o.props.get .inkHeight = some (.u32 p.inkHeight)) := by
  unfold StrokeProperties.parse at h
  obtain ⟨_, _, h⟩ := Res.bind_ok h
  obtain ⟨_, _, h⟩ := Res.bind_ok h
  obtain ⟨_, _, h⟩ := Res.bind_ok h
  obtain ⟨_, _, h⟩ := Res.bind_ok h
  obtain ⟨_, _, h⟩ := Res.bind_ok h
  obtain ⟨_, _, h⟩ := Res.bind_ok h
  obtain ⟨_, _, h⟩ := Res.bind_ok h
  obtain ⟨w, hw, h⟩ := Res.bind_ok h
  obtain ⟨w', hw', h⟩ := Res.bind_ok h
  obtain ⟨t, ht, h⟩ := Res.bind_ok h
  obtain ⟨t', ht', h⟩ := Res.bind_ok h
  obtain ⟨_, _, h⟩ := Res.bind_ok h
  obtain ⟨_, _, h⟩ := Res.bind_ok h
  cases h
  have stored : ∀ {t : PropertyType} {x : Option F32} {v : F32}, Simple.parseF32 t o = .ok x →
      required x = .ok v → o.props.get t = some (.u32 v) := by
    intro t x v hx hv
    rw [required_ok hv] at hx
    rcases propAs_ok hx with ⟨_, h⟩ | ⟨a, b, ha, hb, he⟩
    · cases h
    · cases he
      rw [ha, toU32_some hb]
  have h1 := stored hw hw'
  have h2 := stored ht ht'
  exact ⟨h1, h2, fun he => ⟨he ▸ h1, he ▸ h2⟩⟩

/-- Identifiers of the sample objects. -/
private def sid (n : Nat) : ExGuid := ⟨default, n⟩

/-- One stroke with the point (3, 5), in a container with x-scale 1.0 and y-scale 2.0, drawn with a
pen of width 3.0 and height 4.0. -/
private def sampleSpace : ObjectSpace :=
  { id := sid 0, context := sid 0, roots := []
    objects :=
      [(sid 1, sampleObject PropertySetId.inkContainer.asJcid
          [(.inkData, .objectId), (.inkScalingX, .u32 0x3F800000), (.inkScalingY, .u32 0x40000000)]
          [sid 2]),
        (sid 2, sampleObject PropertySetId.inkDataNode.asJcid [(.inkStrokes, .objectIds 1)] [sid 3]),
        (sid 3, sampleObject PropertySetId.inkStrokeNode.asJcid
          [(.inkPath, .vec [0x04, 0x06, 0x0A]), (.inkBias, .u8 0), (.inkStrokeProperties, .objectId)]
          [sid 4]),
        (sid 4, sampleObject PropertySetId.strokePropertiesNode.asJcid
          [(.inkHeight, .u32 0x40800000), (.inkWidth, .u32 0x40400000),
            (.inkDimensions, .vec (dimension ⟨xId, 0, 9⟩ (List.replicate 8 0)
              ++ dimension ⟨yId, 0, 9⟩ (List.replicate 8 0)))])] }

private def sampleInk : Ink :=
  { inkStrokes := [{ path := [⟨.mul (.bits 0x3F800000) (.ofInt 3), .mul (.bits 0x3F800000) (.ofInt 5)⟩]
                     penTip := none, transparency := none, color := none
                     height := 0x40400000, width := 0x40800000 }]
    boundingBox := none, offsetHorizontal := none, offsetVertical := none }

private theorem sample_read : parseInk sampleSpace (sid 1) = .ok sampleInk := by decide +kernel

/-- The y-coordinates are not scaled by the container's y-scaling. (In the witness 2.0 × 5 is
expected and 1.0 × 5 returned.) -/
theorem C30_scaling_refuted :
    ¬ ∀ (space : ObjectSpace) (id : ExGuid) (o : Object) (ink : Ink) (sx sy : F32),
      space.getObject id = some o → o.props.get .inkScalingX = some (.u32 sx) →
      o.props.get .inkScalingY = some (.u32 sy) → parseInk space id = .ok ink →
      ∀ stroke ∈ ink.inkStrokes, ∀ p ∈ stroke.path,
        (∃ x, p.x = .mul (.bits sx) (.ofInt x)) ∧ ∃ y, p.y = .mul (.bits sy) (.ofInt y) := by
  intro h
  obtain ⟨_, y, hy⟩ := h sampleSpace (sid 1) _ sampleInk 0x3F800000 0x40000000 rfl rfl rfl sample_read
    _ (List.mem_cons_self ..) _ (List.mem_cons_self ..)
  cases hy

/-- The width of a stroke is not its width property. -/
theorem C30_pen_size_refuted :
    ¬ ∀ (space : ObjectSpace) (id : ExGuid) (o : Object) (stroke : InkStroke) (w h : F32)
      (sx sy : Option F32) (n : InkStrokeNode) (so : Object),
      space.getObject id = some so → InkStrokeNode.parse so = .ok n →
      space.getObject n.properties = some o → o.props.get .inkWidth = some (.u32 w) →
      o.props.get .inkHeight = some (.u32 h) → parseInkStroke space sx sy id = .ok stroke →
      stroke.width = w ∧ stroke.height = h := by
  intro h
  have := h sampleSpace (sid 3) _ sampleInk.inkStrokes.head! 0x40400000 0x40800000
    (some 0x3F800000) (some 0x3F800000) ⟨[3, 5], .handwriting, none, sid 4⟩ _ rfl
    (by decide +kernel) rfl rfl rfl (by decide +kernel)
  exact absurd this.1 (by decide)

/-- The sample container and stroke are read, with the wrong fields. -/
example : ∃ o c, sampleSpace.getObject (sid 1) = some o ∧ InkContainerNode.parse o = .ok c ∧
    c.inkScalingX = some 0x3F800000 ∧ c.inkScalingY = some 0x3F800000 :=
  ⟨_, ⟨none, none, none, some (sid 2), some 0x3F800000, some 0x3F800000⟩, rfl, by decide +kernel,
    rfl, rfl⟩

example : ∃ o p, sampleSpace.getObject (sid 4) = some o ∧ StrokeProperties.parse o = .ok p ∧
    p.inkHeight = 0x40400000 ∧ p.inkWidth = 0x40800000 :=
  ⟨_, ⟨false, false, false, none, none, none, 0x40400000, 0x40800000, none,
    [⟨xId, 0, 9⟩, ⟨yId, 0, 9⟩]⟩, rfl, by decide +kernel, rfl, rfl⟩

#print axioms C30_scaling_partial
#print axioms C30_pen_size_partial
#print axioms C30_scaling_refuted
#print axioms C30_pen_size_refuted

/-! ### A whole file -/

/-- **Refuted for a file**: a drawing with the stored point (3, 5), the horizontal scale 1.0 and the
vertical scale 2.0, and a pen of width 3.0 and height 4.0. It is shown with the point (3.0, 5.0) and not
(3.0, 10.0), and with a pen of width 4.0 and height 3.0. -/
theorem C30_file_refuted :
    (parseSectionBuffer 2 Order.id (drawingFile (numbers [3, 5])
        [(.inkScalingX, .u32 0x3F800000), (.inkScalingY, .u32 0x40000000)]) []).toOption.map
      (fun s => (drawings s).map fun i => (shownPoints i, shownPens i)) =
    some [([(0x40400000, 0x40A00000)], [(0x40800000, 0x40400000)])] := by
  rw [show numbers [3, 5] = [0x04, 0x06, 0x0A] by simp [numbers, zigzag]; simp [uint]]
  decide +kernel

end OneNote
#print axioms OneNote.C30_file_refuted
