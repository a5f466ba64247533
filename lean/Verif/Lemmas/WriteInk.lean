/-
What is read back from written drawings.
-/
import Verif.Lemmas.WriteDocument

namespace OneNote.Writer

open Spec Spec.Writer Spec.Storable Spec.Fields Spec.Document Spec.Objects

variable {space : ObjectSpace} {id : ExGuid} {scale : F32} {sx : Option F32}

theorem point_is {p : InkPoint} (h : PointOk scale p) :
    p = ⟨.mul (.bits scale) (.ofInt (unscaled p.x)), .mul (.bits scale) (.ofInt (unscaled p.y))⟩ ∧
    (unscaled p.x).natAbs < 2 ^ 63 ∧ (unscaled p.y).natAbs < 2 ^ 63 := by
  obtain ⟨x, y, hx, hy, rfl⟩ := h
  exact ⟨rfl, hx, hy⟩

theorem scale_eq (hs : sx.getD 0x3F800000 = scale) : Ink.scale sx = .bits scale := by
  unfold Ink.scale
  rw [hs]

theorem points_are {points : List InkPoint} (h : ∀ p ∈ points, PointOk scale p)
    (hs : sx.getD 0x3F800000 = scale) :
    PointsAre (coordinates points) [⟨Ink.xId, 0, 0⟩, ⟨Ink.yId, 0, 0⟩] sx sx points := by
  have hl : (coordinates points).length / 2 = points.length := by
    unfold coordinates
    rw [List.length_append, List.length_map, List.length_map]
    omega
  refine ⟨0, 1, ⟨⟨_, rfl, rfl⟩, fun j hj => absurd hj (by omega)⟩, ⟨⟨_, rfl, rfl⟩, fun j hj d hd => ?_⟩,
    hl.symm, fun k hk => ?_⟩
  · obtain rfl : j = 0 := by omega
    cases hd
    decide
  · have hk : k < points.length := hl ▸ hk
    show ∃ x y, (coordinates points)[(coordinates points).length / 2 * 0 + k]? = some x ∧
      (coordinates points)[(coordinates points).length / 2 * 1 + k]? = some y ∧ _
    rw [hl]
    have hp : points[k]? = some points[k] := List.getElem?_eq_getElem hk
    refine ⟨unscaled points[k].x, unscaled points[k].y, ?_, ?_, ?_⟩
    · unfold coordinates
      rw [Nat.mul_zero, Nat.zero_add, List.getElem?_append_left (by rw [List.length_map]; exact hk),
        List.getElem?_map, hp]
      rfl
    · unfold coordinates
      rw [Nat.mul_one, List.getElem?_append_right (by rw [List.length_map]; omega), List.length_map,
        Nat.add_sub_cancel_left, List.getElem?_map, hp]
      rfl
    · rw [hp, scale_eq hs, ← (point_is (h _ (List.getElem_mem hk))).1]

theorem stroke_is (hs : sx.getD 0x3F800000 = scale) {s : InkStroke} (ok : StrokeOk scale s)
    (h : Stored space id (strokeTree s)) : StrokeIs space sx sx id s := by
  obtain ⟨o, hat, h⟩ := node_written h (by words) (by simp)
  obtain ⟨r, hr, hprops⟩ := h.one Word.inkStrokeProperties _ (by field)
  rcases hprops with ⟨_, hd⟩ | ⟨x, y, rfl, hd, hst⟩
  · cases hd
  cases hd
  obtain ⟨q, hq, hp⟩ := node_written hst (by words) (by simp)
  refine ⟨o, ⟨coordinates s.path, .handwriting, none, x⟩, q,
    ⟨false, false, false, s.penTip, none, s.transparency, s.height, s.width, s.color,
      [⟨Ink.xId, 0, 0⟩, ⟨Ink.yId, 0, 0⟩]⟩, s.path, hat, ?_, hq, ?_, points_are ok.points hs, rfl⟩
  · refine
      { kind := h.kind
        path := req (h.val _ _ (by field)) (reads_path ?_ ?_)
        bias := req (h.val _ _ (by field)) (.inl ⟨rfl, rfl⟩)
        languageCode := gone (h.absent _ (by words))
        properties := hr }
    · intro i hi
      unfold coordinates at hi
      rcases List.mem_append.1 hi with hi | hi
      · obtain ⟨p, hp, rfl⟩ := List.mem_map.1 hi
        exact (point_is (ok.points p hp)).2.1
      · obtain ⟨p, hp, rfl⟩ := List.mem_map.1 hi
        exact (point_is (ok.points p hp)).2.2
    · have := ok.length
      unfold coordinates
      rw [List.length_append, List.length_map, List.length_map]
      omega
  · exact
      { kind := hp.kind
        aliased := gone' (hp.absent _ (by words))
        fitToCurve := gone' (hp.absent _ (by words))
        ignorePressure := gone' (hp.absent _ (by words))
        penTip := opt (hp.val _ _ (by field)) reads_u8 ok.penTip
        rasterOperation := gone (hp.absent _ (by words))
        transparency := opt (hp.val _ _ (by field)) reads_u8 ok.transparency
        inkHeight := req (hp.val _ _ (by field)) (reads_f32 ok.height)
        inkWidth := req (hp.val _ _ (by field)) (reads_f32 ok.width)
        color := opt (hp.val _ _ (by field)) reads_u32 ok.color
        dimensions := dflt (hp.val _ _ (by field)) reads_dimensions }

theorem limits_are (hs : sx.getD 0x3F800000 = scale) {b : InkBoundingBox} (h : BoxOk scale b) :
    Document.box sx sx (limits b) = b ∧ Value.box (Scalar.box (limits b)).val.value (some (limits b)) := by
  obtain ⟨l, t, r, d, hl, ht, hr, hd, rfl⟩ := h
  have hlim : limits (Document.box (some scale) (some scale) (l, t, r, d)) = (l, t, r, d) := rfl
  rw [hlim]
  refine ⟨?_, reads_box hl ht hr hd⟩
  unfold Document.box
  rw [scale_eq hs]
  rfl

theorem inkData_is (hs : sx.getD 0x3F800000 = scale) {i : Ink} (ok : DrawingOk scale i)
    (h : Stored space id (inkDataTree i.inkStrokes i.boundingBox)) :
    InkDataIs space id sx sx i.inkStrokes i.boundingBox := by
  obtain ⟨o, hat, h⟩ := node_written h (by words) (by simp)
  obtain ⟨ids, hrefs, hids⟩ := h.many Word.inkStrokes _ (by field)
  have hb := h.val Word.inkBoundingBox _ (by field)
  refine ⟨o, ⟨ids, i.boundingBox.map limits⟩, hat, ⟨h.kind, hrefs, ?_⟩,
    each_is (fun _ _ => stroke_is hs) ok.strokes hids, ?_⟩
  · cases hbox : i.boundingBox with
    | none =>
      rw [hbox] at hb
      exact .inl ⟨hb, rfl⟩
    | some b =>
      rw [hbox] at hb
      exact .inr ⟨_, hb, (limits_are hs (ok.boundingBox b hbox)).2⟩
  · cases hbox : i.boundingBox with
    | none => rfl
    | some b => exact congrArg some (limits_are hs (ok.boundingBox b hbox)).1.symm

theorem findSome_all {α β : Type} {f : α → Option β} {l : List α} {b : β} (h : ∀ a ∈ l, f a = some b) :
    l = [] ∨ l.findSome? f = some b := by
  cases l with
  | nil => exact .inl rfl
  | cons a l =>
    refine .inr ?_
    rw [List.findSome?_cons, h a List.mem_cons_self]

theorem drawing_scale {i : Ink} (ok : DrawingOk scale i) : DrawingOk (inkScale i) i := by
  have hall : ∀ e ∈ ((i.inkStrokes.flatMap (·.path)).map (·.x) ++ i.boundingBox.toList.map (·.x)),
      scaleIn e = some scale := by
    intro e he
    rcases List.mem_append.1 he with he | he
    · obtain ⟨p, hp, rfl⟩ := List.mem_map.1 he
      obtain ⟨s, hs, hp⟩ := List.mem_flatMap.1 hp
      obtain ⟨x, y, _, _, rfl⟩ := (ok.strokes s hs).points p hp
      rfl
    · obtain ⟨b, hb, rfl⟩ := List.mem_map.1 he
      obtain ⟨l, t, r, d, _, _, _, _, rfl⟩ := ok.boundingBox b (Option.mem_toList.1 hb)
      rfl
  rcases findSome_all hall with hnil | hsome
  · obtain ⟨h1, h2⟩ := List.append_eq_nil_iff.1 hnil
    have hbox : i.boundingBox = none := by
      cases hb : i.boundingBox with
      | none => rfl
      | some b => rw [hb] at h2; cases h2
    have hpath : ∀ s ∈ i.inkStrokes, s.path = [] := by
      intro s hs
      exact List.flatMap_eq_nil_iff.1 (List.map_eq_nil_iff.1 h1) s hs
    refine ⟨?_, fun s hs => ?_, ?_, ok.offsetHorizontal, ok.offsetVertical⟩
    · unfold inkScale
      rw [hnil]
      decide
    · have h := ok.strokes s hs
      exact { h with points := fun p hp => by rw [hpath s hs] at hp; cases hp }
    · intro b hb
      rw [hbox] at hb
      cases hb
  · have : inkScale i = scale := by
      unfold inkScale
      rw [hsome]
      rfl
    rw [this]
    exact ok

theorem ink_is {i : Ink} (ok : InkOk i) (h : Stored space id (inkTree i)) : InkIs space id i := by
  obtain ⟨scale, ok⟩ := ok
  have ok := drawing_scale ok
  obtain ⟨o, hat, h⟩ := node_written h (by words) (by simp)
  obtain ⟨r, hr, hdata⟩ := h.one Word.inkData _ (by field)
  rcases hdata with ⟨_, hd⟩ | ⟨x, y, rfl, hd, hst⟩
  · cases hd
  cases hd
  refine ⟨o, ⟨i.offsetHorizontal, i.offsetVertical, none, some x, some (inkScale i), some (inkScale i)⟩,
    hat, ?_, rfl, rfl, .inr ⟨x, rfl, inkData_is rfl ok hst⟩⟩
  have hscale : Optional o.props.properties Word.inkScalingX Value.f32 (some (inkScale i)) :=
    .inr ⟨_, _, h.val Word.inkScalingX (some _) (by field), reads_f32 ok.bits, rfl⟩
  exact
    { kind := h.kind
      offsetFromParentHoriz := opt (h.val _ _ (by field)) reads_f32 ok.offsetHorizontal
      offsetFromParentVert := opt (h.val _ _ (by field)) reads_f32 ok.offsetVertical
      lastModified := gone (h.absent _ (by words))
      inkData := hr
      inkScalingX := hscale
      inkScalingY := hscale }

end OneNote.Writer
