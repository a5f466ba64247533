/-
C65: Drawings have finite coordinates. FALSE of the code: scales that are no finite numbers are
accepted, and large finite scales overflow.
-/
import Verif.Lemmas.InkFloat
import Verif.Lemmas.Shown
import Verif.Lemmas.Terminates
import Verif.Spec.Drawing
import Verif.Spec.Tags
import Verif.Spec.SampleFile
import Verif.Props.C43

namespace OneNote

open Spec Spec.Ink Spec.Float Spec.Fields Spec.Objects Spec.Shown Spec.Tags Spec.Drawing F32

/-! ### Refutation -/

/-- A section file with a drawing on its page: one stroke with the points (3, 1) and (5, 7), and the
given scale. -/
private def file (scale : Nat) : Bytes :=
  sectionFile none [3001]
    [objectW 3001 .inkContainer [(.inkData, .objectId), (.inkScalingX, .u32 scale)] [3002],
     objectW 3002 .inkDataNode [(.inkStrokes, .objectIds 1)] [3003],
     objectW 3003 .inkStrokeNode
      [(.inkPath, .vec [0x08, 0x06, 0x0A, 0x02, 0x0E]), (.inkBias, .u8 0),
       (.inkStrokeProperties, .objectId)] [3004],
     objectW 3004 .strokePropertiesNode
      [(.inkHeight, .u32 0x40800000), (.inkWidth, .u32 0x40400000),
       (.inkDimensions, .vec (dimension ⟨xId, 0, 9⟩ (List.replicate 8 0)
          ++ dimension ⟨yId, 0, 9⟩ (List.replicate 8 0)))]]

private def drawings (s : Section) : List Ink :=
  s.pageSeries.flatMap fun series => series.pages.flatMap fun p => p.contents.flatMap fun
    | .ink i => [i]
    | _ => []

private theorem drawings_shown {s : Section} {i : Ink} (h : i ∈ drawings s) : DrawingOf i s := by
  obtain ⟨series, hs, h⟩ := List.mem_flatMap.1 h
  obtain ⟨p, hp, h⟩ := List.mem_flatMap.1 h
  obtain ⟨c, hc, h⟩ := List.mem_flatMap.1 h
  refine ⟨p, ⟨series, hs, hp⟩, .inl ?_⟩
  cases c with
  | ink o =>
    obtain rfl := List.mem_singleton.1 h
    exact hc
  | _ => cases h

/-- The coordinates that are shown. -/
private def shownPoints (i : Ink) : List (F32 × F32) :=
  i.inkStrokes.flatMap fun s => s.path.map fun p => (p.x.eval, p.y.eval)

private theorem facts {scale : Nat} {points : List (F32 × F32)}
    (h : (parseSectionBuffer 2 Order.id (file scale) []).toOption.map
      (fun s => (drawings s).map shownPoints) = some [points]) :
    ∃ s i, parseSectionBuffer 2 Order.id (file scale) [] = .ok s ∧ DrawingOf i s ∧
      shownPoints i = points := by
  obtain ⟨s, hs, h⟩ := Option.map_eq_some_iff.1 h
  cases hd : drawings s with
  | nil => rw [hd] at h; cases h
  | cons i is =>
    rw [hd] at h
    injection h with h
    exact ⟨s, i, toOption_some hs, drawings_shown (by rw [hd]; exact .head _), h⟩

private theorem not_finite {i : Ink} {q : F32 × F32} {qs : List (F32 × F32)}
    (h : shownPoints i = q :: qs) (hq : ¬ Finite q.1) : ¬ FiniteStrokes i.inkStrokes := by
  intro hf
  have : q ∈ shownPoints i := by rw [h]; exact .head _
  obtain ⟨stroke, hs, h⟩ := List.mem_flatMap.1 this
  obtain ⟨p, hp, rfl⟩ := List.mem_map.1 h
  exact hq (hf stroke hs p hp).1

/-- **Refuted**: a drawing whose scale is NaN is shown, with all coordinates NaN. -/
theorem C65_nan_refuted : ∃ data s i, parseSectionBuffer 2 Order.id data [] = .ok s ∧ DrawingOf i s ∧
    (∃ stroke ∈ i.inkStrokes, ∃ p ∈ stroke.path, NaN p.x.eval ∧ NaN p.y.eval) ∧
    ¬ FiniteStrokes i.inkStrokes := by
  obtain ⟨s, i, hs, hi, hp⟩ := facts (scale := 0x7FC00000)
    (points := [(0x7FC00000, 0x7FC00000), (0x7FC00000, 0x7FC00000)]) (by decide +kernel)
  refine ⟨_, s, i, hs, hi, ?_, not_finite hp (by decide)⟩
  have : ((0x7FC00000, 0x7FC00000) : F32 × F32) ∈ shownPoints i := by rw [hp]; exact .head _
  obtain ⟨stroke, hs, h⟩ := List.mem_flatMap.1 this
  obtain ⟨p, hp, he⟩ := List.mem_map.1 h
  injection he with e1 e2
  refine ⟨stroke, hs, p, hp, ?_, ?_⟩
  · rw [e1]; decide
  · rw [e2]; decide

/-- **Refuted**: a finite scale, 2^127, gives infinite coordinates. -/
theorem C65_overflow_refuted : ∃ data s i, Finite 0x7F000000 ∧ data = file 0x7F000000 ∧
    parseSectionBuffer 2 Order.id data [] = .ok s ∧ DrawingOf i s ∧ ¬ FiniteStrokes i.inkStrokes := by
  obtain ⟨s, i, hs, hi, hp⟩ := facts (scale := 0x7F000000)
    (points := [(0x7F800000, 0x7F000000), (0x7F800000, 0x7F800000)]) (by decide +kernel)
  exact ⟨_, s, i, by decide, rfl, hs, hi, not_finite hp (by decide)⟩

/-! ### What holds -/

private theorem path_small {v : PropertyValue} {xs : List Int} (h : Value.path v xs) :
    ∀ x ∈ xs, x.natAbs ≤ 2 ^ 63 := by
  obtain ⟨data, k, rest, ns, -, -, hn, -, rfl⟩ := h
  intro x hx
  obtain ⟨n, hm, rfl⟩ := List.mem_map.1 hx
  have : n < 2 ^ 64 := by
    clear hx
    induction hn with
    | nil => cases hm
    | cons h _ ih =>
      cases hm with
      | head =>
        obtain ⟨_, _, _, e, _⟩ := h
        rw [e]
        exact Nat.mod_lt _ (by decide)
      | tail _ hm => exact ih hm
  unfold unzigzag
  split <;> omega

private theorem far {a b : Int} {c d : Nat} (h1 : a.natAbs ≤ d) (h2 : b.natAbs ≤ d) (h : d + d < c)
    (hl : c ≤ (b - a).natAbs) : False := by
  omega

private theorem near {a b v : Int} {c d : Nat} (h1 : a.natAbs ≤ d) (h2 : b.natAbs ≤ d)
    (h : 4 * d ≤ c) (hl : (b - a - v).natAbs ≤ (b - a).natAbs) : v.natAbs ≤ c := by
  omega

private theorem box_finite {sx sy : Option F32} (hx : Moderate sx) (hy : Moderate sy) {l t r b : Nat}
    (hl : l < 2 ^ 32) (ht : t < 2 ^ 32) (hr : r < 2 ^ 32) (hb : b < 2 ^ 32) :
    FiniteBox (some (Spec.Document.box sx sy (l, t, r, b))) := by
  have coordinate : ∀ {s : Option F32} {n : Nat}, Moderate s → n < 2 ^ 32 →
      Finite (F32e.mul (.ofInt n) (scale s)).eval := by
    intro s n hs hn
    rw [eval_box]
    exact mul_finite hs (ofInt_finite (by omega)) (ofInt_size (by omega))
  have difference : ∀ {s : Option F32} {n m : Nat}, Moderate s → n < 2 ^ 32 → m < 2 ^ 32 →
      Finite (F32e.mul (.sub (.ofInt m) (.ofInt n)) (scale s)).eval := by
    intro s n m hs hn hm
    have fn : Finite (ofInt n) := ofInt_finite (by omega)
    have fm : Finite (ofInt m) := ofInt_finite (by omega)
    have small : ∀ n : Nat, n < 2 ^ 32 → (value (ofInt n)).natAbs ≤ 2 ^ (32 + 149) := by
      intro n hn
      rw [value_eq, units_natAbs, ofInt, rest_withSign (round_le ..)]
      have h : (n : Int).natAbs * 2 ^ 149 ≤ 2 ^ 32 * 2 ^ 149 := Nat.mul_le_mul_right _ (by omega)
      have := size_le (round_mono (s := 0) h)
      have e : size (F32.round (2 ^ 32 * 2 ^ 149) 0) = 2 ^ (32 + 149) := by decide +kernel
      omega
    have h1 := small n hn
    have h2 := small m hm
    have hs' := sub_rounded fm fn
    have c1 : 2 ^ (32 + 149) + 2 ^ (32 + 149) < (2 ^ 25 - 1) * 2 ^ (252 + 0) := by decide +kernel
    have c2 : 4 * 2 ^ (32 + 149) ≤ 2 ^ (63 + 149) := by decide +kernel
    have fs : Finite (sub (ofInt m) (ofInt n)) := by
      rcases hs' with ⟨_, h, _⟩ | ⟨hl, _, _⟩
      · exact h
      · exact (far h1 h2 c1 hl).elim
    have vs : (value (sub (ofInt m) (ofInt n))).natAbs ≤ 2 ^ (63 + 149) := by
      have f2 : Finite (ofInt 0) := ofInt_finite (by omega)
      have v2 : value (ofInt 0) = 0 := by decide +kernel
      rcases hs' with ⟨_, _, h⟩ | ⟨hl, _, _⟩
      · have := (h _ f2).1
        unfold distance at this
        rw [v2, Int.zero_mul, Int.pow_zero, Int.mul_one, Int.sub_zero] at this
        exact near h1 h2 c2 this
      · exact (far h1 h2 c1 hl).elim
    show Finite (mul (sub (ofInt m) (ofInt n)) (s.getD 0x3F800000))
    rw [mul_comm]
    exact mul_finite hs fs vs
  intro b' hb'
  cases hb'
  exact ⟨coordinate hx hl, coordinate hy ht, difference hx hl hr, difference hy ht hb⟩

/-- The strokes and the box of ink data with moderate scales. -/
private theorem data_finite {space : ObjectSpace} {id : ExGuid} {sx sy : Option F32}
    {strokes : List InkStroke} {bounds : Option InkBoundingBox} (hx : Moderate sx) (hy : Moderate sy)
    (h : Spec.Document.InkDataIs space id sx sy strokes bounds) :
    FiniteStrokes strokes ∧ FiniteBox bounds := by
  obtain ⟨o, n, -, hn, hs, rfl⟩ := h
  constructor
  · intro stroke hm p hp
    obtain ⟨_, _, _, d, _, props, points, -, hd, -, -, ⟨i, j, -, -, hlen, hpts⟩, rfl⟩ :=
      each_mem hs hm
    obtain ⟨v, -, hv⟩ := hd.path
    have small := path_small hv
    obtain ⟨k, hk⟩ := List.mem_iff_getElem?.1 hp
    have hlt : k < d.path.length / props.dimensions.length := by
      rw [← hlen]
      exact (List.getElem?_eq_some_iff.1 hk).1
    obtain ⟨x, y, h1, h2, h3⟩ := hpts k hlt
    change points[k]? = some p at hk
    rw [hk] at h3
    cases h3
    have a := small x (List.mem_of_getElem? h1)
    have b := small y (List.mem_of_getElem? h2)
    exact ⟨mul_finite hx (ofInt_finite (by omega)) (ofInt_size a),
      mul_finite hy (ofInt_finite (by omega)) (ofInt_size b)⟩
  · rcases hn.boundingBox with ⟨_, h⟩ | ⟨v, _, ns, ⟨_, _, _, hlt⟩, h⟩
    · rw [h]
      intro b hb
      cases hb
    · rcases h with ⟨a, b, c, d, rfl, h⟩ | ⟨_, h⟩
      · rw [h]
        exact box_finite hx hy (hlt a (by simp)) (hlt b (by simp)) (hlt c (by simp)) (hlt d (by simp))
      · rw [h]
        intro b hb
        cases hb

/-- **What holds**: every drawing of a section has finite coordinates if its stored scale is absent or
a number of at most 2^64. -/
theorem C65_moderate_partial (fuel : Nat) (ord : Order) (data : Bytes) (name : Text) (s : Section)
    (h : parseSectionBuffer fuel ord data name = .ok s) (i : Ink) (hi : DrawingOf i s) :
    ∃ store space id o, readStore ord data = .ok store ∧ StoredIn store space id o ∧
      Spec.Document.InkIs space id i ∧
      ((∀ v, o.props.properties.get Word.inkScalingX = some (.u32 v) → Moderate (some v)) →
        FiniteStrokes i.inkStrokes ∧ FiniteBox i.boundingBox) := by
  obtain ⟨store, hr, -, hs⟩ := (C43_buffer ord data name s).1 ⟨fuel, h⟩
  obtain ⟨p, hp, hc⟩ := hi
  obtain ⟨cell, space, hsp, hpage⟩ := page_space hs hp
  have ⟨id, hid⟩ : ∃ id, Spec.Document.InkIs space id i := by
    rcases hc with hc | hc
    · obtain ⟨id, hc⟩ := pageContent_object hpage hc
      cases hc with
      | ink h => exact ⟨id, h⟩
    · obtain ⟨id, hc⟩ := content_object hpage hc
      cases hc with
      | ink h => exact ⟨id, h⟩
  obtain ⟨o, n, h1, h2, -, -, h3⟩ := _root_.id hid
  refine ⟨store, space, id, o, hr, ⟨⟨cell, hsp⟩, h1⟩, hid, fun hm => ?_⟩
  have moderate : ∀ {r}, Optional o.props.properties Word.inkScalingX Value.f32 r → Moderate r := by
    intro r hr
    rcases hr with ⟨_, rfl⟩ | ⟨v, a, hv, ha, rfl⟩
    · trivial
    · cases ha
      exact hm _ hv
  rcases h3 with ⟨-, h4, h5⟩ | ⟨d, -, h4⟩
  · rw [h4, h5]
    exact ⟨fun _ h => (List.not_mem_nil h).elim, fun _ h => nomatch h⟩
  · exact data_finite (moderate h2.inkScalingX) (moderate h2.inkScalingY) h4

/-- Drawings in text have no scale: their strokes are always finite. -/
theorem C65_in_text_partial (space : ObjectSpace) (id : ExGuid) (strokes : List InkStroke)
    (bounds : Option InkBoundingBox) (h : parseInkData space id none none = .ok (strokes, bounds)) :
    FiniteStrokes strokes ∧ FiniteBox bounds :=
  data_finite (sx := none) (sy := none) trivial trivial (inkData_iff.1 h)

/-- The drawing with the scale 2.0. -/
example : Moderate (some 0x40000000) ∧ ∃ s i, parseSectionBuffer 2 Order.id (file 0x40000000) [] = .ok s ∧
    DrawingOf i s ∧ shownPoints i = [(0x40C00000, 0x40000000), (0x41200000, 0x41600000)] :=
  ⟨⟨by decide, by decide +kernel⟩, facts (by decide +kernel)⟩

#print axioms C65_nan_refuted
#print axioms C65_overflow_refuted
#print axioms C65_moderate_partial
#print axioms C65_in_text_partial

end OneNote
