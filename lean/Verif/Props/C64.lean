/-
C64: Ink coordinates are the stored numbers, correctly rounded.
-/
import Verif.Lemmas.InkFloat
import Verif.Lemmas.Leaves
import Verif.Props.C29

namespace OneNote

open Spec Spec.Ink Spec.Float F32

/-- Every coordinate of every point is the stored number, times the scale of the drawing, correctly
rounded. -/
theorem C64_points (data : List Int) (dims : List InkDimension) (sx sy : Option F32)
    (points : List InkPoint) (h : parseInkPath data dims sx sy = .ok points) (i j : Nat)
    (hx : FirstAt dims xId i) (hy : FirstAt dims yId j) :
    points.length = data.length / dims.length ∧
    ∀ k, k < data.length / dims.length →
      ∃ x y p, data[data.length / dims.length * i + k]? = some x ∧
        data[data.length / dims.length * j + k]? = some y ∧ points[k]? = some p ∧
        Shown sx x p.x.eval ∧ Shown sy y p.y.eval := by
  obtain ⟨points', h', hl, hp⟩ := C29_points data dims sx sy i j hx hy
  rw [h] at h'
  cases h'
  refine ⟨hl, fun k hk => ?_⟩
  obtain ⟨x, y, h1, h2, h3⟩ := hp k hk
  exact ⟨x, y, _, h1, h2, h3, shown sx x, shown sy y⟩

/-- What a coordinate is shown as is determined by the stored number and the scale. -/
theorem C64_determined (n : Int) (k : Nat) (r r' : F32) (h : Rounded n k r) (h' : Rounded n k r') :
    value r = value r' :=
  rounded_unique h h'

/-- Numbers up to 2^24 are shown exactly when there is no scale. With a scale, the exact product is
rounded once. -/
theorem C64_exact (x : Int) (r : F32) (hx : x.natAbs ≤ 2 ^ 24) :
    (Shown none x r → value r = whole x) ∧
    (∀ s, Finite s → Shown (some s) x r → Rounded (value s * x) 0 r) := by
  constructor
  · intro h
    rw [rounded_unique h (ofInt_rounded x), ofInt_exact hx]
  · rintro s hs ⟨f, hf, h, _⟩
    have hfin : Finite f := by
      rcases hf with ⟨_, h, _⟩ | ⟨hl, _, _⟩
      · exact h
      · exfalso
        unfold whole at hl
        rw [Int.natAbs_mul, show (2 ^ 149 : Int).natAbs = 2 ^ 149 by decide +kernel] at hl
        omega
    have h := h hs hfin
    have e : value f = whole x := by rw [rounded_unique hf (ofInt_rounded x), ofInt_exact hx]
    rw [e, whole, ← Int.mul_assoc] at h
    exact rounded_unscale h

/-- Rounding does not change the order of two coordinates: of the points of a stroke, the one with
the larger stored number is never shown to the left of or above the other. (The infinities count as
± 2^128 here.) -/
theorem C64_order (bytes : Bytes) (data : List Int) (dims : List InkDimension) (sx sy : Option F32)
    (points : List InkPoint) (hd : MultiByte.decodeSigned bytes = .ok data)
    (h : parseInkPath data dims sx sy = .ok points) (i j : Nat)
    (hx : FirstAt dims xId i) (hy : FirstAt dims yId j) (k k' : Nat) (p p' : InkPoint)
    (hp : points[k]? = some p) (hp' : points[k']? = some p') :
    (∀ x x', data[data.length / dims.length * i + k]? = some x →
      data[data.length / dims.length * i + k']? = some x' → Positive sx → x ≤ x' →
      value p.x.eval ≤ value p'.x.eval) ∧
    (∀ y y', data[data.length / dims.length * j + k]? = some y →
      data[data.length / dims.length * j + k']? = some y' → Positive sy → y ≤ y' →
      value p.y.eval ≤ value p'.y.eval) := by
  obtain ⟨points', h', hl, hc⟩ := C29_points data dims sx sy i j hx hy
  rw [h] at h'
  cases h'
  have small : ∀ {n : Nat} {x : Int}, data[n]? = some x → x.natAbs ≤ 2 ^ 64 := by
    intro n x hn
    have := MultiByte.decodeSigned_le hd x (List.mem_of_getElem? hn)
    omega
  have hk : k < data.length / dims.length := by
    rw [List.getElem?_eq_some_iff] at hp
    have := hp.1
    omega
  have hk' : k' < data.length / dims.length := by
    rw [List.getElem?_eq_some_iff] at hp'
    have := hp'.1
    omega
  obtain ⟨x, y, h1, h2, h3⟩ := hc k hk
  obtain ⟨x', y', h1', h2', h3'⟩ := hc k' hk'
  rw [hp] at h3
  rw [hp'] at h3'
  cases h3
  cases h3'
  constructor
  · intro a a' ha ha' hs hle
    rw [h1] at ha
    rw [h1'] at ha'
    cases ha
    cases ha'
    exact shown_mono hs (small h1) (small h1') hle
  · intro a a' ha ha' hs hle
    rw [h2] at ha
    rw [h2'] at ha'
    cases ha
    cases ha'
    exact shown_mono hs (small h2) (small h2') hle

/-- The box of a drawing: its left and top limits are shown as coordinates are; no coordinate that is
stored as at least the limit is shown below it. -/
theorem C64_box (sx sy : Option F32) (l t r b : Nat) (hl : l < 2 ^ 32) (ht : t < 2 ^ 32) :
    Shown sx l (inkBoundingBox sx sy (l, t, r, b)).x.eval ∧
    Shown sy t (inkBoundingBox sx sy (l, t, r, b)).y.eval ∧
    (∀ (x : Int) (p : F32e), x.natAbs ≤ 2 ^ 63 → p = .mul (scale sx) (.ofInt x) → Positive sx → l ≤ x →
      value (inkBoundingBox sx sy (l, t, r, b)).x.eval ≤ value p.eval) ∧
    (∀ (y : Int) (p : F32e), y.natAbs ≤ 2 ^ 63 → p = .mul (scale sy) (.ofInt y) → Positive sy → t ≤ y →
      value (inkBoundingBox sx sy (l, t, r, b)).y.eval ≤ value p.eval) := by
  have ex : (inkBoundingBox sx sy (l, t, r, b)).x.eval = mul (sx.getD 0x3F800000) (ofInt l) := by
    rw [← eval_box, ← scaleOf_eq]
    rfl
  have ey : (inkBoundingBox sx sy (l, t, r, b)).y.eval = mul (sy.getD 0x3F800000) (ofInt t) := by
    rw [← eval_box, ← scaleOf_eq]
    rfl
  rw [ex, ey]
  refine ⟨shown sx l, shown sy t, ?_, ?_⟩
  · rintro x p hx rfl hs hle
    exact shown_mono hs (by omega) (by omega) hle
  · rintro x p hx rfl hs hle
    exact shown_mono hs (by omega) (by omega) hle

/-- Without a scale, the width and the height of a box with limits up to 2^24 are exactly the
differences of the limits. -/
theorem C64_box_size (l t r b : Nat) (hl : l ≤ 2 ^ 24) (ht : t ≤ 2 ^ 24) (hr : r ≤ 2 ^ 24)
    (hb : b ≤ 2 ^ 24) :
    value (inkBoundingBox none none (l, t, r, b)).width.eval = whole (r - l) ∧
    value (inkBoundingBox none none (l, t, r, b)).height.eval = whole (b - t) := by
  have key : ∀ a c : Nat, a ≤ 2 ^ 24 → c ≤ 2 ^ 24 →
      value (mul (sub (ofInt c) (ofInt a)) 0x3F800000) = whole ((c : Int) - a) := by
    intro a c ha hc
    have fa : Finite (ofInt a) := ofInt_finite (by omega)
    have fc : Finite (ofInt c) := ofInt_finite (by omega)
    have hs := sub_rounded fc fa
    rw [ofInt_exact (i := a) (by omega), ofInt_exact (i := c) (by omega)] at hs
    have hd : whole c - whole a = whole ((c : Int) - a) := by unfold whole; omega
    rw [hd] at hs
    have ve : value (sub (ofInt c) (ofInt a)) = whole ((c : Int) - a) := by
      rw [rounded_unique hs (ofInt_rounded _), ofInt_exact (by omega)]
    have fs : Finite (sub (ofInt c) (ofInt a)) := by
      rcases hs with ⟨_, h, _⟩ | ⟨hl, _, _⟩
      · exact h
      · exfalso
        unfold whole at hl
        rw [Int.natAbs_mul, show (2 ^ 149 : Int).natAbs = 2 ^ 149 by decide +kernel] at hl
        omega
    have hm := mul_rounded fs one_finite
    rw [ve, show value 0x3F800000 = 2 ^ 149 by decide +kernel] at hm
    rw [rounded_unique (rounded_unscale hm) (ofInt_rounded _), ofInt_exact (by omega)]
  exact ⟨key l r hl hr, key t b ht hb⟩

/-- The width of every box is the difference of the two limits, as f32 numbers, times the scale; the
limits, the difference and the product are correctly rounded. In the same way the height. -/
theorem C64_box_extent (sx sy : Option F32) (l t r b : Nat) (hl : l < 2 ^ 32) (ht : t < 2 ^ 32)
    (hr : r < 2 ^ 32) (hb : b < 2 ^ 32) :
    (∃ f g d, Rounded (whole l) 0 f ∧ Rounded (whole r) 0 g ∧ Rounded (value g - value f) 0 d ∧
      Product d (sx.getD 0x3F800000) (inkBoundingBox sx sy (l, t, r, b)).width.eval) ∧
    (∃ f g d, Rounded (whole t) 0 f ∧ Rounded (whole b) 0 g ∧ Rounded (value g - value f) 0 d ∧
      Product d (sy.getD 0x3F800000) (inkBoundingBox sx sy (l, t, r, b)).height.eval) := by
  have key : ∀ {n : Nat}, n < 2 ^ 32 → Finite (ofInt n) := fun h => ofInt_finite (by omega)
  have ew : (inkBoundingBox sx sy (l, t, r, b)).width.eval
      = mul (sub (ofInt r) (ofInt l)) (sx.getD 0x3F800000) := by cases sx <;> rfl
  have eh : (inkBoundingBox sx sy (l, t, r, b)).height.eval
      = mul (sub (ofInt b) (ofInt t)) (sy.getD 0x3F800000) := by cases sy <;> rfl
  rw [ew, eh]
  exact ⟨⟨_, _, _, ofInt_rounded l, ofInt_rounded r, sub_rounded (key hr) (key hl), product _ _⟩,
    ⟨_, _, _, ofInt_rounded t, ofInt_rounded b, sub_rounded (key hb) (key ht), product _ _⟩⟩

/-- The bound of `C64_exact` cannot be raised: 2^24 + 1 is shown as 2^24, so two points at different
places are shown at the same place. -/
theorem C64_bound_is_sharp :
    ∃ points p p', parseInkPath [2 ^ 24, 2 ^ 24 + 1, 7, 7] [⟨xId, 0, 9⟩, ⟨yId, 0, 9⟩] none none
        = .ok points ∧
      points = [p, p'] ∧ p.x.eval = p'.x.eval ∧ value p'.x.eval ≠ whole (2 ^ 24 + 1) :=
  ⟨_, _, _, rfl, rfl, by decide +kernel, by decide +kernel⟩

/-- Three points, scaled by 2.0 and 0.5. -/
example :
    MultiByte.decodeSigned [0x0C, 0x06, 0x0B, 0x80, 0x01, 0x02, 0x02, 0x05] = .ok [3, -5, 64, 1, 1, -2] ∧
    ∃ points, parseInkPath [3, -5, 64, 1, 1, -2] [⟨xId, 0, 9⟩, ⟨yId, 0, 9⟩] (some 0x40000000)
        (some 0x3F000000) = .ok points ∧
      points.map (fun p => (p.x.eval, p.y.eval))
        = [(0x40C00000, 0x3F000000), (0xC1200000, 0x3F000000), (0x43000000, 0xBF800000)] ∧
      Positive (some 0x40000000) ∧ Positive (some 0x3F000000) := by
  refine ⟨by decide +kernel, _, rfl, by decide +kernel, ⟨by decide, by decide⟩, ⟨by decide, by decide⟩⟩

/-- A number that cannot be shown exactly. -/
example : value (ofInt 123456789) = whole 123456792 ∧ Rounded (whole 123456789) 0 (ofInt 123456789) :=
  ⟨by decide +kernel, ofInt_rounded _⟩

/-- A box. -/
example : value (inkBoundingBox none none (10, 20, 110, 25)).width.eval = whole 100 :=
  (C64_box_size 10 20 110 25 (by omega) (by omega) (by omega) (by omega)).1

#print axioms C64_points
#print axioms C64_determined
#print axioms C64_exact
#print axioms C64_order
#print axioms C64_box
#print axioms C64_box_size
#print axioms C64_box_extent
#print axioms C64_bound_is_sharp

end OneNote
