/-
C29: Ink strokes split into coordinates without loss or overrun.
-/
import Verif.Lemmas.Ink

namespace OneNote

open Spec Spec.Ink

/-- With `n` numbers and `d` dimensions, x first at `i` and y first at `j`, there are `n / d` points
and point `k` is made of number `k` of block `i` and number `k` of block `j`. -/
theorem C29_points (data : List Int) (dims : List InkDimension) (sx sy : Option F32) (i j : Nat)
    (hx : FirstAt dims xId i) (hy : FirstAt dims yId j) :
    ∃ points, parseInkPath data dims sx sy = .ok points ∧
      points.length = data.length / dims.length ∧
      ∀ k, k < data.length / dims.length →
        ∃ x y, data[data.length / dims.length * i + k]? = some x ∧
          data[data.length / dims.length * j + k]? = some y ∧
          points[k]? = some ⟨.mul (scale sx) (.ofInt x), .mul (scale sy) (.ofInt y)⟩ := by
  have hi : i < dims.length := by
    obtain ⟨⟨d, hd, _⟩, _⟩ := hx
    rw [List.getElem?_eq_some_iff] at hd
    exact hd.1
  have hj : j < dims.length := by
    obtain ⟨⟨d, hd, _⟩, _⟩ := hy
    rw [List.getElem?_eq_some_iff] at hd
    exact hd.1
  have fi := block_fits (n := data.length) hi
  have fj := block_fits (n := data.length) hj
  unfold parseInkPath
  rw [show findDimension dims dimensionX = .ok i from findDimension_first hx,
    show findDimension dims dimensionY = .ok j from findDimension_first hy]
  simp only [bind, Except.bind, slice, pure, Except.pure]
  rw [if_neg (by omega), if_pos fi]
  simp only [if_pos fj]
  refine ⟨_, rfl, ?_, ?_⟩
  · simp only [List.length_map, List.length_zip, List.length_take, List.length_drop]
    omega
  · intro k hk
    refine ⟨data[data.length / dims.length * i + k], data[data.length / dims.length * j + k],
      List.getElem?_eq_getElem (by omega), List.getElem?_eq_getElem (by omega), ?_⟩
    have hz : (((data.drop (data.length / dims.length * i)).take (data.length / dims.length)).zip
        ((data.drop (data.length / dims.length * j)).take (data.length / dims.length))
        )[k]? = some (data[data.length / dims.length * i + k],
          data[data.length / dims.length * j + k]) := by
      rw [List.getElem?_zip_eq_some]
      constructor
      · rw [List.getElem?_take_of_lt hk, List.getElem?_drop, List.getElem?_eq_getElem (by omega)]
      · rw [List.getElem?_take_of_lt hk, List.getElem?_drop, List.getElem?_eq_getElem (by omega)]
    rw [List.getElem?_map, hz]
    simp only [Option.map_some, scaleOf_eq]

/-- A stroke without an x or without a y dimension is rejected. -/
theorem C29_missing_dimension (data : List Int) (dims : List InkDimension) (sx sy : Option F32)
    (h : (∀ d ∈ dims, d.id ≠ xId) ∨ (∀ d ∈ dims, d.id ≠ yId)) :
    parseInkPath data dims sx sy = .error .malformedOneNote := by
  by_cases hx : ∀ d ∈ dims, d.id ≠ xId
  · unfold parseInkPath
    rw [show findDimension dims dimensionX = _ from findDimension_none hx]
    rfl
  · have hy := h.resolve_left hx
    unfold parseInkPath
    cases hr : findDimension dims dimensionX with
    | ok a =>
      rw [show findDimension dims dimensionY = _ from findDimension_none hy]
      rfl
    | error e =>
      unfold findDimension at hr
      cases hf : dims.findIdx? fun d => decide (d.id = dimensionX) with
      | some a => rw [hf] at hr; cases hr
      | none => rw [hf] at hr; cases hr; rfl

/-- Whatever the numbers and dimensions are, nothing outside the numbers is accessed. -/
theorem C29_no_overrun (data : List Int) (dims : List InkDimension) (sx sy : Option F32) :
    parseInkPath data dims sx sy ≠ .error .panic := by
  have first : ∀ id, (∃ d ∈ dims, d.id = id) → ∃ i, FirstAt dims id i := by
    rintro id ⟨d, hd, he⟩
    have hs : (dims.findIdx? fun d => decide (d.id = id)).isSome := by
      rw [List.findIdx?_isSome, List.any_eq_true]
      exact ⟨d, hd, by simpa using he⟩
    obtain ⟨i, hi⟩ := Option.isSome_iff_exists.mp hs
    rw [List.findIdx?_eq_some_iff_getElem] at hi
    obtain ⟨hlt, hp, hn⟩ := hi
    refine ⟨i, ⟨dims[i], List.getElem?_eq_getElem hlt, by simpa using hp⟩, ?_⟩
    intro j hj d hd
    rw [List.getElem?_eq_getElem (by omega)] at hd
    have := hn j hj
    cases hd
    simpa using this
  by_cases hx : ∀ d ∈ dims, d.id ≠ xId
  · rw [C29_missing_dimension data dims sx sy (.inl hx)]
    simp
  · by_cases hy : ∀ d ∈ dims, d.id ≠ yId
    · rw [C29_missing_dimension data dims sx sy (.inr hy)]
      simp
    · simp only [Classical.not_forall, Classical.not_not] at hx hy
      obtain ⟨d, hd, he⟩ := hx
      obtain ⟨d', hd', he'⟩ := hy
      obtain ⟨i, hi⟩ := first _ ⟨d, hd, he⟩
      obtain ⟨j, hj⟩ := first _ ⟨d', hd', he'⟩
      obtain ⟨points, h, _⟩ := C29_points data dims sx sy i j hi hj
      rw [h]
      simp

/-- The dimensions property holds one 32-byte record per dimension; an incomplete record at the end
is ignored. -/
theorem C29_dimensions (id : PropertyType) (o : Object) (ds : List (InkDimension × Bytes))
    (tail : Bytes)
    (hd : ∀ e ∈ ds, e.2.length = 8 ∧ (-2 ^ 31 ≤ e.1.limitLower ∧ e.1.limitLower < 2 ^ 31) ∧
      (-2 ^ 31 ≤ e.1.limitUpper ∧ e.1.limitUpper < 2 ^ 31))
    (ht : tail.length < 32)
    (h : o.props.get id
      = some (.vec ((ds.map fun e => dimension e.1 e.2).flatten ++ tail))) :
    InkDimension.parse id o = .ok (ds.map Prod.fst) := by
  have hlen : ∀ e ∈ ds, (dimension e.1 e.2).length = 32 := by
    intro e he
    simp only [dimension, List.length_append, guid, List.length_cons, List.length_nil, leBytes_length,
      (hd e he).1]
  have hflat : (ds.map fun e => dimension e.1 e.2).flatten.length = 32 * ds.length := by
    clear h hd
    induction ds with
    | nil => rfl
    | cons e ds ih =>
      rw [List.map_cons, List.flatten_cons, List.length_append, hlen e (List.mem_cons_self ..),
        ih (fun x hx => hlen x (List.mem_cons_of_mem _ hx)), List.length_cons]
      omega
  have hchunks : chunksOf 32 ds.length ((ds.map fun e => dimension e.1 e.2).flatten ++ tail)
      = ds.map fun e => dimension e.1 e.2 := by
    clear h hd hflat
    induction ds with
    | nil => rfl
    | cons e ds ih =>
      have hl := hlen e (List.mem_cons_self ..)
      rw [List.map_cons, List.flatten_cons, List.length_cons, chunksOf, List.append_assoc,
        List.take_left' hl, List.drop_left' hl, ih (fun x hx => hlen x (List.mem_cons_of_mem _ hx))]
  unfold InkDimension.parse
  rw [propAs_some (to := PropertyValue.toVec) h rfl]
  show (chunksOf 32 (_ / 32) _).mapM _ = _
  rw [List.length_append, hflat, show (32 * ds.length + tail.length) / 32 = ds.length by omega, hchunks]
  clear h hflat hchunks hlen
  induction ds with
  | nil => rfl
  | cons e ds ih =>
    have he := hd e (List.mem_cons_self ..)
    rw [List.map_cons, List.mapM_cons, entry_dimension he.2.1 he.2.2,
      ih (fun x hx => hd x (List.mem_cons_of_mem _ hx))]
    rfl

/-- Seven numbers in three dimensions, y before x: two points. -/
example : FirstAt [⟨yId, 0, 9⟩, ⟨xId, 0, 9⟩, ⟨default, 0, 9⟩] xId 1 ∧
    FirstAt [⟨yId, 0, 9⟩, ⟨xId, 0, 9⟩, ⟨default, 0, 9⟩] yId 0 ∧
    parseInkPath [1, 2, 30, 40, 500, 600, 7] [⟨yId, 0, 9⟩, ⟨xId, 0, 9⟩, ⟨default, 0, 9⟩] none none
      = .ok [⟨.mul .one (.ofInt 30), .mul .one (.ofInt 1)⟩,
          ⟨.mul .one (.ofInt 40), .mul .one (.ofInt 2)⟩] := by
  refine ⟨⟨⟨_, rfl, rfl⟩, ?_⟩, ⟨⟨_, rfl, rfl⟩, by intro j hj; omega⟩, by decide +kernel⟩
  intro j hj d hd
  have : j = 0 := by omega
  subst this
  cases hd
  decide

/-- Only an x dimension. -/
example : parseInkPath [1, 2] [⟨xId, 0, 9⟩] none none = .error .malformedOneNote :=
  C29_missing_dimension _ _ _ _ (.inr (by decide))

example : dimension ⟨xId, -5, 9⟩ [1, 2, 3, 4, 5, 6, 7, 8] =
    [0x8F, 0x6A, 0x8A, 0x59, 0xC0, 0x52, 0xA0, 0x4B, 0x93, 0xAF, 0xAF, 0x35, 0x74, 0x11, 0xA5, 0x61,
      0xFB, 0xFF, 0xFF, 0xFF, 9, 0, 0, 0, 1, 2, 3, 4, 5, 6, 7, 8] := by decide +kernel

#print axioms C29_points
#print axioms C29_missing_dimension
#print axioms C29_no_overrun
#print axioms C29_dimensions

end OneNote
