/-
C99: No arithmetic overflows.
-/
import Verif.Spec.SampleFile
import Verif.Lemmas.Checked
import Verif.Lemmas.Terminates

namespace OneNote

open Spec Spec.Arithmetic Spec.StoreContents

/-- Reading the container: nothing overflows, on any input. -/
theorem C99_container (data : Bytes) : Checked.parse data = Packaging.parse data := Checked.parse_eq data

/-- Numbers of drawings: nothing overflows, on any input that fits into memory, with a `usize` of 32 bits
or more. -/
theorem C99_numbers (w : Nat) (hw : 32 ≤ w) (data : Bytes) (hd : data.length < 2 ^ w) :
    Checked.decodeSigned w data = MultiByte.decodeSigned data := Checked.decodeSigned_eq hw hd

/-- Colours: nothing overflows. -/
theorem C99_colour (value : Nat) : Checked.color value = .ok (Color.ofValue value) := by
  have h : leByte value 3 ≤ 255 := by
    unfold leByte
    exact Nat.and_le_right
  unfold Checked.color
  rw [Checked.sub_ok h]
  rfl

/-- The paths of drawings: nothing overflows. -/
theorem C99_path (w : Nat) (data : List Int) (hd : data.length < 2 ^ w) (dims : List InkDimension)
    (scaleX scaleY : Option F32) :
    Checked.parseInkPath w data dims scaleX scaleY = parseInkPath data dims scaleX scaleY :=
  Checked.parseInkPath_eq hd dims scaleX scaleY

/-- Objects embedded in a text: nothing overflows. -/
theorem C99_embedded (w : Nat) (space : ObjectSpace) (refs : List ExGuid)
    (ds : List (Option Nat × EmbeddedInkData)) (hd : ds.length < 2 ^ w) :
    Checked.parseEmbeddedObjects w space refs 0 0 ds = parseEmbeddedObjects space refs 0 0 ds :=
  Checked.parseEmbeddedObjects_eq space refs ds 0 0 (by omega) (by omega)

/-- Counting the identifiers of an object: nothing overflows. -/
theorem C99_identifiers (data : Bytes) (hd : data.length < 2 ^ 32) (props : ObjectPropSet)
    (h : ObjectPropSet.parse.run data = .ok props) (cells : List CellId) :
    Checked.cellsDiffer 64 props cells =
      .ok (decide (props.contextIds.length + props.objectSpaceIds.length ≠ cells.length)) :=
  Checked.cellsDiffer_eq hd (props_run.1 h) cells

/-- References: for every file of less than 4 GB, every object that the parser looks at and every
property, counting the references in front of it and looking them up does not overflow in a 64-bit
build. -/
theorem C99_references (ord : Order) (data : Bytes) (hd : data.length < 2 ^ 32) (store : Store)
    (h : readStore ord data = .ok store) (o : Object) (ho : ObjectOf store o) (t : PropertyType) :
    Checked.objectReference 64 t o = ObjectReference.parse t o ∧
    Checked.objectReferences 64 t o = ObjectReference.parseVec t o ∧
    Checked.spaceReferences 64 t o = ObjectSpaceReference.parseVec t o ∧
    ∀ id sets, o.props.get t = some (.propertyValues id sets) → ∀ set ∈ sets,
      Checked.nestedObject 64 t o id set = nestedObject t o id set := by
  have hs := Checked.object_small hd (readStore_sound h) ho
  exact ⟨Checked.objectReference_eq hs t, Checked.objectReferences_eq hs t, Checked.spaceReferences_eq hs t,
    fun id sets hg set hm => Checked.nestedObject_eq hs hg hm⟩

/-- What counts as an overflow: the operations panic exactly when the result, or the number of bits to shift
by, does not fit, and otherwise give the exact result (a shift drops the bits that leave the word). -/
theorem C99_operations :
    (∀ w n r, Checked.fit w n = .ok r ↔ n < 2 ^ w ∧ r = n) ∧
    (∀ w n, Checked.fit w n = .error .panic ↔ 2 ^ w ≤ n) ∧
    (∀ a b r, Checked.sub a b = .ok r ↔ r + b = a) ∧
    (∀ a b, Checked.sub a b = .error .panic ↔ a < b) ∧
    (∀ a n r, Checked.shiftLeft a n = .ok r ↔ n ≤ 63 ∧ r = a * 2 ^ n % 2 ^ 64) ∧
    (∀ a n, Checked.shiftLeft a n = .error .panic ↔ 64 ≤ n) ∧
    (∀ v r, Checked.neg v = .ok r ↔ v ≠ -(2 ^ 63) ∧ r + v = 0) ∧
    (∀ v, Checked.neg v = .error .panic ↔ v = -(2 ^ 63)) := by
  refine ⟨fun w n r => ?_, fun w n => ?_, fun a b r => ?_, fun a b => ?_, fun a n r => ?_, fun a n => ?_,
    fun v r => ?_, fun v => ?_⟩
  · unfold Checked.fit
    split
    · simp only [Except.ok.injEq]
      exact ⟨fun h => ⟨‹_›, h.symm⟩, fun h => h.2.symm⟩
    · exact ⟨fun h => (nomatch h), fun h => absurd h.1 ‹_›⟩
  · unfold Checked.fit
    split <;> simp_all
  · unfold Checked.sub
    split <;> simp <;> omega
  · unfold Checked.sub
    split <;> simp <;> omega
  · unfold Checked.shiftLeft
    rw [Nat.shiftLeft_eq]
    split
    · simp only [Except.ok.injEq]
      exact ⟨fun h => ⟨by omega, h.symm⟩, fun h => h.2.symm⟩
    · exact ⟨fun h => (nomatch h), fun h => by omega⟩
  · unfold Checked.shiftLeft
    split <;> simp <;> omega
  · unfold Checked.neg
    split
    · exact ⟨fun h => (nomatch h), fun h => absurd ‹_› h.1⟩
    · simp only [Except.ok.injEq]
      exact ⟨fun h => ⟨‹_›, by omega⟩, fun h => by omega⟩
  · unfold Checked.neg
    split <;> simp_all

/-! ### Examples -/

/-- A section file with an outline that has two lists of `2 ^ 31` references in front of its children. -/
private def crowded : Bytes :=
  sectionFile none [3001] [objectW 3001 .outlineNode
    [(.lastModifiedTime, .u32 0), (.contentChildNodes, .objectIds (2 ^ 31)),
     (.listNodes, .objectIds (2 ^ 31)), (.elementChildNodes, .objectIds 0),
     (.outlineElementChildLevel, .u8 1), (.rgOutlineIndentDistance, .vec [0, 0, 0, 0])] []]

private def found : Option (Section × Store × Object) := do
  let s ← (parseSectionBuffer 2 Order.id crowded []).toOption
  let store ← (readStore Order.id crowded).toOption
  let space ← store.objectSpace pageCell
  let o ← space.getObject (sx 3001)
  some (s, store, o)

private def panics {α : Type} : Res α → Bool
  | .error .panic => true
  | _ => false

private theorem of_panics {α : Type} {r : Res α} (h : panics r = true) : r = .error .panic := by
  unfold panics at h
  split at h
  · rfl
  · cases h

private theorem facts (h : found.map (fun x => (panics (Checked.objectReferences 32 .elementChildNodes x.2.2),
    (Checked.objectReferences 64 .elementChildNodes x.2.2).toOption)) = some (true, some (some []))) : ∃ s store o, parseSectionBuffer 2 Order.id crowded [] = .ok s ∧
      readStore Order.id crowded = .ok store ∧ ObjectOf store o ∧
      Checked.objectReferences 32 .elementChildNodes o = .error .panic ∧
      Checked.objectReferences 64 .elementChildNodes o = .ok (some []) := by
  obtain ⟨⟨s, store, o⟩, hf, h⟩ := Option.map_eq_some_iff.1 h
  unfold found at hf
  obtain ⟨s', e1, hf⟩ := Option.bind_eq_some_iff.1 hf
  obtain ⟨store', e2, hf⟩ := Option.bind_eq_some_iff.1 hf
  obtain ⟨space, e3, hf⟩ := Option.bind_eq_some_iff.1 hf
  obtain ⟨o', e4, hf⟩ := Option.bind_eq_some_iff.1 hf
  cases hf
  exact ⟨s, store, o, toOption_some e1, toOption_some e2, .space e3 e4,
    of_panics (congrArg Prod.fst h), toOption_some (congrArg Prod.snd h)⟩

/-- With a `usize` of 32 bits it is not so: a small file that a 64-bit build shows as a section makes a
32-bit build with overflow checks panic, when it counts the references in front of a property. -/
theorem C99_narrow_refuted : ∃ data s store o, data.length < 4000 ∧
    parseSectionBuffer 2 Order.id data [] = .ok s ∧ readStore Order.id data = .ok store ∧
    ObjectOf store o ∧ ∃ t, Checked.objectReferences 32 t o = .error .panic := by
  obtain ⟨s, store, o, h1, h2, h3, h4, h5⟩ := facts (by decide +kernel)
  exact ⟨crowded, s, store, o, by decide +kernel, h1, h2, h3, _, h4⟩

/-- The same file, with 64 bits: the references are read. -/
example : ∃ store o, readStore Order.id crowded = .ok store ∧ crowded.length < 2 ^ 32 ∧
    ObjectOf store o ∧ Checked.objectReferences 64 .elementChildNodes o = .ok (some []) := by
  obtain ⟨s, store, o, h1, h2, h3, h4, h5⟩ := facts (by decide +kernel)
  exact ⟨store, o, h2, by decide +kernel, h3, h5⟩

/-- The limits: the largest shift, and the smallest number that can be negated. -/
example : Checked.shiftLeft 3 63 = .ok (2 ^ 63) ∧ Checked.shiftLeft 3 64 = .error .panic ∧
    Checked.neg (1 - 2 ^ 63) = .ok (2 ^ 63 - 1) ∧ Checked.neg (-(2 ^ 63)) = .error .panic ∧
    Checked.fit 32 (2 ^ 32 - 1) = .ok (2 ^ 32 - 1) ∧ Checked.sub 3 4 = .error .panic := by decide +kernel

/-- A number that uses all ten bytes, and a negative one. -/
example : Checked.decodeSigned 64 [4, 0xFF, 0xFF, 0xFF, 0xFF, 0xFF, 0xFF, 0xFF, 0xFF, 0xFF, 1, 3] =
    .ok [-9223372036854775807, -1] := by decide +kernel

#print axioms C99_operations
#print axioms C99_container
#print axioms C99_numbers
#print axioms C99_colour
#print axioms C99_path
#print axioms C99_embedded
#print axioms C99_identifiers
#print axioms C99_references
#print axioms C99_narrow_refuted

end OneNote
