/-
What is read back from a written object.
-/
import Verif.Lemmas.Written
import Verif.Spec.WriteTree

namespace OneNote.Writer

open Spec Spec.Writer Spec.StoreContents

theorem val_enc {v : Val} (h : v.Fits) (hs : v.Short) : ValueEnc v.type v.top v.value v.bytes := by
  cases v with
  | bool b => exact .bool b
  | u8 n => exact .u8 _ n h
  | u16 n => exact .u16 _ n h
  | u32 n => exact .u32 _ n h
  | u64 n => exact .u64 _ n h
  | vec d => exact .vec _ d hs
  | ref => exact .objectId _
  | refs n => exact .objectIds _ n hs
  | cells n => exact .objectSpaceIds _ n hs

theorem key_lt (w : Nat) : key w < 2 ^ 26 := Nat.mod_lt _ (by decide)

theorem vals_enc : ∀ {s : List (Nat × Val)}, (∀ e ∈ s, e.2.Fits) → (∀ e ∈ s, e.2.Short) →
    EntriesEnc (s.map fun e => (key e.1, e.2.value))
      (s.flatMap fun e => leBytes 4 (idWord (key e.1) e.2.type e.2.top)) (s.flatMap fun e => e.2.bytes)
  | [], _, _ => .nil
  | e :: s, h, hs => by
    simp only [List.map_cons, List.flatMap_cons]
    exact .cons _ _ _ _ _ _ _ _ (key_lt _) (val_enc (h e (.head _)) (hs e (.head _)))
      (vals_enc (fun x hx => h x (.tail _ hx)) fun x hx => hs x (.tail _ hx))

theorem set_enc {s : List (Nat × Val)} (hl : s.length < 2 ^ 16) (h : ∀ e ∈ s, e.2.Fits)
    (hs : ∀ e ∈ s, e.2.Short) : SetEnc (s.map fun e => (key e.1, e.2.value)) (setBytes s) := by
  have := SetEnc.mk _ _ _ (by simpa using hl) (vals_enc h hs)
  simpa [setBytes] using this

theorem sets_enc : ∀ {ss : List (List (Nat × Val))}, (∀ s ∈ ss, s.length < 2 ^ 16 ∧ ∀ e ∈ s, e.2.Fits) →
    (∀ s ∈ ss, ∀ e ∈ s, e.2.Short) → SetsEnc (ss.map setValue) (ss.flatMap setBytes)
  | [], _, _ => .nil
  | s :: ss, h, hs => by
    simp only [List.map_cons, List.flatMap_cons]
    exact .cons _ _ _ _ (set_enc (h s (.head _)).1 (h s (.head _)).2 (hs s (.head _)))
      (sets_enc (fun x hx => h x (.tail _ hx)) fun x hx => hs x (.tail _ hx))

theorem entry_enc {e : Entry} (h : e.Fits) (hs : e.Short) : ValueEnc e.type e.top e.value e.bytes := by
  cases e with
  | val v => exact val_enc h hs
  | sets kind ss =>
    have := ValueEnc.propertyValues false kind (ss.map setValue) _ h.1 (by simpa using hs.1)
      (sets_enc h.2 hs.2)
    simpa [Entry.type, Entry.top, Entry.value, Entry.bytes] using this

/-- The properties as they are kept. -/
def propsValue (props : List (Nat × Entry)) : List (Nat × PropertyValue) :=
  props.map fun e => (key e.1, e.2.value)

theorem entries_enc : ∀ {s : List (Nat × Entry)}, (∀ e ∈ s, e.2.Fits) → (∀ e ∈ s, e.2.Short) →
    EntriesEnc (propsValue s)
      (s.flatMap fun e => leBytes 4 (idWord (key e.1) e.2.type e.2.top)) (s.flatMap fun e => e.2.bytes)
  | [], _, _ => .nil
  | e :: s, h, hs => by
    simp only [propsValue, List.map_cons, List.flatMap_cons]
    exact .cons _ _ _ _ _ _ _ _ (key_lt _) (entry_enc (h e (.head _)) (hs e (.head _)))
      (entries_enc (fun x hx => h x (.tail _ hx)) fun x hx => hs x (.tail _ hx))

theorem compact_ok {n i : Nat} (hn : n < 2 ^ 24) (h : i < n) : CompactIdOk (compactOf i) := by
  unfold CompactIdOk compactOf
  constructor
  · exact Nat.mod_lt _ (by decide)
  · show i / 256 < _
    omega

theorem stream_fits {n : Nat} (h : n < 2 ^ 24) : StreamFits ((List.range n).map compactOf) := by
  refine ⟨by simpa using h, fun c hc => ?_⟩
  obtain ⟨i, hi, rfl⟩ := List.mem_map.1 hc
  exact compact_ok h (List.mem_range.1 hi)

theorem compact_inj {i j : Nat} (h : compactOf i = compactOf j) : i = j := by
  unfold compactOf at h
  have h := CompactId.mk.inj h
  omega

/-- The properties of a written object. -/
def propSet (refs cells : Nat) (props : List (Nat × Entry)) : ObjectPropSet :=
  ⟨(List.range refs).map compactOf, (List.range cells).map compactOf, [], setOf (propsValue props)⟩

theorem props_are {refs cells : Nat} {props : List (Nat × Entry)} (hl : props.length < 2 ^ 16)
    (h : ∀ e ∈ props, e.2.Fits) (hs : ∀ e ∈ props, e.2.Short) (hr : refs < 2 ^ 24)
    (hc : cells < 2 ^ 24) : PropsAre (propsBytes refs cells props) (propSet refs cells props) := by
  refine ⟨propsValue props, propsBytes refs cells props, [], ?_, stream_fits hr, stream_fits hc,
    ⟨Nat.zero_lt_of_lt hr, nofun⟩, rfl, (List.append_nil _).symm⟩
  have hset := SetEnc.mk _ _ _ (by simpa [propsValue] using hl) (entries_enc h hs)
  have := ObjectPropSetEnc.osids (oids := (List.range refs).map compactOf) 0 0 false false
    ((List.range cells).map compactOf) _ _ (by decide) (by decide) hset
  simpa [propsBytes, propSet, propsValue] using this

/-! ### The table of references -/

theorem zip_range {α β : Type} (f : Nat → α) (l : List β) (i : Nat) :
    (((List.range l.length).map f).zip l)[i]? = (l[i]?).map fun b => (f i, b) := by
  by_cases h : i < l.length
  · rw [List.getElem?_eq_getElem (by simpa using h), List.getElem?_eq_getElem h]
    simp
  · rw [List.getElem?_eq_none (by simpa using h), List.getElem?_eq_none (by omega)]
    rfl

theorem zip_once {β : Type} {l : List β} {i : Nat} {b : β} (h : l[i]? = some b) :
    (((List.range l.length).map compactOf).zip l)[i]? = some (compactOf i, b) ∧
    ∀ k y, (((List.range l.length).map compactOf).zip l)[k]? = some (compactOf i, y) → k = i := by
  refine ⟨by rw [zip_range, h]; rfl, fun k y hk => ?_⟩
  rw [zip_range] at hk
  obtain ⟨_, _, he⟩ := Option.map_eq_some_iff.1 hk
  exact compact_inj (Prod.mk.inj he).1

/-- The object is written with these parts and refers to the objects `ids`. -/
structure Written (o : Object) (kind : Nat) (blob : Option Bytes) (props : List (Nat × Entry))
    (cells : List CellId) (ids : List ExGuid) : Prop where
  kind : o.jcId = kind
  blob : o.fileData = blob
  props : o.props = propSet ids.length cells.length props
  object : ∀ pos i id, ids[i]? = some id → o.mapping.getObject pos (compactOf i) = some id
  cell : ∀ pos i c, cells[i]? = some c → o.mapping.getObjectSpace pos (compactOf i) = some c

/-- The object of a written object in a cell. -/
def objectIn (num : Nat) (o : Obj) : Object :=
  ⟨sx num, o.kind, propSet o.refs.length o.cells.length o.props, o.blob,
    tableOf (propSet o.refs.length o.cells.length o.props) (sx num) (o.refs.map sx) o.cells⟩

theorem object_written (num : Nat) (o : Obj) (h : ∀ c ∈ o.cells, c.snd ≠ sx num) :
    Written (objectIn num o) o.kind o.blob o.props o.cells (o.refs.map sx) := by
  refine ⟨rfl, rfl, ?_, ?_, ?_⟩
  · rw [List.length_map]; rfl
  · intro pos i id hi
    have hz := zip_once hi
    rw [List.length_map] at hz
    refine (C20_once _ _ _ pos i).1 id ?_ ?_
    · show ((_ : List (CompactId × ExGuid)) ++ List.zip [] _)[i]? = _
      rw [List.zip_nil_left, List.append_nil]
      exact hz.1
    · intro k y hk
      refine hz.2 k y ?_
      have hk : ((_ : List (CompactId × ExGuid)) ++ List.zip [] _)[k]? = _ := hk
      rw [List.zip_nil_left, List.append_nil] at hk
      exact hk
  · intro pos i c hi
    have hz := zip_once hi
    have hf : o.cells.filter (fun c => decide (c.snd ≠ sx num)) = o.cells :=
      List.filter_eq_self.2 fun c hc => decide_eq_true (h c hc)
    refine (C20_once _ _ _ pos i).2 c ?_ ?_
    · rw [hf]; exact hz.1
    · rw [hf]; exact hz.2

end OneNote.Writer
