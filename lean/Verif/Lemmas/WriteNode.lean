/-
What is read back from an object written with its fields.
-/
import Verif.Lemmas.WriteStore
import Verif.Spec.WriteNode

namespace OneNote.Writer

open Spec Spec.Writer Spec.StoreContents Spec.Document Spec.Fields

/-! ### Properties by their words -/

theorem id_key (w : Nat) : PropertyId.id w = key w := and_3ffffff w

theorem get_setOf {l : List (Nat × PropertyValue)} (hn : (l.map Prod.fst).Nodup) {w : Nat}
    {v : PropertyValue} (h : (key w, v) ∈ l) : (setOf l).get w = some v := by
  obtain ⟨pre, post, rfl⟩ := List.append_of_mem h
  have hp : ∀ e ∈ post, e.1 ≠ key w := by
    intro e he hk
    rw [List.map_append, List.nodup_append, List.map_cons, List.nodup_cons] at hn
    exact hn.2.1.1 (List.mem_map.2 ⟨e, he, hk⟩)
  unfold PropertySet.get
  rw [id_key, setOf_get?_some.2 ⟨pre, post, rfl, rfl, hp⟩]
  rfl

theorem get_setOf_none {l : List (Nat × PropertyValue)} {w : Nat} (h : key w ∉ l.map Prod.fst) :
    (setOf l).get w = none := by
  unfold PropertySet.get
  rw [id_key, setOf_get?_none.2 fun e he hk => h (List.mem_map.2 ⟨e, he, hk⟩)]
  rfl

/-- Where the identifiers of a property start. -/
theorem startsAt {s : Stream} {pre post : List (Nat × PropertyValue)} {w : Nat} {v : PropertyValue}
    (hn : ((pre ++ (key w, v) :: post).map Prod.fst).Nodup) :
    StartsAt s (setOf (pre ++ (key w, v) :: post)) w ((pre.map fun e => idsCounted s e.2).sum) := by
  have hp : ∀ e ∈ post, e.1 ≠ key w := by
    intro e he hk
    rw [List.map_append, List.nodup_append, List.map_cons, List.nodup_cons] at hn
    exact hn.2.1.1 (List.mem_map.2 ⟨e, he, hk⟩)
  refine ⟨pre.length, ?_, ?_⟩
  · unfold PropertySet.index
    rw [id_key, setOf_get?_some.2 ⟨pre, post, rfl, rfl, hp⟩]
    rfl
  · rw [setOf_distinct hn, List.filter_map, List.zipIdx_append, List.filter_append,
      List.zipIdx_cons, List.filter_cons]
    have h1 : ((fun (e : Nat × (Nat × PropertyValue)) => decide (e.2.1 < pre.length)) ∘
        fun (e : (Nat × PropertyValue) × Nat) => (e.1.1, (e.2, e.1.2))) =
        fun e => decide (e.2 < pre.length) := rfl
    rw [h1, zipIdx_filter_lt _ _ _ (by omega), zipIdx_filter_ge _ _ _ (by omega)]
    simp only [Nat.zero_add, Nat.lt_irrefl, decide_false, Bool.false_eq_true, if_false,
      List.append_nil, List.map_map]
    have h2 : ((fun (e : Nat × (Nat × PropertyValue)) => idsCounted s e.2.2) ∘
        fun (e : (Nat × PropertyValue) × Nat) => (e.1.1, (e.2, e.1.2))) =
        (fun e : Nat × PropertyValue => idsCounted s e.2) ∘ Prod.fst := rfl
    rw [h2, ← List.map_map, List.zipIdx_map_fst]

/-! ### Fields -/

theorem counted_scalar (v : Scalar) (s : Stream) : idsCounted s v.val.value = 0 := by
  cases v <;> rfl

/-- The references of the field are in the streams. -/
def FieldOk : Field → Prop
  | .sets _ ss ts => idsCountedSets .objects (ss.map setValue) = ts.length ∧
      idsCountedSets .spaces (ss.map setValue) = 0
  | _ => True

/-- The properties of the fields. -/
def entriesOf (fields : List (Nat × Field)) : List (Nat × PropertyValue) :=
  propsValue (fields.filterMap fun f => f.2.entry.map fun e => (f.1, e))

theorem entriesOf_append (a b : List (Nat × Field)) : entriesOf (a ++ b) = entriesOf a ++ entriesOf b := by
  unfold entriesOf propsValue
  rw [List.filterMap_append, List.map_append]

theorem entriesOf_keys {fields : List (Nat × Field)} :
    ((entriesOf fields).map Prod.fst).Sublist (fields.map fun f => key f.1) := by
  induction fields with
  | nil => exact List.Sublist.refl _
  | cons f fields ih =>
    unfold entriesOf propsValue at ih ⊢
    rw [List.filterMap_cons]
    cases hf : f.2.entry with
    | none => exact List.Sublist.cons _ ih
    | some e => exact List.Sublist.cons_cons _ ih

theorem counted_fields {fields : List (Nat × Field)} (h : ∀ f ∈ fields, FieldOk f.2) :
    ((entriesOf fields).map fun e => idsCounted .objects e.2).sum =
      (fields.flatMap fun f => f.2.children).length ∧
    ((entriesOf fields).map fun e => idsCounted .spaces e.2).sum =
      (fields.flatMap fun f => f.2.cellIds).length := by
  induction fields with
  | nil => exact ⟨rfl, rfl⟩
  | cons f fields ih =>
    obtain ⟨h1, h2⟩ := ih fun f hf => h f (List.mem_cons_of_mem _ hf)
    have hf := h f List.mem_cons_self
    obtain ⟨w, f⟩ := f
    have key : ∀ s, ((entriesOf [(w, f)]).map fun e => idsCounted s e.2).sum =
        if s = .objects then f.children.length else f.cellIds.length := by
      intro s
      cases f with
      | val v =>
        cases v with
        | none => cases s <;> rfl
        | some x =>
          show (idsCounted s x.val.value + 0) = _
          rw [counted_scalar x]
          cases s <;> rfl
      | one t => cases t <;> cases s <;> rfl
      | many ts => cases s <;> rfl
      | sets kind ss ts =>
        obtain ⟨ho, hs⟩ := hf
        show (idsCounted s (.propertyValues kind (ss.map setValue)) + 0) = _
        rw [idsCounted]
        cases s
        · rw [ho]; rfl
        · rw [hs]; rfl
      | cells cs => cases s <;> rfl
    have hc : ∀ s, ((entriesOf ((w, f) :: fields)).map fun e => idsCounted s e.2).sum =
        ((entriesOf [(w, f)]).map fun e => idsCounted s e.2).sum +
        ((entriesOf fields).map fun e => idsCounted s e.2).sum := by
      intro s
      rw [show (w, f) :: fields = [(w, f)] ++ fields from rfl, entriesOf_append, List.map_append,
        List.sum_append]
    rw [hc, hc, key, key, h1, h2, List.flatMap_cons, List.flatMap_cons, List.length_append,
      List.length_append]
    exact ⟨rfl, rfl⟩

/-! ### Objects -/

theorem each_length {α β : Type} {R : α → β → Prop} {as : List α} {bs : List β} (h : Each R as bs) :
    as.length = bs.length := ((each_iff R as bs).1 h).1

theorem each_append {α β : Type} {R : α → β → Prop} {bs cs : List β} {as : List α}
    (h : Each R as (bs ++ cs)) : ∃ xs ys, as = xs ++ ys ∧ Each R xs bs ∧ Each R ys cs := by
  induction bs generalizing as with
  | nil => exact ⟨[], as, rfl, .nil, h⟩
  | cons b bs ih =>
    cases h with
    | cons hr h =>
      obtain ⟨xs, ys, rfl, h1, h2⟩ := ih h
      exact ⟨_ :: xs, ys, rfl, .cons hr h1, h2⟩

theorem getElem_compact {n i : Nat} (h : i < n) :
    ((List.range n).map compactOf)[i]? = some (compactOf i) := by
  rw [List.getElem?_map, List.getElem?_range h]
  rfl

theorem filterMap_range {α : Type} {xs : List α} {f : Nat → Option α}
    (h : ∀ (i : Nat) x, xs[i]? = some x → f i = some x) : (List.range xs.length).filterMap f = xs := by
  induction xs generalizing f with
  | nil => rfl
  | cons x xs ih =>
    rw [List.length_cons, List.range_succ_eq_map, List.filterMap_cons, h 0 x rfl, List.filterMap_map]
    exact congrArg _ (ih fun i y hy => h (i + 1) y hy)

theorem each_map {α β γ : Type} {R : β → γ → Prop} {f : α → β} {g : α → γ} {as : List α}
    (h : ∀ a, R (f a) (g a)) : Each R (as.map f) (as.map g) := by
  induction as with
  | nil => exact .nil
  | cons a as ih => exact .cons (h a) ih

theorem each_map' {α γ : Type} {R : α → γ → Prop} {g : α → γ} {as : List α} (h : ∀ a, R a (g a)) :
    Each R as (as.map g) := by
  induction as with
  | nil => exact .nil
  | cons a as ih => exact .cons (h a) ih

/-- What is read back from the fields. -/
structure NodeIs (space : ObjectSpace) (o : Object) (kind : Nat) (blob : Option Bytes)
    (fields : List (Nat × Field)) : Prop where
  kind : o.jcId = kind
  blob : o.fileData = blob
  val : ∀ w v, (w, .val v) ∈ fields → o.props.properties.get w = v.map fun s => s.val.value
  one : ∀ w t, (w, .one t) ∈ fields → ∃ r, Ref o w r ∧ Maybe (Stored space) r t
  many : ∀ w ts, (w, .many ts) ∈ fields → ∃ ids, RefList o w ids ∧ Each (Stored space) ids ts
  sets : ∀ w k ss ts, (w, .sets k ss ts) ∈ fields → ∃ ids rest inners,
    Each (Stored space) ids ts ∧ Nested o w inners ∧
    (∀ (i : Nat) id, ids[i]? = some id → ∃ c, rest[i]? = some c ∧ ∀ pos, o.mapping.getObject pos c = some id) ∧
    Each (fun (s : List (Nat × Val)) (inner : Object) => inner.jcId = k ∧
      inner.mapping = o.mapping ∧ inner.props.properties = setValue s ∧
      inner.props.objectIds = List.take (idsCountedSet .objects (setValue s)) rest) ss inners
  cells : ∀ w cs, (w, .cells cs) ∈ fields → (∀ f ∈ fields, f.2.cellIds ≠ [] → f = (w, .cells cs)) →
    CellRefs o w cs
  absent : ∀ w, key w ∉ fields.map (fun f => key f.1) → o.props.properties.get w = none

theorem node_written {space : ObjectSpace} {id : ExGuid} {kind : Nat} {blob : Option Bytes}
    {fields : List (Nat × Field)} (h : Stored space id (node kind blob fields))
    (hn : (fields.map fun f => key f.1).Nodup) (hok : ∀ f ∈ fields, FieldOk f.2) :
    ∃ o, At space id o ∧ NodeIs space o kind blob fields := by
  unfold node at h
  generalize hp : (fields.filterMap fun f => f.2.entry.map fun e => (f.1, e)) = props at h
  generalize hc : (fields.flatMap fun f => f.2.cellIds) = cells at h
  generalize hch : (fields.flatMap fun f => f.2.children) = children at h
  cases h with
  | @mk _ o _ _ _ _ _ ids hat hw hids =>
  refine ⟨o, hat, ?_⟩
  have hps : o.props = ⟨(List.range ids.length).map compactOf, (List.range cells.length).map compactOf,
      [], setOf (entriesOf fields)⟩ := by
    rw [hw.props]
    unfold propSet entriesOf
    rw [hp]
  have hkeys : ((entriesOf fields).map Prod.fst).Nodup := entriesOf_keys.nodup hn
  -- what is stored for a field
  have split : ∀ w f e, (w, f) ∈ fields → f.entry = some e → ∃ pre post,
      fields = pre ++ (w, f) :: post ∧
      o.props.properties.get w = some e.value ∧
      StartsAt .objects o.props.properties w (pre.flatMap fun f => f.2.children).length ∧
      StartsAt .spaces o.props.properties w (pre.flatMap fun f => f.2.cellIds).length := by
    intro w f e hm he
    obtain ⟨pre, post, rfl⟩ := List.append_of_mem hm
    have hpre := counted_fields fun f hf => hok f (List.mem_append_left _ hf)
    have hes : entriesOf (pre ++ (w, f) :: post) =
        entriesOf pre ++ (Spec.Writer.key w, e.value) :: entriesOf post := by
      rw [entriesOf_append, show (w, f) :: post = [(w, f)] ++ post from rfl, entriesOf_append]
      unfold entriesOf propsValue
      rw [List.filterMap_cons, he]
      rfl
    rw [hes] at hkeys
    refine ⟨pre, post, rfl, ?_, ?_, ?_⟩
    · rw [hps]
      show (setOf _).get w = _
      rw [hes]
      exact get_setOf hkeys (by simp)
    · rw [hps, ← hpre.1]
      show StartsAt _ (setOf _) w _
      rw [hes]
      exact startsAt hkeys
    · rw [hps, ← hpre.2]
      show StartsAt _ (setOf _) w _
      rw [hes]
      exact startsAt hkeys
  -- what the field refers to
  have refs : ∀ pre w f post, fields = pre ++ (w, f) :: post → ∃ xs, Each (Stored space) xs f.children ∧
      ∀ (i : Nat) id, xs[i]? = some id →
        o.props.objectIds[(pre.flatMap fun f => f.2.children).length + i]? =
          some (compactOf ((pre.flatMap fun f => f.2.children).length + i)) ∧
        ∀ pos, o.mapping.getObject pos (compactOf ((pre.flatMap fun f => f.2.children).length + i)) =
          some id := by
    intro pre w f post hf
    rw [← hch, hf, List.flatMap_append, List.flatMap_cons] at hids
    obtain ⟨as, bs, rfl, h1, h2⟩ := each_append hids
    obtain ⟨xs, ys, rfl, h3, h4⟩ := each_append h2
    refine ⟨xs, h3, fun i id hi => ?_⟩
    have hl := each_length h1
    have hlt : i < xs.length := (List.getElem?_eq_some_iff.1 hi).1
    rw [hps]
    have hget : (as ++ (xs ++ ys))[as.length + i]? = some id := by
      rw [List.getElem?_append_right (by omega), List.getElem?_append_left (by omega)]
      rw [show as.length + i - as.length = i by omega]
      exact hi
    rw [← hl]
    exact ⟨getElem_compact (by simp only [List.length_append]; omega), fun pos => hw.object pos _ _ hget⟩
  have missing : ∀ w f, (w, f) ∈ fields → f.entry = none →
      Spec.Writer.key w ∉ (entriesOf fields).map Prod.fst := by
    intro w f hm he hk
    obtain ⟨pre, post, rfl⟩ := List.append_of_mem hm
    have hsub : ((entriesOf (pre ++ (w, f) :: post)).map Prod.fst).Sublist
        ((pre ++ post).map fun f => Spec.Writer.key f.1) := by
      have : entriesOf ((w, f) :: post) = entriesOf post := by
        unfold entriesOf propsValue
        rw [List.filterMap_cons, he]
        rfl
      rw [entriesOf_append, this, ← entriesOf_append]
      exact entriesOf_keys
    have hk := hsub.subset hk
    rw [List.map_append, List.mem_append] at hk
    rw [List.map_append, List.nodup_append, List.map_cons, List.nodup_cons] at hn
    rcases hk with hk | hk
    · exact hn.2.2 _ hk _ List.mem_cons_self rfl
    · exact hn.2.1.1 hk
  constructor
  · exact hw.kind
  · exact hw.blob
  · intro w v hm
    cases v with
    | some x =>
      obtain ⟨_, _, _, h, _⟩ := split w _ (.val x.val) hm rfl
      exact h
    | none =>
      rw [hps]
      exact get_setOf_none (missing w _ hm rfl)
  · intro w t hm
    cases t with
    | none =>
      refine ⟨none, .inl ⟨?_, rfl⟩, .inl ⟨rfl, rfl⟩⟩
      rw [hps]
      exact get_setOf_none (missing w _ hm rfl)
    | some t =>
      obtain ⟨pre, post, hf, hg, hso, _⟩ := split w _ (.val .ref) hm rfl
      obtain ⟨xs, hx, hr⟩ := refs pre w _ post hf
      cases hx with
      | cons hx hnil =>
        cases hnil
        obtain ⟨h1, h2⟩ := hr 0 _ rfl
        exact ⟨_, .inr ⟨_, _, hg, hso, h1, (h2 _).symm⟩, .inr ⟨_, _, rfl, rfl, hx⟩⟩
  · intro w ts hm
    obtain ⟨pre, post, hf, hg, hso, _⟩ := split w _ (.val (.refs ts.length)) hm rfl
    obtain ⟨xs, hx, hr⟩ := refs pre w _ post hf
    refine ⟨xs, ⟨_, _, hg, hso, ?_⟩, hx⟩
    have hl : xs.length = ts.length := each_length hx
    rw [← hl]
    refine (filterMap_range fun i id hi => ?_).symm
    obtain ⟨h1, h2⟩ := hr i id hi
    rw [h1]
    exact h2 _
  · intro w k ss ts hm
    obtain ⟨pre, post, hf, hg, hso, hss⟩ := split w _ (.sets k ss) hm rfl
    obtain ⟨xs, hx, hr⟩ := refs pre w _ post hf
    refine ⟨xs, o.props.objectIds.drop (pre.flatMap fun f => f.2.children).length,
      ss.map fun s => _, hx, .inr ⟨k, ss.map setValue, hg, each_map fun s => ⟨_, _, hso, hss, rfl⟩⟩,
      fun i id hi => ?_, each_map' fun s => ⟨rfl, rfl, rfl, rfl⟩⟩
    obtain ⟨h1, h2⟩ := hr i id hi
    exact ⟨_, by rw [List.getElem?_drop]; exact h1, h2⟩
  · intro w cs hm hu
    obtain ⟨pre, post, hf, hg, _, hss⟩ := split w _ (.val (.cells cs.length)) hm rfl
    refine .inr ⟨_, _, hg, hss, ?_⟩
    by_cases hz : cs = []
    · rw [hz]; rfl
    have hpre : (pre.flatMap fun f => f.2.cellIds) = [] := by
      refine List.flatMap_eq_nil_iff.2 fun f hfm => Classical.byContradiction fun hne => ?_
      have := hu f (by rw [hf]; exact List.mem_append_left _ hfm) hne
      rw [hf, List.map_append, List.nodup_append] at hn
      exact hn.2.2 _ (List.mem_map.2 ⟨f, hfm, rfl⟩) _ (List.mem_cons_self) (by rw [this])
    have hcs : ∃ more, cells = cs ++ more := by
      refine ⟨post.flatMap fun f => f.2.cellIds, ?_⟩
      rw [← hc, hf, List.flatMap_append, hpre, List.flatMap_cons]
      rfl
    obtain ⟨more, hcs⟩ := hcs
    rw [hpre]
    refine (filterMap_range fun i c hi => ?_).symm
    have hlt : i < cs.length := (List.getElem?_eq_some_iff.1 hi).1
    have hcell : cells[i]? = some c := by
      rw [hcs, List.getElem?_append_left hlt]
      exact hi
    rw [hps]
    show ((List.range cells.length).map compactOf)[0 + i]?.bind _ = _
    rw [Nat.zero_add, getElem_compact (by rw [hcs, List.length_append]; omega)]
    exact hw.cell _ _ _ hcell
  · intro w hw'
    rw [hps]
    exact get_setOf_none fun hk => hw' (entriesOf_keys.subset hk)

end OneNote.Writer
