/-
Arithmetic with overflow checks.
-/
import Verif.Model.Checked
import Verif.Lemmas.Amount
import Verif.Lemmas.Whole
import Verif.Lemmas.InkFloat
import Verif.Lemmas.Good
import Verif.Lemmas.Narrow
import Verif.Spec.Arithmetic

namespace OneNote.Checked

open Spec Spec.StoreContents

theorem fit_ok {w n : Nat} (h : n < 2 ^ w) : fit w n = .ok n := if_pos h

theorem sub_ok {a b : Nat} (h : b ≤ a) : sub a b = .ok (a - b) := if_pos h

/-! ### Ink numbers -/

theorem small {w n : Nat} (hw : 32 ≤ w) (h : n < 2 ^ 32) : n < 2 ^ w :=
  Nat.lt_of_lt_of_le h (Nat.pow_le_pow_right (by decide) hw)

theorem decodeUintLoop_eq {w : Nat} (hw : 32 ≤ w) (data : Bytes) : ∀ value count : Nat, count ≤ 10 →
    decodeUintLoop w data value count = MultiByte.decodeUintLoop data value count := by
  induction data with
  | nil => intro value count _; rfl
  | cons byte rest ih =>
    intro value count hc
    unfold decodeUintLoop MultiByte.decodeUintLoop
    by_cases h10 : count = 10
    · rw [if_pos h10, if_pos h10]
    · rw [if_neg h10, if_neg h10, fit_ok (small hw (by omega))]
      show (if count * 7 ≥ 64 then _ else _) = _
      by_cases h64 : count * 7 ≥ 64
      · rw [if_pos h64, if_pos h64]
      · rw [if_neg h64, if_neg h64, shiftLeft, if_pos (by omega)]
        show (fit w (count + 1) >>= _) = _
        rw [fit_ok (small hw (by omega))]
        show (if _ then decodeUintLoop w rest _ _ else _) = _
        rw [ih _ _ (by omega)]

theorem decodeUint_eq {w : Nat} (hw : 32 ≤ w) (data : Bytes) :
    decodeUint w data = MultiByte.decodeUint data := decodeUintLoop_eq hw data 0 0 (by omega)

theorem decodeUintLoop_used (data : Bytes) : ∀ {value count v n : Nat},
    MultiByte.decodeUintLoop data value count = .ok (v, n) → n ≤ count + data.length := by
  induction data with
  | nil =>
    intro value count v n h
    unfold MultiByte.decodeUintLoop at h
    split at h
    · cases h
    · cases h; simp
  | cons byte rest ih =>
    intro value count v n h
    unfold MultiByte.decodeUintLoop at h
    split at h
    · cases h
    · split at h
      · cases h
      · dsimp only at h
        split at h
        · have := ih h
          simp only [List.length_cons]
          omega
        · cases h
          simp only [List.length_cons]
          omega

theorem decodeLoop_eq {w : Nat} (hw : 32 ≤ w) {input : Bytes} (hi : input.length < 2 ^ w) (n : Nat) :
    ∀ k, decodeLoop w input n k = MultiByte.decodeLoop input n k := by
  induction n with
  | zero => intro k; rfl
  | succ n ih =>
    intro k
    unfold decodeLoop MultiByte.decodeLoop
    by_cases hk : k ≥ input.length
    · rw [if_pos hk, if_pos hk]
    · rw [if_neg hk, if_neg hk, decodeUint_eq hw]
      cases hu : MultiByte.decodeUint (input.drop k) with
      | error e => rfl
      | ok x =>
        obtain ⟨v, off⟩ := x
        have := decodeUintLoop_used _ hu
        rw [List.length_drop] at this
        show (if 2 ^ w ≤ k + off then _ else _) = _
        rw [if_neg (by omega), ih]
        rfl

theorem decode_eq {w : Nat} (hw : 32 ≤ w) {input : Bytes} (hi : input.length < 2 ^ w) :
    decode w input = MultiByte.decode input := by
  unfold decode MultiByte.decode
  rw [decodeUint_eq hw]
  cases MultiByte.decodeUint input with
  | error e => rfl
  | ok x => exact decodeLoop_eq hw hi _ _

theorem signed_eq {v : Nat} (h : v < 2 ^ 64) : signed v = .ok (MultiByte.signed v) := by
  have h1 : v >>> 1 < 2 ^ 63 := by
    rw [Nat.shiftRight_eq_div_pow]
    omega
  unfold signed MultiByte.signed toI64 neg
  rw [if_pos h1]
  split
  · rw [if_neg (by omega)]
  · rfl

theorem decodeLoop_lt (input : Bytes) (n : Nat) : ∀ {k : Nat} {vs : List Nat},
    MultiByte.decodeLoop input n k = .ok vs → ∀ v ∈ vs, v < 2 ^ 64 := by
  induction n with
  | zero =>
    intro k vs h
    cases h
    exact nofun
  | succ n ih =>
    intro k vs h
    unfold MultiByte.decodeLoop at h
    split at h
    · cases h
    · split at h
      · cases h
      · rename_i hu
        split at h
        · cases h
        · rename_i hl
          cases h
          intro v hv
          rcases List.mem_cons.1 hv with rfl | hv
          · exact MultiByte.decodeUintLoop_lt _ (by decide) hu
          · exact ih hl v hv

theorem mapM_signed {vs : List Nat} (h : ∀ v ∈ vs, v < 2 ^ 64) :
    vs.mapM signed = .ok (vs.map MultiByte.signed) := by
  induction vs with
  | nil => rfl
  | cons v vs ih =>
    rw [List.mapM_cons, signed_eq (h v (.head _)), ih fun x hx => h x (.tail _ hx)]
    rfl

theorem decodeSigned_eq {w : Nat} (hw : 32 ≤ w) {input : Bytes} (hi : input.length < 2 ^ w) :
    decodeSigned w input = MultiByte.decodeSigned input := by
  unfold decodeSigned MultiByte.decodeSigned
  rw [decode_eq hw hi]
  cases h : MultiByte.decode input with
  | error e => rfl
  | ok vs =>
    refine mapM_signed ?_
    unfold MultiByte.decode at h
    split at h
    · cases h
    · exact decodeLoop_lt _ _ h

/-! ### Sums of references -/

section
variable {w p q : Nat}

mutual

theorem references_eq : (v : PropertyValue) → PropertyValue.references p q v < 2 ^ w →
    references w p q v = .ok (PropertyValue.references p q v)
  | .propertyValues _ sets, h => by
    rw [references, PropertyValue.references]
    rw [PropertyValue.references] at h
    exact referencesSets_eq sets h
  | .objectId, _ | .objectIds _, _ | .objectSpaceId, _ | .objectSpaceIds _, _ | .empty, _ | .bool _, _
  | .u8 _, _ | .u16 _, _ | .u32 _, _ | .u64 _, _ | .vec _, _ | .contextId, _ | .contextIds _, _
  | .propertySet _, _ => by simp only [references, PropertyValue.references]

theorem referencesSets_eq : (ss : List (List (Nat × (Nat × PropertyValue)))) →
    PropertyValue.referencesSets p q ss < 2 ^ w →
    referencesSets w p q ss = .ok (PropertyValue.referencesSets p q ss)
  | [], _ => by simp only [referencesSets, PropertyValue.referencesSets]
  | s :: ss, h => by
    rw [PropertyValue.referencesSets] at h
    rw [referencesSets, PropertyValue.referencesSets, referencesSet_eq s (by omega),
      referencesSets_eq ss (by omega)]
    exact fit_ok h

theorem referencesSet_eq : (s : List (Nat × (Nat × PropertyValue))) →
    PropertyValue.referencesSet p q s < 2 ^ w →
    referencesSet w p q s = .ok (PropertyValue.referencesSet p q s)
  | [], _ => by simp only [referencesSet, PropertyValue.referencesSet]
  | (_, _, v) :: s, h => by
    rw [PropertyValue.referencesSet] at h
    rw [referencesSet, PropertyValue.referencesSet, references_eq v (by omega),
      referencesSet_eq s (by omega)]
    exact fit_ok h

end

theorem countRefs_eq (vs : List PropertyValue) (h : (vs.map (PropertyValue.references p q)).sum < 2 ^ w) :
    countRefs w p q vs = .ok (vs.map (PropertyValue.references p q)).sum := by
  induction vs with
  | nil => rfl
  | cons v vs ih =>
    rw [List.map_cons, List.sum_cons] at h ⊢
    rw [countRefs, references_eq v (by omega), ih (by omega)]
    exact fit_ok h

end

/-- The references that the values of a set count for. -/
def total (p q : Nat) (ps : PropertySet) : Nat := (ps.values.map (PropertyValue.references p q)).sum

theorem referencesSet_total (p q : Nat) (s : PropertySet) :
    PropertyValue.referencesSet p q s = total p q s := by
  induction s with
  | nil => simp only [PropertyValue.referencesSet]; rfl
  | cons e s ih =>
    obtain ⟨k, i, v⟩ := e
    rw [PropertyValue.referencesSet, ih]
    rfl

theorem total_nil (p q : Nat) : total p q [] = 0 := rfl

theorem total_cons (p q : Nat) (e : Nat × (Nat × PropertyValue)) (s : PropertySet) :
    total p q (e :: s) = PropertyValue.references p q e.2.2 + total p q s := rfl

theorem total_append (p q : Nat) (s s' : PropertySet) : total p q (s ++ s') = total p q s + total p q s' := by
  simp [total, PropertySet.values, List.sum_append]

theorem total_filter (p q : Nat) (f : Nat × (Nat × PropertyValue) → Bool) (s : PropertySet) :
    total p q (s.filter f) ≤ total p q s := by
  induction s with
  | nil => exact Nat.le_refl _
  | cons e s ih =>
    rw [List.filter_cons, total_cons]
    split
    · rw [total_cons]
      omega
    · omega

theorem total_extend (p q : Nat) (es : List (Nat × (Nat × PropertyValue))) : ∀ m : PropertySet,
    total p q (Map.extend m es) ≤ total p q m + total p q es := by
  induction es with
  | nil => intro m; exact Nat.le_refl _
  | cons e es ih =>
    intro m
    have h := ih (Map.insert m e.1 e.2)
    have h' : total p q (Map.insert m e.1 e.2) ≤ total p q m + PropertyValue.references p q e.2.2 := by
      unfold Map.insert
      rw [total_append, total_cons, total_nil]
      show _ + (PropertyValue.references p q e.2.2 + 0) ≤ _
      have := total_filter p q (fun x => decide (x.1 ≠ e.1)) m
      omega
    rw [total_cons]
    show total p q (Map.extend (Map.insert m e.1 e.2) es) ≤ _
    omega

/-- The references of a list of properties with their identifiers. -/
def listed (p q : Nat) (es : List (Nat × PropertyValue)) : Nat :=
  (es.map fun e => PropertyValue.references p q e.2).sum

theorem total_setOf (p q : Nat) (es : List (Nat × PropertyValue)) : total p q (setOf es) ≤ listed p q es := by
  refine Nat.le_trans (total_extend p q _ []) ?_
  rw [total_nil, Nat.zero_add]
  unfold total listed PropertySet.values
  rw [List.map_map, List.map_map]
  have : ∀ (es : List (Nat × PropertyValue)) (n : Nat), ((es.zipIdx n).map
      (PropertyValue.references p q ∘ (fun e => e.2.2) ∘ fun e => (e.1.1, (e.2, e.1.2)))).sum =
      (es.map fun e => PropertyValue.references p q e.2).sum := by
    intro es
    induction es with
    | nil => intro n; rfl
    | cons e es ih =>
      intro n
      rw [List.zipIdx_cons, List.map_cons, List.map_cons, List.sum_cons, List.sum_cons, ih]
      rfl
  exact Nat.le_of_eq (this es 0)

/-! ### Each list of references takes bytes -/

section
variable {p q : Nat} (hp : p ≤ 1) (hq : q ≤ 1)

theorem mul_one_le {a n b : Nat} (h : a ≤ 1) (hn : n < b) : a * n ≤ b := by
  rcases Nat.le_one_iff_eq_zero_or_eq_one.1 h with rfl | rfl <;> omega

include hp hq

mutual

theorem value_few {type : Nat} {top : Bool} {v : PropertyValue} {bs : Bytes}
    (h : ValueEnc type top v bs) : PropertyValue.references p q v ≤ (bs.length + 1) * 4294967296 := by
  match h with
  | .objectId _ => rw [PropertyValue.references]; simp only [List.length_nil]; omega
  | .objectSpaceId _ => rw [PropertyValue.references]; simp only [List.length_nil]; omega
  | .objectIds _ n h =>
    rw [PropertyValue.references, leBytes_length]
    have := mul_one_le hp h
    omega
  | .objectSpaceIds _ n h =>
    rw [PropertyValue.references, leBytes_length]
    have := mul_one_le hq h
    omega
  | .propertyValues _ id sets bs _ _ h =>
    rw [PropertyValue.references]
    refine Nat.le_trans (sets_few h) (Nat.mul_le_mul_right _ ?_)
    simp only [List.length_append]
    omega
  | .empty _ => rw [PropertyValue.references]; all_goals first | omega | nofun
  | .bool _ => rw [PropertyValue.references]; all_goals first | omega | nofun
  | .u8 .. => rw [PropertyValue.references]; all_goals first | omega | nofun
  | .u16 .. => rw [PropertyValue.references]; all_goals first | omega | nofun
  | .u32 .. => rw [PropertyValue.references]; all_goals first | omega | nofun
  | .u64 .. => rw [PropertyValue.references]; all_goals first | omega | nofun
  | .vec .. => rw [PropertyValue.references]; all_goals first | omega | nofun
  | .contextId _ => rw [PropertyValue.references]; all_goals first | omega | nofun
  | .contextIds .. => rw [PropertyValue.references]; all_goals first | omega | nofun
  | .propertySet .. => rw [PropertyValue.references]; all_goals first | omega | nofun

theorem set_few {es : List (Nat × PropertyValue)} {bs : Bytes} (h : SetEnc es bs) :
    listed p q es ≤ bs.length * 4294967296 := by
  match h with
  | .mk es words body _ h =>
    refine Nat.le_trans (entries_few h) (Nat.mul_le_mul_right _ ?_)
    simp only [List.length_append]
    omega

theorem entries_few {es : List (Nat × PropertyValue)} {words body : Bytes} (h : EntriesEnc es words body) :
    listed p q es ≤ (words.length + body.length) * 4294967296 := by
  match h with
  | .nil => exact Nat.zero_le _
  | .cons key type top v bs es words body _ hv h =>
    have h1 := value_few hv
    have h2 := entries_few h
    simp only [List.length_append, leBytes_length, listed, List.map_cons, List.sum_cons] at *
    omega

theorem sets_few {ss : List PropertySet} {bs : Bytes} (h : SetsEnc ss bs) :
    PropertyValue.referencesSets p q ss ≤ bs.length * 4294967296 := by
  match h with
  | .nil => rw [PropertyValue.referencesSets]; exact Nat.zero_le _
  | .cons es bs sets bs' h hs =>
    have h1 := set_few h
    have h2 := sets_few hs
    have h3 := total_setOf p q es
    rw [PropertyValue.referencesSets, referencesSet_total]
    simp only [List.length_append]
    omega

end

theorem props_total {data : Bytes} {props : ObjectPropSet} (h : PropsAre data props) :
    total p q props.properties ≤ data.length * 4294967296 := by
  obtain ⟨es, bs, rest, h, -, -, -, hs, rfl⟩ := h
  rw [hs]
  refine Nat.le_trans (total_setOf p q es) ?_
  generalize props.objectIds = a at h
  generalize props.objectSpaceIds = b at h
  generalize props.contextIds = c at h
  cases h with
  | oids _ _ _ _ _ h =>
    refine Nat.le_trans (set_few hp hq h) (Nat.mul_le_mul_right _ ?_)
    simp only [List.length_append]
    omega
  | osids _ _ _ _ _ _ _ _ _ h =>
    refine Nat.le_trans (set_few hp hq h) (Nat.mul_le_mul_right _ ?_)
    simp only [List.length_append]
    omega
  | contexts _ _ _ _ _ _ _ _ _ _ _ _ _ _ h =>
    refine Nat.le_trans (set_few hp hq h) (Nat.mul_le_mul_right _ ?_)
    simp only [List.length_append]
    omega

end

/-! ### Objects -/

/-- The object has fewer references than `2 ^ w`, declared or stored. -/
structure Small (w : Nat) (o : Object) : Prop where
  objects : total 1 0 o.props.properties < 2 ^ w
  spaces : total 0 1 o.props.properties < 2 ^ w
  ids : o.props.objectIds.length < 2 ^ w

theorem predecessors_total {t : PropertyType} {o : Object} {ps : List PropertyValue}
    (h : predecessors t o = .ok ps) (p q : Nat) :
    (ps.map (PropertyValue.references p q)).sum ≤ total p q o.props.properties := by
  unfold predecessors at h
  split at h
  · cases h
  · cases h
    exact total_filter p q _ _

theorem offset_eq {w : Nat} {o : Object} (h : Small w o) (t : PropertyType) :
    getOffset w 1 0 t o = ObjectReference.getOffset t o ∧
      getOffset w 0 1 t o = ObjectSpaceReference.getOffset t o := by
  unfold getOffset ObjectReference.getOffset ObjectSpaceReference.getOffset
  cases hp : predecessors t o with
  | error e => exact ⟨rfl, rfl⟩
  | ok ps =>
    exact ⟨countRefs_eq ps (Nat.lt_of_le_of_lt (predecessors_total hp 1 0) h.objects),
      countRefs_eq ps (Nat.lt_of_le_of_lt (predecessors_total hp 0 1) h.spaces)⟩

theorem objectReference_eq {w : Nat} {o : Object} (h : Small w o) (t : PropertyType) :
    objectReference w t o = ObjectReference.parse t o := by
  unfold objectReference ObjectReference.parse
  rw [(offset_eq h t).1]
  cases o.props.get t with
  | none => rfl
  | some v => cases v <;> rfl

theorem spaceReferences_eq {w : Nat} {o : Object} (h : Small w o) (t : PropertyType) :
    spaceReferences w t o = ObjectSpaceReference.parseVec t o := by
  unfold spaceReferences ObjectSpaceReference.parseVec
  rw [(offset_eq h t).2]
  cases o.props.get t with
  | none => rfl
  | some v => cases v <;> rfl

theorem resolveAll_eq {w offset : Nat} {o : Object} (es : List (CompactId × Nat))
    (h : ∀ e ∈ es, e.2 + offset < 2 ^ w) :
    resolveAll w offset o es = .ok (es.filterMap fun e => o.mapping.getObject (e.2 + offset) e.1) := by
  induction es with
  | nil => rfl
  | cons e es ih =>
    rw [resolveAll, fit_ok (h e (.head _)), ih fun x hx => h x (.tail _ hx), List.filterMap_cons]
    show Except.ok ((o.mapping.getObject (e.2 + offset) e.1).toList ++ _) = _
    cases o.mapping.getObject (e.2 + offset) e.1 <;> rfl

theorem objectReferences_eq {w : Nat} {o : Object} (h : Small w o) (t : PropertyType) :
    objectReferences w t o = ObjectReference.parseVec t o := by
  unfold objectReferences ObjectReference.parseVec
  rw [(offset_eq h t).1]
  cases o.props.get t with
  | none => rfl
  | some v =>
    cases v with
    | objectIds count =>
      dsimp only
      cases ObjectReference.getOffset t o with
      | error e => rfl
      | ok offset =>
        dsimp only
        rw [resolveAll_eq]
        intro e he
        have h1 := List.snd_lt_of_mem_zipIdx he
        have h2 := h.ids
        simp only [List.length_take, List.length_drop] at h1
        omega
    | _ => rfl

theorem value_total {p q : Nat} {ps : PropertySet} {k : Nat} {v : PropertyValue}
    (h : ps.get k = some v) : PropertyValue.references p q v ≤ total p q ps := by
  unfold PropertySet.get at h
  obtain ⟨x, hx, rfl⟩ := Option.map_eq_some_iff.1 h
  have hm := Map.mem_of_get? hx
  exact Amount.le_sum (List.mem_map_of_mem (f := PropertyValue.references p q)
    (List.mem_map_of_mem (f := fun (e : Nat × (Nat × PropertyValue)) => e.2.2) hm))

theorem nested_total {p q id : Nat} {sets : List PropertySet} {set : PropertySet} (h : set ∈ sets) :
    total p q set ≤ PropertyValue.references p q (.propertyValues id sets) := by
  rw [PropertyValue.references]
  induction sets with
  | nil => cases h
  | cons s ss ih =>
    rw [PropertyValue.referencesSets, referencesSet_total]
    rcases List.mem_cons.1 h with rfl | h
    · omega
    · have := ih h
      omega

theorem nestedObject_eq {w : Nat} {o : Object} (h : Small w o) {t : PropertyType} {id : Nat}
    {sets : List PropertySet} (hg : o.props.get t = some (.propertyValues id sets)) {set : PropertySet}
    (hs : set ∈ sets) : nestedObject w t o id set = OneNote.nestedObject t o id set := by
  have h1 : total 1 0 set < 2 ^ w :=
    Nat.lt_of_le_of_lt (Nat.le_trans (nested_total hs) (value_total hg)) h.objects
  have h2 : total 0 1 set < 2 ^ w :=
    Nat.lt_of_le_of_lt (Nat.le_trans (nested_total hs) (value_total hg)) h.spaces
  unfold nestedObject OneNote.nestedObject
  rw [(offset_eq h t).1, (offset_eq h t).2, countRefs_eq _ h1, countRefs_eq _ h2]
  cases ObjectReference.getOffset t o with
  | error e => rfl
  | ok off =>
    cases ObjectSpaceReference.getOffset t o with
    | error e => rfl
    | ok off' => rfl

theorem nested_small {w : Nat} {o o' : Object} (h : Small w o) {t : PropertyType} {id : Nat}
    {sets : List PropertySet} (hg : o.props.get t = some (.propertyValues id sets)) {set : PropertySet}
    (hs : set ∈ sets) (hn : OneNote.nestedObject t o id set = .ok o') : Small w o' := by
  have h1 : total 1 0 set < 2 ^ w :=
    Nat.lt_of_le_of_lt (Nat.le_trans (nested_total hs) (value_total hg)) h.objects
  have h2 : total 0 1 set < 2 ^ w :=
    Nat.lt_of_le_of_lt (Nat.le_trans (nested_total hs) (value_total hg)) h.spaces
  unfold OneNote.nestedObject at hn
  split at hn
  · cases hn
  · split at hn
    · cases hn
    · cases hn
      refine ⟨h1, h2, Nat.lt_of_le_of_lt ?_ h.ids⟩
      simp only [List.length_take, List.length_drop]
      omega

theorem space_small {pkg : Package} {si : StorageIndex} {m : CellMapping} {s : ObjectSpace}
    (h : SpaceIs pkg si m s) (hk : sizePackage pkg < 2 ^ 32) {id : ExGuid} {o : Object}
    (ho : s.getObject id = some o) : Small 64 o := by
  rcases h.contents with ⟨r, ms, _, _, hh⟩ | ⟨_, _, hn, _⟩
  · rcases first_declaring (groupsOf pkg ms) id with hn | ⟨pre, g, post, hs, hpre, hg⟩
    · rw [hh.absent id hn] at ho; cases ho
    · obtain ⟨_, o', ho', hi⟩ := hh.present id pre g post hs hpre hg
      rw [ho'] at ho
      cases ho
      obtain ⟨refs, cells, data, hd, hp, -⟩ := hi.properties
      obtain ⟨i, hgi⟩ := Amount.groups_of (show g ∈ groupsOf pkg ms by rw [hs]; simp)
      have h1 := Amount.stored_size hd
      have h2 := Amount.group_size hgi
      have h3 := (Amount.props_few hp).1
      have h4 := props_total (p := 1) (q := 0) (by decide) (by decide) hp
      have h5 := props_total (p := 0) (q := 1) (by decide) (by decide) hp
      exact ⟨by omega, by omega, by omega⟩
  · rw [hn id] at ho; cases ho

open Spec.Arithmetic in
theorem object_small {data : Bytes} (hd : data.length < 2 ^ 32) {store : Store} (h : FileStore data store)
    {o : Object} (ho : ObjectOf store o) : Small 64 o := by
  obtain ⟨p, hc, hp⟩ := h
  have hsize : sizePackage p.package < 2 ^ 32 := by
    have := holds_iff.1 hc
    unfold P.run at this
    split at this
    · rename_i v rest hv
      cases this
      have := Step.packaging _ _ _ hv
      simp only at this
      omega
    · cases this
  obtain ⟨si, sm, hc, dc, -, -, -, -, -, -, ⟨m, -, hroot⟩, h10, h11⟩ := hp
  induction ho with
  | root h => exact space_small hroot hsize h
  | @space cell space id o hsp h =>
    have hsp : store.objectSpaces.get? cell = some space := hsp
    by_cases hm : ∃ m, IsOther si hc dc cell m
    · obtain ⟨m, hm⟩ := hm
      obtain ⟨space', hs', hi⟩ := h10 cell m hm
      rw [hs'] at hsp
      cases hsp
      exact space_small hi hsize h
    · rw [h11 cell hm] at hsp
      cases hsp
  | nested _ hg hs hn ih => exact nested_small ih hg hs hn

theorem cellsDiffer_eq {data : Bytes} (hd : data.length < 2 ^ 32) {props : ObjectPropSet}
    (h : PropsAre data props) (cells : List CellId) :
    cellsDiffer 64 props cells =
      .ok (decide (props.contextIds.length + props.objectSpaceIds.length ≠ cells.length)) := by
  have : props.contextIds.length ≤ data.length ∧ props.objectSpaceIds.length ≤ data.length := by
    obtain ⟨es, bs, rest, h, -, -, -, -, rfl⟩ := h
    generalize props.objectIds = a at h
    generalize props.objectSpaceIds = b at h
    generalize props.contextIds = c at h
    cases h <;> simp only [List.length_append, Amount.compactIds_length, List.length_nil] <;> omega
  unfold cellsDiffer
  rw [fit_ok (by omega)]
  rfl

/-! ### Drawings -/

theorem slice_eq {α : Type} {w : Nat} {data : List α} {start len : Nat} (h : start + len ≤ data.length)
    (hd : data.length < 2 ^ w) : slice w data start len = OneNote.slice data start len := by
  unfold slice OneNote.slice
  rw [fit_ok (by omega)]
  rfl

theorem part_le {n k i : Nat} (h : i < k) : n / k * i + n / k ≤ n := by
  have h1 : n / k * i + n / k = n / k * (i + 1) := by rw [Nat.mul_succ]
  rw [h1]
  exact Nat.le_trans (Nat.mul_le_mul_left _ h) (Nat.div_mul_le_self n k)

theorem findDimension_lt {dims : List InkDimension} {id : Guid} {i : Nat}
    (h : findDimension dims id = .ok i) : i < dims.length := by
  unfold findDimension orErr at h
  cases hf : dims.findIdx? fun d => decide (d.id = id) with
  | none => rw [hf] at h; cases h
  | some j =>
    rw [hf] at h
    cases h
    exact (List.findIdx?_eq_some_iff_getElem.1 hf).1

theorem parseInkPath_eq {w : Nat} {data : List Int} (hd : data.length < 2 ^ w) (dims : List InkDimension)
    (sx sy : Option F32) : parseInkPath w data dims sx sy = OneNote.parseInkPath data dims sx sy := by
  unfold parseInkPath OneNote.parseInkPath
  cases hx : findDimension dims dimensionX with
  | error e => rfl
  | ok i =>
    cases hy : findDimension dims dimensionY with
    | error e => rfl
    | ok j =>
      have h1 := part_le (n := data.length) (findDimension_lt hx)
      have h2 := part_le (n := data.length) (findDimension_lt hy)
      show (if dims.length = 0 then _ else _) = (if dims.length = 0 then _ else _)
      split
      · rfl
      · rw [fit_ok (Nat.lt_of_le_of_lt (Nat.le_trans (Nat.le_add_right _ _) h1) hd),
          fit_ok (Nat.lt_of_le_of_lt (Nat.le_trans (Nat.le_add_right _ _) h2) hd)]
        show (slice w data _ _ >>= _) = _
        rw [slice_eq h1 hd, slice_eq h2 hd]

theorem parseEmbeddedObjects_eq {w : Nat} (space : ObjectSpace) (refs : List ExGuid)
    (ds : List (Option Nat × EmbeddedInkData)) : ∀ i n : Nat, n ≤ i → i + ds.length < 2 ^ w →
    parseEmbeddedObjects w space refs i n ds = OneNote.parseEmbeddedObjects space refs i n ds := by
  induction ds with
  | nil => intro i n _ _; unfold parseEmbeddedObjects OneNote.parseEmbeddedObjects; rfl
  | cons d ds ih =>
    intro i n hn hl
    rw [List.length_cons] at hl
    obtain ⟨ty, d⟩ := d
    cases ty with
    | none =>
      unfold parseEmbeddedObjects OneNote.parseEmbeddedObjects
      rw [sub_ok hn, ih _ _ (by omega) (by omega)]
      rfl
    | some ty =>
      unfold parseEmbeddedObjects OneNote.parseEmbeddedObjects
      rw [fit_ok (show n + 1 < 2 ^ w by omega)]
      show (if _ then (parseEmbeddedObjects w space refs _ _ ds >>= _) else if _ then
        (parseEmbeddedInkSpace d >>= fun s => parseEmbeddedObjects w space refs _ _ ds >>= _) else _) = _
      rw [ih _ _ (by omega) (by omega)]

/-! ### The container -/

theorem seek_eq {start : Nat} {log : Nat × Nat} {s : Bytes} (h : s.length ≤ start) :
    seekTransactionLog start log s = Packaging.seekTransactionLog start log s := by
  show (P.ofRes (sub start s.length) >>= _ : P Unit) s = _
  rw [sub_ok h]
  rfl

/-- The same on inputs of at most `k` bytes. -/
def SameUpTo {α : Type} (k : Nat) (p q : P α) : Prop := ∀ s : Bytes, s.length ≤ k → p s = q s

theorem SameUpTo.bind {α β : Type} {k : Nat} {p : P α} {f g : α → P β} (hp : NonInc p)
    (h : ∀ a, SameUpTo k (f a) (g a)) : SameUpTo k (p >>= f) (p >>= g) := by
  intro s hs
  cases hr : p s with
  | error e => rw [P.bind_err hr, P.bind_err hr]
  | ok x =>
    obtain ⟨a, r⟩ := x
    rw [P.bind_ok hr, P.bind_ok hr]
    exact h a r (Nat.le_trans (hp _ _ _ hr) hs)

theorem SameUpTo.bind' {α β : Type} {k : Nat} {p q : P α} (h : SameUpTo k p q) (f : α → P β) :
    SameUpTo k (p >>= f) (q >>= f) := by
  intro s hs
  have := h s hs
  cases hr : q s with
  | error e => rw [P.bind_err hr, P.bind_err (this.trans hr)]
  | ok x =>
    obtain ⟨a, r⟩ := x
    rw [P.bind_ok hr, P.bind_ok (this.trans hr)]

theorem parse_eq (s : Bytes) : parse s = Packaging.parse s := by
  unfold parse Packaging.parse
  rw [P.bind_ok (show remaining s = .ok (s.length, s) from rfl),
    P.bind_ok (show remaining s = .ok (s.length, s) from rfl)]
  refine SameUpTo.bind (k := s.length) Good.guid.nonInc (fun _ => .bind Good.guid.nonInc fun _ =>
    .bind Good.guid.nonInc fun c => .bind Good.guid.nonInc fun d => ?_) s (Nat.le_refl _)
  intro r hr
  split
  · rfl
  · split
    · rfl
    · split
      · rfl
      · exact SameUpTo.bind (k := s.length) Good.storeHeader.nonInc (fun log =>
          .bind' (fun s' hs => seek_eq hs) _) r hr

end OneNote.Checked
