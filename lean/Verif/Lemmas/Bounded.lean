/-
The values in the stores of files: their numbers fit their fields.
-/
import Verif.Lemmas.Arrange
import Verif.Spec.Whole
import Verif.Spec.Storable

namespace OneNote.Bounded

open Spec Spec.Storable Spec.StoreContents Spec.Fields

/-- The numbers of a value fit. -/
def Flat : PropertyValue → Prop
  | .u8 n => n < 2 ^ 8
  | .u16 n => n < 2 ^ 16
  | .u32 n => n < 2 ^ 32
  | .u64 n => n < 2 ^ 64
  | .vec d => d.length < 2 ^ 32
  | _ => True

def SetFlat (ps : PropertySet) : Prop := ∀ e ∈ ps, Flat e.2.2

/-- Also those of nested sets. -/
def Deep (v : PropertyValue) : Prop := Flat v ∧ ∀ k sets, v = .propertyValues k sets → ∀ s ∈ sets, SetFlat s

def ObjectFits (o : Object) : Prop := ∀ e ∈ o.props.properties, Deep e.2.2

def SpaceFits (space : ObjectSpace) : Prop := ∀ id o, space.getObject id = some o → ObjectFits o

theorem value_flat {type : Nat} {top : Bool} {v : PropertyValue} {bs : Bytes}
    (h : ValueEnc type top v bs) : Flat v := by
  cases h <;> first | assumption | trivial

theorem entries_flat {es : List (Nat × PropertyValue)} {words body : Bytes}
    (h : EntriesEnc es words body) : ∀ e ∈ es, ∃ type top bs, ValueEnc type top e.2 bs := by
  induction es generalizing words body with
  | nil => exact fun _ h => nomatch h
  | cons e es ih =>
    cases h with
    | cons key type top v bs _ _ _ _ hv h =>
      intro x hx
      rcases List.mem_cons.1 hx with rfl | hx
      · exact ⟨_, _, _, hv⟩
      · exact ih h x hx

theorem setOf_mem {es : List (Nat × PropertyValue)} {e : Nat × Nat × PropertyValue}
    (h : e ∈ setOf es) : (e.1, e.2.2) ∈ es := by
  obtain ⟨k, i, v⟩ := e
  obtain ⟨⟨⟨k', v'⟩, i'⟩, hx, hxe⟩ := List.mem_map.1 (mem_ofList h)
  cases hxe
  have := (List.mem_zipIdx' hx).2
  simp only at this ⊢
  rw [this]
  exact List.getElem_mem _

theorem set_flat {es : List (Nat × PropertyValue)} {bs : Bytes} (h : SetEnc es bs) : SetFlat (setOf es) := by
  cases h with
  | mk _ _ _ _ h =>
    intro e he
    obtain ⟨_, _, _, hv⟩ := entries_flat h _ (setOf_mem he)
    exact value_flat hv

theorem sets_flat {sets : List PropertySet} {bs : Bytes} (h : SetsEnc sets bs) : ∀ s ∈ sets, SetFlat s := by
  induction sets generalizing bs with
  | nil => exact fun _ h => nomatch h
  | cons s sets ih =>
    cases h with
    | cons es bs _ bs' h hs =>
      intro x hx
      rcases List.mem_cons.1 hx with rfl | hx
      · exact set_flat h
      · exact ih hs x hx

theorem set_deep {es : List (Nat × PropertyValue)} {bs : Bytes} (h : SetEnc es bs) :
    ∀ e ∈ setOf es, Deep e.2.2 := by
  cases h with
  | mk _ _ _ _ h =>
    intro e he
    obtain ⟨_, _, _, hv⟩ := entries_flat h _ (setOf_mem he)
    refine ⟨value_flat hv, fun k sets hs => ?_⟩
    simp only at hv
    rw [hs] at hv
    cases hv with
    | propertyValues _ _ _ _ _ _ h => exact sets_flat h

theorem props_fit {data : Bytes} {props : ObjectPropSet} (h : PropsAre data props) :
    ∀ e ∈ props.properties, Deep e.2.2 := by
  obtain ⟨es, bs, rest, henc, _, _, _, hps, _⟩ := h
  rw [hps]
  generalize props.objectSpaceIds = a, props.contextIds = b at henc
  cases henc with
  | oids _ _ _ _ _ h => exact set_deep h
  | osids _ _ _ _ _ _ _ _ _ h => exact set_deep h
  | contexts _ _ _ _ _ _ _ _ _ _ _ _ _ _ h => exact set_deep h

/-- The first element with a property. -/
theorem first {α : Type} {P : α → Prop} {l : List α} (h : ∃ a ∈ l, P a) :
    ∃ pre a post, l = pre ++ a :: post ∧ (∀ b ∈ pre, ¬ P b) ∧ P a := by
  induction l with
  | nil => obtain ⟨_, h, _⟩ := h; cases h
  | cons x l ih =>
    by_cases hx : P x
    · exact ⟨[], x, l, rfl, fun _ h => (nomatch h), hx⟩
    · obtain ⟨a, ha, hp⟩ := h
      rcases List.mem_cons.1 ha with rfl | ha
      · exact absurd hp hx
      · obtain ⟨pre, a, post, rfl, hpre, hp⟩ := ih ⟨a, ha, hp⟩
        exact ⟨x :: pre, a, post, rfl, fun b hb => (List.mem_cons.1 hb).elim (fun e => e ▸ hx) (hpre b), hp⟩

theorem space_fits {pkg : Package} {si : StorageIndex} {m : CellMapping} {s : ObjectSpace}
    (h : SpaceIs pkg si m s) : SpaceFits s := by
  intro id o ho
  rcases h.contents with ⟨r, ms, _, _, hh⟩ | ⟨_, _, hn, _⟩
  · by_cases hd : ∃ g ∈ groupsOf pkg ms, Declares g id
    · obtain ⟨pre, g, post, he, hpre, hg⟩ := first hd
      obtain ⟨_, o', ho', hi⟩ := hh.present id pre g post he hpre hg
      rw [ho] at ho'
      cases ho'
      obtain ⟨_, _, _, _, hp, _⟩ := hi.properties
      exact props_fit hp
    · rw [hh.absent id fun g hg h => hd ⟨g, hg, h⟩] at ho
      cases ho
  · rw [hn id] at ho
    cases ho

/-- The values in the store of a file fit. -/
theorem store_fits {data : Bytes} {store : Store} (h : FileStore data store) :
    SpaceFits store.dataRoot ∧ ∀ c space, store.objectSpace c = some space → SpaceFits space := by
  obtain ⟨p, _, si, sm, hc, dc, _, _, _, _, _, _, ⟨m, _, hroot⟩, hsp, hno⟩ := h
  refine ⟨space_fits hroot, fun c space hs => ?_⟩
  by_cases hm : ∃ m, IsOther si hc dc c m
  · obtain ⟨m, hm⟩ := hm
    obtain ⟨space', hs', hi⟩ := hsp c m hm
    unfold Store.objectSpace at hs
    rw [hs] at hs'
    cases hs'
    exact space_fits hi
  · unfold Store.objectSpace at hs
    rw [hno c hm] at hs
    cases hs

/-! ### Fields -/

theorem get_deep {o : Object} (hf : ObjectFits o) {w : Nat} {v : PropertyValue}
    (h : o.props.properties.get w = some v) : Deep v := by
  unfold PropertySet.get at h
  obtain ⟨⟨i, v'⟩, hg, rfl⟩ := Option.map_eq_some_iff.1 h
  exact hf _ (Map.mem_of_get? hg)

theorem get_flat {ps : PropertySet} (hf : SetFlat ps) {w : Nat} {v : PropertyValue}
    (h : ps.get w = some v) : Flat v := by
  unfold PropertySet.get at h
  obtain ⟨⟨i, v'⟩, hg, rfl⟩ := Option.map_eq_some_iff.1 h
  exact hf _ (Map.mem_of_get? hg)

theorem object_flat {o : Object} (hf : ObjectFits o) : SetFlat o.props.properties := fun e he => (hf e he).1

/-- The nested sets of an object fit. -/
theorem nested_flat {o : Object} (hf : ObjectFits o) {w : Nat} {inners : List Object}
    (h : Nested o w inners) : ∀ i ∈ inners, SetFlat i.props.properties := by
  rcases h with ⟨_, rfl⟩ | ⟨kind, sets, hg, he⟩
  · exact fun _ h => nomatch h
  · have := (get_deep hf hg).2 kind sets rfl
    clear hg
    induction he with
    | nil => exact fun _ h => nomatch h
    | cons h1 _ ih =>
      intro i hi
      rcases List.mem_cons.1 hi with rfl | hi
      · obtain ⟨_, _, _, _, rfl⟩ := h1
        exact this _ List.mem_cons_self
      · exact ih (fun s hs => this s (List.mem_cons_of_mem _ hs)) i hi

section

variable {α : Type} {R : Reading α} {P : α → Prop} {ps : PropertySet} {w : Nat}

theorem opt (hf : SetFlat ps) {r : Option α} (h : Optional ps w R r)
    (hR : ∀ v a, Flat v → R v a → P a) : Opt P r := by
  intro a ha
  rcases h with ⟨_, rfl⟩ | ⟨v, b, hg, hr, rfl⟩
  · cases ha
  · cases ha
    exact hR v _ (get_flat hf hg) hr

theorem req (hf : SetFlat ps) {a : α} (h : Required ps w R a)
    (hR : ∀ v a, Flat v → R v a → P a) : P a := by
  obtain ⟨v, hg, hr⟩ := h
  exact hR v _ (get_flat hf hg) hr

theorem dflt (hf : SetFlat ps) {d a : α} (h : Default ps w R d a) (hd : P d)
    (hR : ∀ v a, Flat v → R v a → P a) : P a := by
  rcases h with ⟨_, rfl⟩ | ⟨v, hg, hr⟩
  · exact hd
  · exact hR v _ (get_flat hf hg) hr

end

/-! ### Values -/

theorem u8 (v : PropertyValue) (n : Nat) (hf : Flat v) (h : Value.u8 v n) : Bits 8 n := by
  cases h; exact hf
theorem u16 (v : PropertyValue) (n : Nat) (hf : Flat v) (h : Value.u16 v n) : Bits 16 n := by
  cases h; exact hf
theorem u32 (v : PropertyValue) (n : Nat) (hf : Flat v) (h : Value.u32 v n) : Bits 32 n := by
  cases h; exact hf
theorem f32 (v : PropertyValue) (n : F32) (hf : Flat v) (h : Value.f32 v n) : Bits 32 n := by
  cases h; exact hf

theorem text (v : PropertyValue) (t : Text) (_ : Flat v) (h : Value.text v t) : Plain t := by
  obtain ⟨_, _, h, _⟩ := h
  exact h

theorem i32 (v : PropertyValue) (i : Int) (hf : Flat v) (h : Value.i32 v i) : -2 ^ 31 ≤ i ∧ i < 2 ^ 31 := by
  obtain ⟨n, rfl, rfl⟩ := h
  have : n < 2 ^ 32 := hf
  split <;> omega

theorem color (v : PropertyValue) (c : Color) (_ : Flat v) (h : Value.color v c) : ColorOk c := by
  obtain ⟨n, _, h1, h2, h3, h4⟩ := h
  exact ⟨by omega, by omega, by omega, by omega⟩

theorem colorRef (v : PropertyValue) (c : ColorRef) (_ : Flat v) (h : Value.colorRef v c) : ColorRefOk c := by
  obtain ⟨n, _, ⟨_, rfl⟩ | ⟨_, rfl⟩⟩ := h
  · trivial
  · exact ⟨Nat.mod_lt _ (by decide), Nat.mod_lt _ (by decide), Nat.mod_lt _ (by decide)⟩

theorem u32s (v : PropertyValue) (ns : List Nat) (_ : Flat v) (h : Value.u32s v ns) : ∀ n ∈ ns, Bits 32 n := by
  obtain ⟨_, _, _, h⟩ := h
  exact h

theorem indents (v : PropertyValue) (ns : List F32) (_ : Flat v) (h : Value.indents v ns) : IndentsOk ns := by
  obtain ⟨_, _, _, _, _, h⟩ := h
  exact h

theorem columnWidths (v : PropertyValue) (ns : List F32) (_ : Flat v) (h : Value.columnWidths v ns) :
    ∀ n ∈ ns, Bits 32 n := by
  obtain ⟨_, _, _, _, _, h⟩ := h
  exact h

theorem unit (v : PropertyValue) (c : Char) (hf : Flat v) (h : Value.unit v c) : Bits 16 c.toNat := by
  obtain ⟨n, rfl, _, _, rfl⟩ := h
  have : n < 2 ^ 16 := hf
  unfold Bits
  unfold Char.ofNat
  split
  · exact this
  · exact Nat.two_pow_pos 16

theorem latin1 (v : PropertyValue) (t : Text) (_ : Flat v) (h : Value.latin1 v t) : ∀ c ∈ t, c.toNat < 256 := by
  obtain ⟨d, _, rfl⟩ := h
  intro c hc
  obtain ⟨b, _, rfl⟩ := List.mem_map.1 hc
  have : b.toNat < 256 := b.toNat_lt
  unfold Char.ofNat
  split
  · exact this
  · exact (by decide : (0 : Nat) < 256)

theorem itemType (v : PropertyValue) (t : ActionItemType) (_ : Flat v) (h : Value.itemType v t) :
    ∀ n, t = .numeric n → n ≤ 99 := by
  obtain ⟨n, _, h⟩ := h
  rintro k rfl
  have := h.1
  have := h.2
  omega

theorem box (v : PropertyValue) (r : Option (Nat × Nat × Nat × Nat)) (hf : Flat v) (h : Value.box v r) :
    Opt (fun b => Bits 32 b.1 ∧ Bits 32 b.2.1 ∧ Bits 32 b.2.2.1 ∧ Bits 32 b.2.2.2) r := by
  obtain ⟨ns, hu, ⟨a, b, c, d, rfl, rfl⟩ | ⟨_, rfl⟩⟩ := h
  · have := u32s v _ hf hu
    intro x hx
    cases hx
    simp only [List.forall_mem_cons] at this
    exact ⟨this.1, this.2.1, this.2.2.1, this.2.2.2.1⟩
  · exact fun _ h => nomatch h

theorem unzigzag {n : Nat} (h : n < 2 ^ 64) : (Ink.unzigzag n).natAbs < 2 ^ 63 := by
  unfold Ink.unzigzag
  split <;> omega

theorem numbers {data : Bytes} {ns : List Nat} (h : Value.Numbers data ns) :
    ns.length ≤ data.length ∧ ∀ n ∈ ns, n < 2 ^ 64 := by
  induction h with
  | nil => exact ⟨Nat.zero_le _, fun _ h => nomatch h⟩
  | cons h1 _ ih =>
    obtain ⟨bs, rfl, _, rfl, hc⟩ := h1
    have hbs : bs ≠ [] := by
      rcases hc with hc | hc
      · rintro rfl
        exact hc
      · exact hc.1
    have := List.length_pos_iff.2 hbs
    refine ⟨?_, ?_⟩
    · rw [List.length_append, List.length_cons]
      have := ih.1
      omega
    · exact List.forall_mem_cons.2 ⟨Nat.mod_lt _ (by decide), ih.2⟩

theorem path (v : PropertyValue) (is : List Int) (hf : Flat v) (h : Value.path v is) :
    is.length < 2 ^ 32 ∧ ∀ i ∈ is, i.natAbs < 2 ^ 63 := by
  obtain ⟨data, k, rest, ns, rfl, ⟨bs, rfl, _⟩, hns, _, rfl⟩ := h
  obtain ⟨hl, hn⟩ := numbers hns
  have : (bs ++ rest).length < 2 ^ 32 := hf
  rw [List.length_append] at this
  refine ⟨by rw [List.length_map]; omega, fun i hi => ?_⟩
  obtain ⟨n, hm, rfl⟩ := List.mem_map.1 hi
  exact unzigzag (hn n hm)

end OneNote.Bounded
