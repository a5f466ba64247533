/-
A file that is not too long has trees that are not too large.
-/
import Verif.Lemmas.Amount
import Verif.Lemmas.WriteFits

namespace OneNote.Writer

open Spec Spec.Writer Spec.Storable OneNote.Amount

theorem listW_mem {α : Type} {f : α → Bytes} {l : List α} {a : α} (h : a ∈ l) :
    (f a).length ≤ (listW f l).length := by
  induction l with
  | nil => cases h
  | cons b l ih =>
    rw [listW, List.length_append]
    rcases List.mem_cons.1 h with rfl | h
    · omega
    · have := ih h
      omega

theorem flatMap_count {α : Type} {f : α → Bytes} (hf : ∀ a, 1 ≤ (f a).length) (l : List α) :
    l.length ≤ (l.flatMap f).length := by
  induction l with
  | nil => exact Nat.zero_le _
  | cons b l ih =>
    rw [List.flatMap_cons, List.length_append, List.length_cons]
    have := hf b
    omega

theorem listW_append {α : Type} (f : α → Bytes) (a b : List α) :
    listW f (a ++ b) = listW f a ++ listW f b := by
  induction a with
  | nil => rfl
  | cons x a ih => rw [List.cons_append, listW, listW, ih, List.append_assoc]

/-! ### Objects -/

/-- What `Tree.Short` says of one object. -/
structure ObjShort (o : Obj) : Prop where
  blob : ∀ d, o.blob = some d → d.length < 2 ^ 64
  props : ∀ e ∈ o.props, e.2.Short
  bytes : (propsBytes o.refs.length o.cells.length o.props).length < 2 ^ 64
  cells : o.cells.length < 2 ^ 24
  refs : o.refs.length < 2 ^ 24

mutual

theorem tree_short (n : Nat) : (t : Tree) → (∀ o ∈ t.objects n, ObjShort o) → t.Short
  | .mk kind blob props cells children, h => by
    rw [Tree.objects] at h
    obtain ⟨h1, h2⟩ := List.forall_mem_cons.1 h
    have hb := h1.bytes
    have hr := h1.refs
    simp only [starts_length] at hb hr
    exact .mk h1.blob h1.props hb h1.cells hr (trees_short (n + 1) children h2)

theorem trees_short (n : Nat) : (ts : List Tree) → (∀ o ∈ objectsOf n ts, ObjShort o) →
    ∀ t ∈ ts, t.Short
  | [], _ => fun _ h => nomatch h
  | t :: ts, h => by
    rw [objectsOf] at h
    exact List.forall_mem_cons.2 ⟨tree_short n t fun o ho => h o (List.mem_append_left _ ho),
      trees_short _ ts fun o ho => h o (List.mem_append_right _ ho)⟩

end

/-- The references of an object are as many as its properties say. -/
def ObjWithin (o : Obj) : Prop :=
  (∀ e ∈ o.props, e.2.Within o.refs.length o.cells.length) ∧ ∀ c ∈ o.cells, c.fst.guid ≠ Guid.nil

mutual

theorem tree_within {num : Nat} (n : Nat) : (t : Tree) → t.Fits num → ∀ o ∈ t.objects n, ObjWithin o
  | .mk kind blob props cells children, hf => by
    cases hf with
    | mk hk hc hp hcells hch =>
    rw [Tree.objects]
    refine List.forall_mem_cons.2 ⟨⟨fun e he => ?_, fun c hc => (hcells c hc).1.2⟩,
      trees_within (n + 1) children hch⟩
    simp only [starts_length]
    exact (hp e he).2

theorem trees_within {num : Nat} (n : Nat) : (ts : List Tree) → (∀ t ∈ ts, t.Fits num) →
    ∀ o ∈ objectsOf n ts, ObjWithin o
  | [], _ => fun _ h => nomatch h
  | t :: ts, hf => by
    obtain ⟨h1, h2⟩ := List.forall_mem_cons.1 hf
    rw [objectsOf]
    intro o ho
    rcases List.mem_append.1 ho with ho | ho
    · exact tree_within n t h1 o ho
    · exact trees_within _ ts h2 o ho

end

theorem val_short {v : Val} {r c : Nat} (hw : v.Within r c) (hr : r < 2 ^ 24) (hc : c < 2 ^ 24)
    (hl : v.bytes.length < 2 ^ 32) : v.Short := by
  cases v with
  | vec d =>
    rw [Val.bytes, List.length_append] at hl
    exact Nat.lt_of_le_of_lt (Nat.le_add_left _ _) hl
  | refs n => exact Nat.lt_of_le_of_lt hw (Nat.lt_trans hr (by decide))
  | cells n => exact Nat.lt_of_le_of_lt hw (Nat.lt_trans hc (by decide))
  | _ => trivial

theorem entry_short {e : Entry} {r c : Nat} (hw : e.Within r c) (hr : r < 2 ^ 24) (hc : c < 2 ^ 24)
    (hl : e.bytes.length < 2 ^ 32) : e.Short := by
  cases e with
  | val v => exact val_short hw hr hc hl
  | sets k ss =>
    rw [Entry.bytes, List.length_append, List.length_append] at hl
    have h1 : ss.length ≤ (ss.flatMap setBytes).length := flatMap_count (fun s => by
      rw [setBytes, List.length_append, leBytes_length]
      omega) ss
    refine ⟨by omega, fun s hs x hx => val_short (hw s hs x hx) hr hc ?_⟩
    have h2 : (setBytes s).length ≤ (ss.flatMap setBytes).length := length_le_flatMap hs
    have h3 : x.2.bytes.length ≤ (s.flatMap fun e => e.2.bytes).length :=
      length_le_flatMap (f := fun e : Nat × Val => e.2.bytes) hx
    rw [setBytes, List.length_append, List.length_append] at h2
    omega

theorem props_le {r c : Nat} {props : List (Nat × Entry)} {e : Nat × Entry} (he : e ∈ props) :
    e.2.bytes.length ≤ (propsBytes r c props).length := by
  have : e.2.bytes.length ≤ (props.flatMap fun e => e.2.bytes).length :=
    length_le_flatMap (f := fun e : Nat × Entry => e.2.bytes) he
  unfold propsBytes
  simp only [List.length_append]
  omega

/-! ### The bytes of an object -/

theorem object_short {o : Obj} (hw : ObjWithin o)
    (hp : (propsBytes o.refs.length o.cells.length o.props).length < 2 ^ 32)
    (hr : o.refs.length < 2 ^ 24) (hc : o.cells.length < 2 ^ 24)
    (hb : ∀ d, o.blob = some d → d.length < 2 ^ 64) : ObjShort o :=
  ⟨hb, fun e he => entry_short (hw.1 e he) hr hc (Nat.lt_of_le_of_lt (props_le he) hp),
    Nat.lt_trans hp (by decide), hc, hr⟩

theorem parts_two (objects : List Obj) : objects.length ≤ (objects.flatMap Obj.parts).length := by
  induction objects with
  | nil => exact Nat.zero_le _
  | cons o objects ih =>
    rw [List.flatMap_cons, List.length_append, List.length_cons]
    have : 1 ≤ o.parts.length := by
      unfold Obj.parts
      rw [List.length_append]
      exact Nat.le_trans (Nat.le_add_left 1 1) (Nat.le_add_right _ _)
    omega

theorem listW_length {α : Type} {f : α → Bytes} (hf : ∀ a, 1 ≤ (f a).length) (l : List α) :
    l.length ≤ (listW f l).length := by
  induction l with
  | nil => exact Nat.zero_le _
  | cons b l ih =>
    rw [listW, List.length_append, List.length_cons]
    have := hf b
    omega

theorem hdr16_pos (t : ObjectType) : 1 ≤ (hdr16 t).length := by
  cases t <;> decide

theorem group_length (objects : List Obj) : objects.length ≤ (bodyW (groupBody objects)).length := by
  have h1 := parts_two objects
  have h2 := listW_length (f := groupDataW) (fun a => by
    cases a <;> (unfold groupDataW; rw [List.length_append]; exact Nat.le_trans (hdr16_pos _) (Nat.le_add_right _ _)))
    ((objects.flatMap Obj.parts).map Prod.snd)
  rw [List.length_map] at h2
  unfold groupBody bodyW
  simp only [List.length_append]
  omega

theorem exGuid_length {e : ExGuid} (h : e.guid ≠ Guid.nil) : 16 ≤ (exGuid e).length := by
  have hg : (Spec.guid e.guid).length = 16 := rfl
  unfold exGuid
  rw [if_neg fun h' => h h'.1]
  split
  · rw [List.length_append]; omega
  · split
    · rw [List.length_append]; omega
    · split <;> (rw [List.length_append]; omega)

theorem listW_each {α : Type} {f : α → Bytes} {l : List α} (hf : ∀ a ∈ l, 16 ≤ (f a).length) :
    16 * l.length ≤ (listW f l).length := by
  induction l with
  | nil => exact Nat.zero_le _
  | cons b l ih =>
    rw [listW, List.length_append, List.length_cons]
    have := hf b List.mem_cons_self
    have := ih fun a ha => hf a (List.mem_cons_of_mem _ ha)
    omega

theorem refs_bytes (refs : List Nat) : 16 * refs.length ≤ (arrayW exGuid (refs.map sx)).length := by
  have := listW_each (f := exGuid) (l := refs.map sx) (by
    intro a ha
    obtain ⟨r, -, rfl⟩ := List.mem_map.1 ha
    exact exGuid_length (show sampleGuid ≠ Guid.nil by decide))
  rw [List.length_map] at this
  unfold arrayW
  rw [List.length_append]
  omega

theorem cells_bytes {o : Obj} (h : ∀ c ∈ o.cells, c.fst.guid ≠ Guid.nil) : 16 * o.cells.length ≤ (arrayW cellIdW o.cells).length := by
  have := listW_each (f := cellIdW) (l := o.cells) (by
    intro c hc
    have := exGuid_length (h c hc)
    unfold cellIdW
    rw [List.length_append]
    omega)
  unfold arrayW
  rw [List.length_append]
  omega

theorem group_props {objects : List Obj} {o : Obj} (ho : o ∈ objects) :
    16 * o.refs.length + (arrayW cellIdW o.cells).length +
      (propsBytes o.refs.length o.cells.length o.props).length ≤ (bodyW (groupBody objects)).length := by
  have h1 : GroupData.object (o.refs.map sx) o.cells (propsBytes o.refs.length o.cells.length o.props) ∈
      (objects.flatMap Obj.parts).map Prod.snd :=
    List.mem_map.2 ⟨_, List.mem_flatMap.2 ⟨o, ho,
      List.mem_append_left _ (List.mem_cons_of_mem _ List.mem_cons_self)⟩, rfl⟩
  have h2 := listW_mem (f := groupDataW) h1
  rw [groupDataW, binaryW] at h2
  simp only [List.length_append] at h2
  have h3 := refs_bytes o.refs
  unfold groupBody bodyW
  simp only [List.length_append]
  omega

theorem element_body (e : Element) : (bodyW e.body).length ≤ (elementW e).length := by
  unfold elementW
  simp only [List.length_append]
  omega

theorem elements_count (cells : List Cell) :
    (cells.flatMap (·.objects)).length ≤ (listW elementW (cells.flatMap Cell.elements)).length := by
  induction cells with
  | nil => exact Nat.zero_le _
  | cons c cells ih =>
    rw [List.flatMap_cons, List.flatMap_cons, List.length_append, listW_append, List.length_append]
    have h1 := group_length c.objects
    have h2 : (elementW ⟨sx c.num, groupBody c.objects⟩).length ≤ (listW elementW c.elements).length :=
      listW_mem (List.mem_cons_of_mem _ (List.mem_cons_of_mem _ List.mem_cons_self))
    have h3 : (bodyW (groupBody c.objects)).length ≤ _ := element_body ⟨sx c.num, groupBody c.objects⟩
    omega

theorem pages_total (ps : List (Tree × Tree)) : ps.length ≤ total ps := by
  induction ps with
  | nil => exact Nat.zero_le _
  | cons p ps ih =>
    obtain ⟨c, i⟩ := p
    have := Tree.size_pos c
    rw [List.length_cons, total]
    omega

theorem file_elements (si : ExGuid) (schema : Guid) (es : List Element) :
    (listW elementW es).length ≤ (fileW si schema es).length := by
  unfold fileW tailW packageW
  simp only [List.length_append, List.length_cons]
  omega

/-- What a file with a limited length has. -/
theorem file_short {schema : Guid} {ps : List (Tree × Tree)} {n : Nat} (hn : n ≤ 2 ^ 28)
    (hf : ∀ (k : Nat) (p : Tree × Tree), ps[k]? = some p → p.1.Fits (2 + k) ∧ p.2.Fits (2 + k))
    (hl : (listW elementW (fileElements schema (cellsFrom 2 1 ps))).length < n) :
    PairsFit 2 ps ∧ total ps < n := by
  unfold fileElements at hl
  simp only [listW_append, List.length_append] at hl
  constructor
  · intro k p hk
    obtain ⟨h1, h2⟩ := hf k p hk
    obtain ⟨x, hx, hnum⟩ := getElem_cells (num := 2) (id := 1) hk
    obtain ⟨c, i, h3, h4, h5, h6, h7, h8, h9⟩ := mem_cellsFrom hx
    rw [hnum, show 2 + k - 2 = k by omega, hk] at h9
    cases h9
    have key : ∀ o ∈ objectsOf x.content [c, i], ObjShort o := by
      intro o ho
      have hw := trees_within x.content [c, i] (List.forall_mem_cons.2 ⟨h1,
        List.forall_mem_cons.2 ⟨h2, fun _ h => nomatch h⟩⟩) o ho
      rw [← h5] at ho
      have hg : 16 * o.refs.length + (arrayW cellIdW o.cells).length +
          (propsBytes o.refs.length o.cells.length o.props).length < 2 ^ 28 := by
        have a := group_props ho
        have b : (bodyW (groupBody x.objects)).length ≤ (elementW ⟨sx x.num, groupBody x.objects⟩).length :=
          element_body ⟨sx x.num, groupBody x.objects⟩
        have c : (elementW ⟨sx x.num, groupBody x.objects⟩).length ≤
            (listW elementW ((cellsFrom 2 1 ps).flatMap Cell.elements)).length :=
          listW_mem (List.mem_flatMap.2 ⟨x, hx,
            List.mem_cons_of_mem _ (List.mem_cons_of_mem _ List.mem_cons_self)⟩)
        omega
      have hcb := cells_bytes hw.2
      refine object_short hw (by omega) (by omega) (by omega) fun d hd => ?_
      · have a : (bodyW (.blob d)).length ≤ (elementW ⟨sx o.id, .blob d⟩).length :=
          element_body ⟨sx o.id, .blob d⟩
        have b : (elementW ⟨sx o.id, .blob d⟩).length ≤
            (listW elementW ((cellsFrom 2 1 ps).flatMap Cell.blobs)).length :=
          listW_mem (List.mem_flatMap.2 ⟨x, hx, List.mem_filterMap.2 ⟨o, ho, by rw [hd]; rfl⟩⟩)
        unfold bodyW binaryW at a
        simp only [List.length_append] at a
        omega
    have := trees_short x.content [c, i] key
    exact ⟨⟨h1, this c List.mem_cons_self⟩, h2, this i (List.mem_cons_of_mem _ List.mem_cons_self)⟩
  · have a := elements_count (cellsFrom 2 1 ps)
    have b := congrArg List.length (cells_ids 2 1 ps)
    rw [List.length_map, List.length_range'] at b
    omega

theorem total_sum (ps : List (Tree × Tree)) : (ps.map fun p => p.1.size + p.2.size).sum = total ps := by
  induction ps with
  | nil => rfl
  | cons p ps ih =>
    obtain ⟨c, i⟩ := p
    rw [List.map_cons, List.sum_cons, ih, total]

/-- Within the limits everything fits. -/
theorem limits_fit {ps : List (Tree × Tree)} (h : WithinLimits ps)
    (hf : ∀ (k : Nat) (p : Tree × Tree), ps[k]? = some p → p.1.Fits (2 + k) ∧ p.2.Fits (2 + k)) :
    PairsFit 2 ps ∧ total ps + 1 < 2 ^ 32 := by
  refine ⟨fun k p hk => ?_, total_sum ps ▸ h.count⟩
  obtain ⟨h1, h2⟩ := h.objects p (List.mem_of_getElem? hk)
  obtain ⟨h3, h4⟩ := hf k p hk
  exact ⟨⟨h3, h1⟩, h4, h2⟩

/-- Files that are not long are within the limits. -/
theorem limits_of_short {schema : Guid} {ps : List (Tree × Tree)}
    (hf : ∀ (k : Nat) (p : Tree × Tree), ps[k]? = some p → p.1.Fits (2 + k) ∧ p.2.Fits (2 + k))
    (hl : (listW elementW (fileElements schema (cellsFrom 2 1 ps))).length < 2 ^ 28) :
    WithinLimits ps := by
  obtain ⟨h1, h2⟩ := file_short (Nat.le_refl _) hf hl
  refine ⟨fun p hp => ?_, by rw [total_sum]; omega⟩
  obtain ⟨k, hk⟩ := List.getElem?_of_mem hp
  obtain ⟨⟨-, h3⟩, -, h4⟩ := h1 k p hk
  exact ⟨h3, h4⟩

end OneNote.Writer
