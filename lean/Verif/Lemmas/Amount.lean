/-
The lists of a section are no longer than the file.
-/
import Verif.Lemmas.Shown
import Verif.Lemmas.Size
import Verif.Spec.Amount

namespace OneNote.Amount

open Spec Spec.StoreContents Spec.Document Spec.Fields Spec.Objects Spec.Shown

/-- The object has at most `k` identifiers of each kind. -/
def Few (k : Nat) (o : Object) : Prop :=
  o.props.objectIds.length ≤ k ∧ o.props.objectSpaceIds.length ≤ k

theorem range_few {α : Type} {f : Nat → Option α} {k : Nat} (h : ∀ j, k ≤ j → f j = none) (n : Nat) :
    ((List.range n).filterMap f).length ≤ k := by
  have : ∀ n, ((List.range n).filterMap f).length ≤ min n k := by
    intro n
    induction n with
    | zero => simp
    | succ n ih =>
      rw [List.range_succ, List.filterMap_append, List.length_append]
      by_cases hn : k ≤ n
      · simp only [List.filterMap_cons, h n hn, List.filterMap_nil, List.length_nil]
        omega
      · have := List.length_filterMap_le f [n]
        simp only [List.length_cons, List.length_nil] at this
        omega
  exact Nat.le_trans (this n) (Nat.min_le_right _ _)

theorem refList_few {k : Nat} {o : Object} (h : Few k o) {w : Nat} {ids : List ExGuid}
    (hr : RefList o w ids) : ids.length ≤ k := by
  obtain ⟨n, pos, -, -, rfl⟩ := hr
  refine Nat.le_trans (range_few (k := o.props.objectIds.length) (fun j hj => ?_) n) h.1
  rw [List.getElem?_eq_none (by omega)]
  rfl

theorem refs_few {k : Nat} {o : Object} (h : Few k o) {w : Nat} {ids : List ExGuid}
    (hr : Refs o w ids) : ids.length ≤ k := by
  rcases hr with ⟨-, rfl⟩ | hr
  · exact Nat.zero_le _
  · exact refList_few h hr

theorem cells_few {k : Nat} {o : Object} (h : Few k o) {w : Nat} {ids : List CellId}
    (hr : CellRefs o w ids) : ids.length ≤ k := by
  rcases hr with ⟨-, rfl⟩ | ⟨n, pos, -, -, rfl⟩
  · exact Nat.zero_le _
  · refine Nat.le_trans (range_few (k := o.props.objectSpaceIds.length) (fun j hj => ?_) n) h.2
    rw [List.getElem?_eq_none (by omega)]
    rfl

/-- Every object of the space has at most `k` identifiers of each kind. -/
def FewIn (k : Nat) (space : ObjectSpace) : Prop := ∀ id o, At space id o → Few k o

theorem each_length {α β : Type} {R : α → β → Prop} {as : List α} {bs : List β} (h : Each R as bs) :
    bs.length = as.length := by
  induction h with
  | nil => rfl
  | cons _ _ ih => simp [ih]

mutual

theorem item_few {k n : Nat} {space : ObjectSpace} (hf : FewIn k space) {i : OutlineItem}
    (h : ListInItem n i) : ∀ {id : ExGuid}, ItemIs space id i → n ≤ k := by
  intro id hi
  match h with
  | .items hm =>
    cases hi with
    | group ha ho he =>
      rw [← hm]
      show List.length _ ≤ _
      rw [each_length he]
      exact refs_few (hf _ _ ha) ho.children
  | .nested hm hin =>
    cases hi with
    | group _ _ he =>
      obtain ⟨_, _, hx⟩ := each_mem he hm
      exact item_few hf hin hx
  | .element hin =>
    cases hi with
    | element he => exact element_few hf hin he

theorem element_few {k n : Nat} {space : ObjectSpace} (hf : FewIn k space) {e : OutlineElement}
    (h : ListInElement n e) : ∀ {id : ExGuid}, ElementIs space id e → n ≤ k := by
  intro id hi
  match h with
  | .contents hm =>
    cases hi with
    | mk ha ho _ hc _ =>
      rw [← hm]
      show List.length _ ≤ _
      rw [each_length hc]
      exact refs_few (hf _ _ ha) ho.contents
  | .lists hm =>
    cases hi with
    | mk ha ho _ _ hc =>
      rw [← hm]
      show List.length _ ≤ _
      rw [each_length hc]
      exact refs_few (hf _ _ ha) ho.listContents
  | .children hm =>
    cases hi with
    | mk ha ho hc _ _ =>
      rw [← hm]
      show List.length _ ≤ _
      rw [each_length hc]
      exact refs_few (hf _ _ ha) ho.children
  | .child hm hin =>
    cases hi with
    | mk _ _ hc _ _ =>
      obtain ⟨_, _, hx⟩ := each_mem hc hm
      exact item_few hf hin hx
  | .rows ht hm =>
    cases hi with
    | mk _ _ _ hc _ =>
      obtain ⟨_, _, hx⟩ := each_mem hc ht
      cases hx with
      | table ha ho hrows _ =>
        rw [← hm]
        show List.length _ ≤ _
        rw [each_length hrows]
        exact refList_few (hf _ _ ha) ho.rows
  | .cells ht hr hm =>
    cases hi with
    | mk _ _ _ hc _ =>
      obtain ⟨_, _, hx⟩ := each_mem hc ht
      cases hx with
      | table _ _ hrows _ =>
        obtain ⟨_, _, hx⟩ := each_mem hrows hr
        cases hx with
        | mk ha ho hcells =>
          rw [← hm]
          show List.length _ ≤ _
          rw [each_length hcells]
          exact refList_few (hf _ _ ha) ho.cells
  | .elements ht hr hk hm =>
    cases hi with
    | mk _ _ _ hc _ =>
      obtain ⟨_, _, hx⟩ := each_mem hc ht
      cases hx with
      | table _ _ hrows _ =>
        obtain ⟨_, _, hx⟩ := each_mem hrows hr
        cases hx with
        | mk _ _ hcells =>
          obtain ⟨_, _, hx⟩ := each_mem hcells hk
          cases hx with
          | mk ha ho hes =>
            rw [← hm]
            show List.length _ ≤ _
            rw [each_length hes]
            exact refList_few (hf _ _ ha) ho.contents
  | .cell ht hr hk he hin =>
    cases hi with
    | mk _ _ _ hc _ =>
      obtain ⟨_, _, hx⟩ := each_mem hc ht
      cases hx with
      | table _ _ hrows _ =>
        obtain ⟨_, _, hx⟩ := each_mem hrows hr
        cases hx with
        | mk _ _ hcells =>
          obtain ⟨_, _, hx⟩ := each_mem hcells hk
          cases hx with
          | mk _ _ hes =>
            obtain ⟨_, _, hx⟩ := each_mem hes he
            exact element_few hf hin hx

end

theorem page_few {k : Nat} {space : ObjectSpace} (hf : FewIn k space) {p : Page} (h : PageIs space p) :
    p.contents.length ≤ k ∧ ∀ t, p.title = some t → t.contents.length ≤ k := by
  obtain ⟨_, _, _, _, _, _, _, n, title, contents, -, -, -, -, -, -, ha, ho, ht, hc, rfl⟩ := h
  constructor
  · show contents.length ≤ k
    rw [each_length hc]
    exact refs_few (hf _ _ ha) ho.content
  · intro t h
    have h : title = some t := h
    rcases ht with ⟨-, h0⟩ | ⟨x, y, -, hy, ot, nt, cs, ha, ho, hcs, rfl⟩
    · rw [h0] at h; cases h
    · rw [hy] at h
      cases h
      show cs.length ≤ k
      rw [each_length hcs]
      exact refList_few (hf _ _ ha) ho.children

theorem outline_few {k : Nat} {space : ObjectSpace} (hf : FewIn k space) {p : Page}
    (h : PageIs space p) {o : Outline} (ho : OutlineOn o p) :
    o.items.length ≤ k ∧ ∀ i ∈ o.items, ∀ n, ListInItem n i → n ≤ k := by
  obtain ⟨id, _, n, items, ha, hn, hitems, rfl⟩ := outline_object h ho
  refine ⟨?_, fun i hi n hl => ?_⟩
  · show items.length ≤ k
    rw [each_length hitems]
    exact refs_few (hf _ _ ha) hn.children
  · obtain ⟨_, _, hx⟩ := each_mem hitems hi
    exact item_few hf hl hx

theorem section_few {k : Nat} {store : Store} {name : Text} {s : Section} (h : SectionIs store name s)
    (h0 : FewIn k store.dataRoot)
    (h1 : ∀ cell space, store.objectSpace cell = some space → FewIn k space) {n : Nat}
    (hl : ListIn n s) : n ≤ k := by
  have page : ∀ p, PageOf p s → ∃ space, FewIn k space ∧ PageIs space p := by
    intro p hp
    obtain ⟨cell, space, hs, hi⟩ := page_space h hp
    exact ⟨space, h1 _ _ hs, hi⟩
  cases hl with
  | series hn =>
    obtain ⟨_, _, _, _, _, _, _, _, _, _, ha, ho, _, hs, _⟩ := h
    rw [← hn, each_length hs]
    exact refs_few (h0 _ _ ha) ho.pageSeries
  | pages hm hn =>
    obtain ⟨_, _, _, _, _, _, _, _, _, _, _, _, _, hs, _⟩ := h
    obtain ⟨_, _, _, _, ha, ho, he⟩ := each_mem hs hm
    rw [← hn, each_length he]
    exact cells_few (h0 _ _ ha) ho.pageSpaces
  | contents hp hn =>
    obtain ⟨space, hf, hi⟩ := page _ hp
    rw [← hn]
    exact (page_few hf hi).1
  | title hp ht hn =>
    obtain ⟨space, hf, hi⟩ := page _ hp
    rw [← hn]
    exact (page_few hf hi).2 _ ht
  | items hp ho hn =>
    obtain ⟨space, hf, hi⟩ := page _ hp
    rw [← hn]
    exact (outline_few hf hi ho).1
  | item hp ho hm hn =>
    obtain ⟨space, hf, hi⟩ := page _ hp
    exact (outline_few hf hi ho).2 _ hm _ hn

/-! ### The identifiers are in the file -/

theorem compactIds_length (l : List CompactId) : (compactIds l).length = 4 * l.length := by
  unfold compactIds
  induction l with
  | nil => rfl
  | cons c l ih =>
    simp only [List.map_cons, List.flatten_cons, List.length_append, ih, compactId, leBytes_length,
      List.length_cons]
    omega

theorem props_few {data : Bytes} {props : ObjectPropSet} (h : PropsAre data props) :
    props.objectIds.length ≤ data.length ∧ props.objectSpaceIds.length ≤ data.length := by
  obtain ⟨es, bs, rest, h, -, -, -, -, rfl⟩ := h
  generalize props.objectIds = a at h
  generalize props.objectSpaceIds = b at h
  generalize props.contextIds = c at h
  cases h <;> simp only [List.length_append, compactIds_length, List.length_nil] <;> omega

theorem le_sum {l : List Nat} {n : Nat} (h : n ∈ l) : n ≤ l.sum := by
  induction l with
  | nil => cases h
  | cons a l ih =>
    rw [List.sum_cons]
    rcases List.mem_cons.1 h with rfl | h
    · omega
    · have := ih h
      omega

theorem stored_size {g : ObjectGroup} {id : ExGuid} {part : Nat} {refs : List ExGuid}
    {cells : List CellId} {data : Bytes} (h : storedData g id part = some (.object refs cells data)) :
    data.length ≤ sizeObjectGroup g := by
  obtain ⟨⟨d, x⟩, he, hx⟩ := List.mem_map.1 (lastWith_mem h)
  simp only [Prod.mk.injEq] at hx
  have hm : GroupData.object refs cells data ∈ g.objects := hx.2 ▸ (List.of_mem_zip he).2
  have := le_sum (List.mem_map_of_mem (f := sizeGroupData) hm)
  simp only [sizeGroupData, sizeObjectGroup] at *
  omega

theorem group_size {pkg : Package} {i : ExGuid} {g : ObjectGroup}
    (h : pkg.objectGroups.get? i = some g) : sizeObjectGroup g ≤ sizePackage pkg := by
  have := le_sum (List.mem_map_of_mem (f := fun e => 1 + sizeObjectGroup e.2) (Map.mem_of_get? h))
  simp only [sizePackage, sizeMap] at *
  omega

theorem groups_of {pkg : Package} {ms : List RevisionManifest} {g : ObjectGroup}
    (h : g ∈ groupsOf pkg ms) : ∃ i, pkg.objectGroups.get? i = some g := by
  obtain ⟨m, -, h⟩ := List.mem_flatMap.1 h
  obtain ⟨i, -, h⟩ := List.mem_filterMap.1 h
  exact ⟨i, h⟩

theorem space_few {pkg : Package} {si : StorageIndex} {m : CellMapping} {s : ObjectSpace}
    (h : SpaceIs pkg si m s) : FewIn (sizePackage pkg) s := by
  intro id o ho
  have ho : s.getObject id = some o := ho
  rcases h.contents with ⟨r, ms, _, _, hh⟩ | ⟨_, _, hn, _⟩
  · rcases first_declaring (groupsOf pkg ms) id with hn | ⟨pre, g, post, hs, hpre, hg⟩
    · rw [hh.absent id hn] at ho; cases ho
    · obtain ⟨_, o', ho', hi⟩ := hh.present id pre g post hs hpre hg
      rw [ho'] at ho
      cases ho
      obtain ⟨refs, cells, data, hd, hp, -⟩ := hi.properties
      obtain ⟨i, hgi⟩ := groups_of (show g ∈ groupsOf pkg ms by rw [hs]; simp)
      have h1 := stored_size hd
      have h2 := group_size hgi
      have h3 := props_few hp
      exact ⟨by omega, by omega⟩
  · rw [hn id] at ho; cases ho

/-- Every list of a section is no longer than the file. -/
theorem file_few {data : Bytes} {name : Text} {s : Section} (h : SectionFile data name s) {n : Nat}
    (hl : ListIn n s) : n ≤ data.length := by
  obtain ⟨store, ⟨p, hc, hp⟩, -, hs⟩ := h
  have hsize : sizePackage p.package ≤ data.length := by
    have := holds_iff.1 hc
    unfold P.run at this
    split at this
    · rename_i v rest hv
      cases this
      have := Step.packaging _ _ _ hv
      simp only at this
      omega
    · cases this
  obtain ⟨si, sm, hc, dc, -, -, -, -, -, -, ⟨m, -, hd⟩, h10, h11⟩ := hp
  refine Nat.le_trans (section_few hs (space_few hd) ?_ hl) hsize
  intro cell space hsp
  have hsp : store.objectSpaces.get? cell = some space := hsp
  by_cases hm : ∃ m, IsOther si hc dc cell m
  · obtain ⟨m, hm⟩ := hm
    obtain ⟨space', hs', hi⟩ := h10 cell m hm
    rw [hs'] at hsp
    cases hsp
    exact space_few hi
  · rw [h11 cell hm] at hsp
    cases hsp

end OneNote.Amount
