/-
A section file in which every outline group has the next one as its child twice.
-/
import Verif.Lemmas.Written
import Verif.Spec.Amount

namespace OneNote.Doubling

open Spec Spec.StoreContents Spec.Document Spec.Objects Spec.Fields Written

/-- An outline group with the given items. -/
def groupW (id : Nat) (items : List Nat) : SampleObject :=
  objectW id .outlineGroup
    [(.lastModifiedTime, .u32 0), (.elementChildNodes, .objectIds items.length),
     (.outlineElementChildLevel, .u8 1)] items

/-- `n` groups, each with the next one as its child twice, and an empty one. -/
def groups (n : Nat) : List SampleObject :=
  (List.range n).map (fun k => groupW (4000 + k) [4001 + k, 4001 + k]) ++ [groupW (4000 + n) []]

def page (n : Nat) : List SampleObject :=
  pageObjects [3001] (outlineW 3001 [4000] :: groups n)

def space (n : Nat) : ObjectSpace := spaceOf pageCell (sx 2002) (sx 2001) (page n)

/-! ### The objects -/

theorem props_eq (id a b : Nat) : propsOf (groupW id [a, b]) = propsOf (groupW 0 [0, 0]) := rfl

theorem empty_eq (id : Nat) : objectOf pageCell (groupW id []) = objectOf pageCell (groupW 0 []) := rfl

theorem group_node (id a b : Nat) : ∃ n, IsOutlineGroupNode (objectOf pageCell (groupW id [a, b])) n ∧
    n.children = [sx a, sx b] ∧ n.childLevel = 1 := by
  obtain ⟨n, hn, hl⟩ := parsed (r := OutlineGroupNode.parse (objectOf pageCell (groupW 0 [0, 0])))
    (·.childLevel) (b := 1) (by decide +kernel)
  have hi := OutlineGroupNode.parse_iff.1 hn
  refine ⟨{ n with children := [sx a, sx b] }, ⟨hi.kind, hi.lastModified, .inr ⟨2, 0, ?_, ⟨1, ?_, ?_⟩, ?_⟩,
    hi.childLevel⟩, rfl, hl⟩
  · have h : (match (propsOf (groupW 0 [0, 0])).properties.get Word.elementChildNodes with
        | some (.objectIds n) => some n
        | _ => none) = some 2 := by decide +kernel
    show (propsOf (groupW 0 [0, 0])).properties.get Word.elementChildNodes = _
    revert h
    split
    · intro h; cases h; assumption
    · intro h; cases h
  · show (propsOf (groupW 0 [0, 0])).properties.index Word.elementChildNodes = _
    decide +kernel
  · show _ = (((propsOf (groupW 0 [0, 0])).properties.filter _).map _).sum
    decide +kernel
  · have ho : (propsOf (groupW 0 [0, 0])).objectIds = [⟨0, 0⟩, ⟨1, 0⟩] := by decide +kernel
    have hm : (objectOf pageCell (groupW id [a, b])).mapping = .fromEntries
        [(⟨0, 0⟩, sx a), (⟨1, 0⟩, sx b)] [] := by
      show tableOf (propsOf (groupW 0 [0, 0])) _ [sx a, sx b] [] = _
      have : (propsOf (groupW 0 [0, 0])).contextIds = [] ∧
          (propsOf (groupW 0 [0, 0])).objectSpaceIds = [] := by decide +kernel
      unfold tableOf
      rw [ho, this.1, this.2]
      rfl
    rw [hm]
    have e0 := (C20_own_position [(⟨0, 0⟩, sx a), (⟨1, 0⟩, sx b)] [] ⟨0, 0⟩ 0).1 (sx a) rfl
    have e1 := (C20_own_position [(⟨0, 0⟩, sx a), (⟨1, 0⟩, sx b)] [] ⟨1, 0⟩ 1).1 (sx b) rfl
    show _ = (List.range 2).filterMap fun j => ((propsOf (groupW 0 [0, 0])).objectIds[0 + j]?).bind _
    rw [ho]
    simp [List.range, List.range.loop, e0, e1]

theorem empty_node (id : Nat) : ∃ n, IsOutlineGroupNode (objectOf pageCell (groupW id [])) n ∧
    n.children = [] ∧ n.childLevel = 1 := by
  obtain ⟨n, hn, hl⟩ := parsed (r := OutlineGroupNode.parse (objectOf pageCell (groupW 0 [])))
    (fun n => (n.children, n.childLevel)) (b := ([], 1)) (by decide +kernel)
  rw [Prod.mk.injEq] at hl
  exact ⟨n, OutlineGroupNode.parse_iff.1 (empty_eq id ▸ hn), hl⟩

/-! ### The tree -/

def tree : Nat → OutlineItem
  | 0 => .group ⟨1, []⟩
  | n + 1 => .group ⟨1, [tree n, tree n]⟩

theorem tree_items (n : Nat) : 2 ^ n ≤ itemsIn (tree n) := by
  induction n with
  | zero => decide
  | succ n ih =>
    simp only [tree, itemsIn, itemsInAll]
    omega

theorem ids (n : Nat) : (page n).map (·.id) =
    2001 :: 2002 :: 2003 :: 3001 :: (List.range (n + 1)).map (4000 + ·) := by
  simp only [page, pageObjects, groups, List.map_append, List.map_cons, List.map_nil, List.map_map,
    List.range_succ]
  rfl

theorem nodup (n : Nat) : ((page n).map (·.id)).Nodup := by
  rw [ids]
  have h : ((List.range (n + 1)).map (4000 + ·)).Nodup :=
    List.Pairwise.map _ (fun a b hab e => hab (by omega)) List.nodup_range
  simp only [List.nodup_cons, h, List.mem_cons, List.mem_map, and_true]
  refine ⟨?_, ?_, ?_, ?_⟩ <;> simp <;> omega

theorem mem_page {n : Nat} {o : SampleObject} (h : o ∈ page n) :
    o ∈ pageObjects [3001] [outlineW 3001 [4000]] ∨
      (∃ k, k < n ∧ o = groupW (4000 + k) [4001 + k, 4001 + k]) ∨ o = groupW (4000 + n) [] := by
  simp only [page, pageObjects, groups, List.mem_append, List.mem_cons, List.not_mem_nil, or_false,
    List.mem_map, List.mem_range] at h ⊢
  rcases h with h | h | ⟨k, hk, rfl⟩ | rfl
  · exact .inl (.inl h)
  · exact .inl (.inr h)
  · exact .inr (.inl ⟨k, hk, rfl⟩)
  · exact .inr (.inr rfl)

theorem good (n : Nat) : ∀ o ∈ page n, Written.Good o := by
  intro o ho
  rcases mem_page ho with h | ⟨k, -, rfl⟩ | rfl
  · have : ∀ o ∈ pageObjects [3001] [outlineW 3001 [4000]], Written.Good o := by decide +kernel
    exact this o h
  · have : Written.Good (groupW 0 [0, 0]) := by decide +kernel
    exact this
  · have : Written.Good (groupW 0 []) := by decide +kernel
    exact this

theorem sx_fits {n : Nat} (h : n < 2 ^ 32) : ExGuidFits (sx n) := h

theorem fitting {n : Nat} (hn : n < 2 ^ 31) : ∀ o ∈ page n, Fitting o := by
  intro o ho
  rcases mem_page ho with h | ⟨k, hk, rfl⟩ | rfl
  · have : ∀ o ∈ pageObjects [3001] [outlineW 3001 [4000]], Fitting o := by decide +kernel
    exact this o h
  · have h : Fits64 (groupW 0 [0, 0]).props.length := by decide +kernel
    have : ExGuidFits (sx (4001 + k)) := sx_fits (by omega)
    refine ⟨by show 4000 + k < _; omega, ⟨show 2 < 2 ^ 64 by decide, ?_, show 0 < 2 ^ 64 by decide, nofun⟩, h⟩
    intro e he
    simp only [groupW, objectW, List.map_cons, List.map_nil, List.mem_cons, List.not_mem_nil,
      or_false, or_self] at he
    exact he ▸ this
  · have h : Fits64 (groupW 0 []).props.length := by decide +kernel
    exact ⟨by show 4000 + n < _; omega, ⟨show 0 < 2 ^ 64 by decide, nofun, show 0 < 2 ^ 64 by decide, nofun⟩, h⟩

theorem at_page {n : Nat} {o : SampleObject} (h : o ∈ page n) :
    At (space n) (sx o.id) (objectOf pageCell o) := get_space (nodup n) h

theorem in_group {n : Nat} {o : SampleObject} (h : o ∈ groups n) : o ∈ page n :=
  List.mem_append_right _ (List.mem_cons_of_mem _ h)

theorem item (n : Nat) : ∀ k, k ≤ n → ItemIs (space n) (sx (4000 + (n - k))) (tree k) := by
  intro k
  induction k with
  | zero =>
    intro _
    obtain ⟨m, h, hc, hl⟩ := empty_node (4000 + n)
    have := ItemIs.group (at_page (n := n) (o := groupW (4000 + n) []) (in_group (by simp [groups]))) h
      (items := []) (by rw [hc]; exact .nil)
    rw [hl] at this
    exact this
  | succ k ih =>
    intro hk
    have ih := ih (by omega)
    have he : 4000 + (n - k) = 4001 + (n - (k + 1)) := by omega
    rw [he] at ih
    obtain ⟨m, h, hc, hl⟩ := group_node (4000 + (n - (k + 1))) (4001 + (n - (k + 1))) (4001 + (n - (k + 1)))
    have := ItemIs.group (at_page (n := n) (o := groupW (4000 + (n - (k + 1)))
        [4001 + (n - (k + 1)), 4001 + (n - (k + 1))]) (in_group (by
          simp only [groups, List.mem_append, List.mem_map, List.mem_range]
          exact .inl ⟨n - (k + 1), by omega, rfl⟩))) h
      (items := [tree k, tree k]) (by rw [hc]; exact .cons ih (.cons ih .nil))
    rw [hl] at this
    exact this

/-! ### The page -/

theorem page_is (n : Nat) : ∃ p, PageIs (space n) p ∧ 2 ^ n ≤ itemsOnPage p ∧
    ∃ o, .outline o ∈ p.contents ∧ tree n ∈ o.items := by
  obtain ⟨outline, d1, d2⟩ := parsed (r := OutlineNode.parse (objectOf pageCell
    (outlineW 3001 [4000]))) (·.children) (b := [sx 4000]) (by decide +kernel)
  have hi := item n n (Nat.le_refl n)
  rw [Nat.sub_self] at hi
  have ho : ∃ o, OutlineIs (space n) (sx 3001) o ∧ o.items = [tree n] :=
    ⟨_, ⟨_, outline, [tree n], at_page (o := outlineW 3001 [4000]) (List.mem_append_right _ (.head _)),
      OutlineNode.parse_iff.1 d1, by rw [d2]; exact .cons hi .nil, rfl⟩, rfl⟩
  obtain ⟨o, ho, hi⟩ := ho
  obtain ⟨p, hp, hc⟩ := page_written (nodup n) (.outline ho)
  refine ⟨p, hp, ?_, o, by rw [hc]; exact .head _, by rw [hi]; exact .head _⟩
  rw [itemsOnPage, hc]
  simp only [List.map_cons, List.map_nil, List.sum_cons, List.sum_nil, hi, itemsInAll]
  exact tree_items n

/-! ### The length of the file -/

theorem exGuid_length (e : ExGuid) : (exGuid e).length ≤ 21 := by
  unfold exGuid
  repeat' split
  all_goals simp [guid]

theorem compact_length (n : Nat) : (compact n).length ≤ 9 := by
  unfold compact
  repeat' split
  all_goals simp

theorem listW_length {α : Type} {f : α → Bytes} {k : Nat} {l : List α} (h : ∀ a ∈ l, (f a).length ≤ k) :
    (listW f l).length ≤ k * l.length := by
  induction l with
  | nil => exact Nat.le_refl 0
  | cons a l ih =>
    have h1 := h a (.head _)
    have h2 := ih fun b hb => h b (.tail _ hb)
    simp only [listW, List.length_append, List.length_cons, Nat.mul_add]
    omega

theorem listW_append {α : Type} (f : α → Bytes) (l m : List α) :
    listW f (l ++ m) = listW f l ++ listW f m := by
  induction l with
  | nil => rfl
  | cons a l ih => simp [listW, ih]

theorem fileW_length (si : ExGuid) (schema : Guid) (es : List Element) :
    (fileW si schema es).length = (fileW si schema []).length + (listW elementW es).length := by
  simp only [fileW, tailW, packageW, List.length_append, List.length_cons, listW, List.length_nil]
  omega

theorem declaration_length (n p : Nat) : (declarationW (.object (sx n) p 0 0 0)).length ≤ 67 := by
  have := exGuid_length (sx n)
  have := compact_length p
  have := compact_length 0
  simp only [declarationW, List.length_append]
  have : (hdr16 .objectGroupObject).length = 2 := by decide
  omega

theorem data_length {refs : List ExGuid} {props : Bytes} (hr : refs.length ≤ 2) (hp : props.length ≤ 100) :
    (groupDataW (.object refs [] props)).length ≤ 171 := by
  have h1 := compact_length refs.length
  have h2 := compact_length 0
  have h3 := compact_length props.length
  have h4 := listW_length (f := exGuid) (l := refs) fun a _ => exGuid_length a
  have h5 : (hdr16 .objectGroupDataObject).length = 2 := by decide
  simp only [groupDataW, arrayW, binaryW, List.length_append, listW, List.length_nil]
  omega

def Small (o : SampleObject) : Prop := o.refs.length ≤ 2 ∧ o.cells = [] ∧ o.props.length ≤ 100

instance (o : SampleObject) : Decidable (Small o) := inferInstanceAs (Decidable (_ ∧ _))

theorem pairs_length {α β : Type} (f g : α → β) (l : List α) :
    (l.flatMap fun a => [f a, g a]).length = 2 * l.length := by
  induction l with
  | nil => rfl
  | cons a l ih => simp only [List.flatMap_cons, List.length_append, ih, List.length_cons, List.length_nil]; omega

theorem element_length {objs : List SampleObject} (h : ∀ o ∈ objs, Small o) :
    (elementW ⟨sx 405, groupOf objs⟩).length ≤ 100 + 476 * objs.length := by
  have h1 := exGuid_length (sx 405)
  have h2 := compact_length (bodyType (groupOf objs))
  have h3 := listW_length (f := declarationW) (k := 67)
    (l := objs.flatMap fun o => [.object (sx o.id) 4 0 0 0, .object (sx o.id) 1 0 0 0]) (by
      intro d hd
      obtain ⟨o, -, hd⟩ := List.mem_flatMap.1 hd
      simp only [List.mem_cons, List.not_mem_nil, or_false] at hd
      rcases hd with rfl | rfl <;> exact declaration_length _ _)
  have h4 := listW_length (f := groupDataW) (k := 171)
    (l := objs.flatMap fun o => [.object [] [] (leBytes 4 o.jcid), .object o.refs o.cells o.props]) (by
      intro d hd
      obtain ⟨o, ho, hd⟩ := List.mem_flatMap.1 hd
      simp only [List.mem_cons, List.not_mem_nil, or_false] at hd
      obtain ⟨a, b, c⟩ := h o ho
      rcases hd with rfl | rfl
      · exact data_length (Nat.zero_le _) (by simp)
      · rw [b]; exact data_length a c)
  rw [pairs_length] at h3 h4
  have h5 : (hdr16 .dataElement).length = 2 ∧ (hdr16 .objectGroupDeclaration).length = 2 ∧
    (end8 (typeCode .objectGroupDeclaration)).length ≤ 2 ∧ (hdr16 .objectGroupData).length = 2 ∧
    (end8 (typeCode .objectGroupData)).length ≤ 2 ∧ dataElementEnd.length ≤ 2 := by decide
  simp only [elementW, groupOf, bodyW, List.length_append, List.length_cons, List.length_nil] at h2 ⊢
  omega

theorem small (n : Nat) : ∀ o ∈ page n, Small o := by
  intro o ho
  rcases mem_page ho with h | ⟨k, -, rfl⟩ | rfl
  · have : ∀ o ∈ pageObjects [3001] [outlineW 3001 [4000]], Small o := by decide +kernel
    exact this o h
  · have h : Small (groupW 0 [0, 0]) := by decide +kernel
    exact ⟨Nat.le_refl 2, h.2⟩
  · have h : Small (groupW 0 []) := by decide +kernel
    exact h

theorem file_length (n : Nat) : (fileFor (page n)).length ≤ 5000 + 500 * n := by
  have h1 := element_length (small n)
  have h2 : (page n).length = n + 5 := by
    have := congrArg List.length (ids n)
    simpa using this
  have h3 : (fileW (sx 3) sectionGuid []).length + (listW elementW elementsBefore).length ≤ 2000 := by
    decide +kernel
  unfold fileFor
  rw [fileW_length, elements_eq, listW_append]
  simp only [List.length_append, listW, List.append_nil]
  omega

end OneNote.Doubling
