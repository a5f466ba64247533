/-
What is read back from a file written from trees of objects with `Spec.Writer.treeFile`.
-/
import Verif.Lemmas.WriteFile

namespace OneNote.Writer

open Spec Spec.Writer Spec.StoreContents Spec.Document

/-- The tree is stored in the object space, with its root under the identifier. -/
inductive Stored (space : ObjectSpace) : ExGuid → Tree → Prop where
  | mk {id : ExGuid} {o : Object} {kind : Nat} {blob : Option Bytes} {props : List (Nat × Entry)}
      {cells : List CellId} {children : List Tree} {ids : List ExGuid} : At space id o →
      Written o kind blob props cells ids → Each (Stored space) ids children →
      Stored space id (.mk kind blob props cells children)

/-! ### Numbers -/

mutual

theorem tree_ids (n : Nat) : (t : Tree) → (t.objects n).map (·.id) = List.range' n t.size
  | .mk kind blob props cells children => by
    rw [Tree.objects, List.map_cons, objectsOf_ids (n + 1) children, Tree.size, List.range'_succ]

theorem objectsOf_ids (n : Nat) : (ts : List Tree) → (objectsOf n ts).map (·.id) = List.range' n (sizes ts)
  | [] => rfl
  | t :: ts => by
    rw [objectsOf, List.map_append, tree_ids n t, objectsOf_ids (n + t.size) ts, sizes,
      ← List.range'_append_1]

end

theorem Tree.size_pos : (t : Tree) → 0 < t.size
  | .mk .. => by rw [Tree.size]; omega

theorem starts_length (n : Nat) (ts : List Tree) : (starts n ts).length = ts.length := by
  induction ts generalizing n with
  | nil => rfl
  | cons t ts ih => rw [starts, List.length_cons, List.length_cons, ih]

theorem starts_lt {n : Nat} {ts : List Tree} : ∀ r ∈ starts n ts, r < n + sizes ts := by
  induction ts generalizing n with
  | nil => intro r hr; cases hr
  | cons t ts ih =>
    intro r hr
    have := Tree.size_pos t
    rw [sizes]
    rw [starts] at hr
    rcases List.mem_cons.1 hr with rfl | hr
    · omega
    · have := ih r hr
      omega

mutual

theorem tree_fits {num : Nat} (n : Nat) : (t : Tree) → t.Fits num → t.Short → n + t.size ≤ 2 ^ 32 →
    ∀ o ∈ t.objects n, ObjFits o ∧ ∀ c ∈ o.cells, c.snd ≠ sx num
  | .mk kind blob props cells children, hf, hs, hn => by
    cases hf with
    | mk hk hc hp hcells hch =>
      cases hs with
      | mk hb hps hbytes hl hr hchs =>
        rw [Tree.size] at hn
        intro o ho
        rw [Tree.objects] at ho
        rcases List.mem_cons.1 ho with rfl | ho
        · refine ⟨⟨by show n < _; omega, hk, hc, fun e he => (hp e he).1, hps, ?_, ?_, hl, ?_, fun c hc => (hcells c hc).1.1, hb⟩,
            fun c hc => (hcells c hc).2⟩
          · rw [starts_length]; exact hbytes
          · rw [starts_length]; exact hr
          · intro r hr
            have := starts_lt r hr
            omega
        · exact objectsOf_fit (n + 1) children hch hchs (by omega) o ho

theorem objectsOf_fit {num : Nat} (n : Nat) : (ts : List Tree) → (∀ t ∈ ts, t.Fits num) →
    (∀ t ∈ ts, t.Short) → n + sizes ts ≤ 2 ^ 32 →
    ∀ o ∈ objectsOf n ts, ObjFits o ∧ ∀ c ∈ o.cells, c.snd ≠ sx num
  | [], _, _, _ => by intro o ho; cases ho
  | t :: ts, hf, hs, hn => by
    rw [sizes] at hn
    intro o ho
    rw [objectsOf] at ho
    rcases List.mem_append.1 ho with ho | ho
    · exact tree_fits n t (hf t List.mem_cons_self) (hs t List.mem_cons_self) (by omega) o ho
    · exact objectsOf_fit (n + t.size) ts (fun t ht => hf t (List.mem_cons_of_mem _ ht))
        (fun t ht => hs t (List.mem_cons_of_mem _ ht)) (by omega) o ho

end

/-! ### The trees in the object space -/

mutual

theorem tree_stored {c : Cell} (hn : (c.objects.map (·.id)).Nodup) (n : Nat) : (t : Tree) →
    (∀ o ∈ t.objects n, o ∈ c.objects ∧ ∀ x ∈ o.cells, x.snd ≠ sx c.num) →
    Stored (spaceIn c) (sx n) t
  | .mk kind blob props cells children, h => by
    rw [Tree.objects] at h
    obtain ⟨h1, h2⟩ := h _ List.mem_cons_self
    exact .mk (get_space hn h1) (object_written _ _ h2)
      (trees_stored hn (n + 1) children fun o ho => h o (List.mem_cons_of_mem _ ho))

theorem trees_stored {c : Cell} (hn : (c.objects.map (·.id)).Nodup) (n : Nat) : (ts : List Tree) →
    (∀ o ∈ objectsOf n ts, o ∈ c.objects ∧ ∀ x ∈ o.cells, x.snd ≠ sx c.num) →
    Each (Stored (spaceIn c)) ((starts n ts).map sx) ts
  | [], _ => .nil
  | t :: ts, h => by
    rw [objectsOf] at h
    rw [starts, List.map_cons]
    exact .cons (tree_stored hn n t fun o ho => h o (List.mem_append_left _ ho))
      (trees_stored hn _ ts fun o ho => h o (List.mem_append_right _ ho))

end

/-! ### Cells -/

/-- The number of objects of the cells. -/
def total : List (Tree × Tree) → Nat
  | [] => 0
  | (c, i) :: ps => c.size + i.size + total ps

theorem pair_sizes (c i : Tree) : sizes [c, i] = c.size + i.size := by
  rw [sizes, sizes, sizes]; omega

theorem cells_nums (num id : Nat) (ps : List (Tree × Tree)) :
    (cellsFrom num id ps).map (·.num) = List.range' num ps.length := by
  induction ps generalizing num id with
  | nil => rfl
  | cons p ps ih =>
    obtain ⟨c, i⟩ := p
    rw [cellsFrom, List.map_cons, ih, List.length_cons, List.range'_succ]

theorem cells_ids (num id : Nat) (ps : List (Tree × Tree)) :
    ((cellsFrom num id ps).flatMap (·.objects)).map (·.id) = List.range' id (total ps) := by
  induction ps generalizing num id with
  | nil => rfl
  | cons p ps ih =>
    obtain ⟨c, i⟩ := p
    rw [cellsFrom, List.flatMap_cons, List.map_append, ih, objectsOf_ids, pair_sizes, total,
      Nat.add_assoc id, List.range'_append_1]

theorem mem_cellsFrom {num id : Nat} {ps : List (Tree × Tree)} {x : Cell} (h : x ∈ cellsFrom num id ps) :
    ∃ c i, (c, i) ∈ ps ∧ x.info = x.content + c.size ∧ x.objects = objectsOf x.content [c, i] ∧
      x.content + c.size + i.size ≤ id + total ps ∧ num ≤ x.num ∧ x.num < num + ps.length ∧
      ps[x.num - num]? = some (c, i) := by
  induction ps generalizing num id with
  | nil => cases h
  | cons p ps ih =>
    obtain ⟨c, i⟩ := p
    rw [cellsFrom] at h
    rcases List.mem_cons.1 h with rfl | h
    · exact ⟨c, i, List.mem_cons_self, rfl, rfl, by rw [total]; simp only; omega,
        Nat.le_refl _, by rw [List.length_cons]; simp only; omega, by simp⟩
    · obtain ⟨c', i', h1, h2, h3, h4, h5, h6, h7⟩ := ih h
      refine ⟨c', i', List.mem_cons_of_mem _ h1, h2, h3, by rw [total]; omega, by omega,
        by rw [List.length_cons]; omega, ?_⟩
      rw [show x.num - num = (x.num - (num + 1)) + 1 by omega]
      exact h7

/-- The trees can be written into the cells from number `num` on. -/
def PairsFit (num : Nat) (ps : List (Tree × Tree)) : Prop :=
  ∀ (k : Nat) (p : Tree × Tree), ps[k]? = some p → (p.1.Fits (num + k) ∧ p.1.Short) ∧ p.2.Fits (num + k) ∧ p.2.Short

theorem cells_fit {ps : List (Tree × Tree)} (hp : PairsFit 2 ps) (hl : ps.length + 2 ≤ 2 ^ 32)
    (ht : total ps + 1 ≤ 2 ^ 32) : CellsFit (cellsFrom 2 1 ps) ∧
    ∀ c ∈ cellsFrom 2 1 ps, ∀ o ∈ c.objects, ∀ x ∈ o.cells, x.snd ≠ sx c.num := by
  have key : ∀ c ∈ cellsFrom 2 1 ps, ∀ o ∈ c.objects, ObjFits o ∧ ∀ x ∈ o.cells, x.snd ≠ sx c.num := by
    intro x hx
    obtain ⟨c, i, h1, h2, h3, h4, h5, h6, h7⟩ := mem_cellsFrom hx
    rw [h3]
    obtain ⟨⟨hc, hcs⟩, hi, his⟩ := hp _ _ h7
    rw [show 2 + (x.num - 2) = x.num by omega] at hc hi
    refine objectsOf_fit _ _ ?_ ?_ (by rw [pair_sizes]; omega)
    · intro t ht
      simp only [List.mem_cons, List.not_mem_nil, or_false] at ht
      rcases ht with rfl | rfl
      · exact hc
      · exact hi
    · intro t ht
      simp only [List.mem_cons, List.not_mem_nil, or_false] at ht
      rcases ht with rfl | rfl
      · exact hcs
      · exact his
  refine ⟨⟨?_, ?_, ?_, ?_, fun c hc o ho => (key c hc o ho).1, ?_⟩, fun c hc o ho => (key c hc o ho).2⟩
  · rw [cells_nums]; exact List.nodup_range'
  · intro c hc
    obtain ⟨_, _, _, _, _, _, h, _, _⟩ := mem_cellsFrom hc
    exact h
  · intro c hc
    obtain ⟨_, _, _, _, _, _, _, h, _⟩ := mem_cellsFrom hc
    omega
  · rw [cells_ids]; exact List.nodup_range'
  · intro x hx
    obtain ⟨c, i, h1, h2, h3, h4, h5, h6, h7⟩ := mem_cellsFrom hx
    have := Tree.size_pos c
    have := Tree.size_pos i
    omega

/-- The object space holds the two trees. -/
def SpaceHas (space : ObjectSpace) (p : Tree × Tree) : Prop :=
  ∃ content info, space.contentRoot = some content ∧ Stored space content p.1 ∧
    space.metadataRoot = some info ∧ Stored space info p.2

theorem cell_has {cells : List Cell} {x : Cell} {c i : Tree} (hf : CellsFit cells) (hx : x ∈ cells)
    (ha : ∀ c ∈ cells, ∀ o ∈ c.objects, ∀ x ∈ o.cells, x.snd ≠ sx c.num)
    (h1 : x.info = x.content + c.size) (h2 : x.objects = objectsOf x.content [c, i]) :
    SpaceHas (spaceIn x) (c, i) := by
  have hn := ids_nodup hf.ids hx
  have hs := trees_stored hn x.content [c, i] (by
    intro o ho
    rw [← h2] at ho
    exact ⟨ho, ha x hx o ho⟩)
  rw [starts, starts, starts, List.map_cons, List.map_cons, ← h1] at hs
  cases hs with
  | cons ha hs =>
    cases hs with
    | cons hb _ => exact ⟨_, _, rfl, ha, rfl, hb⟩

theorem getElem_cells {num id k : Nat} {ps : List (Tree × Tree)} {p : Tree × Tree}
    (h : ps[k]? = some p) : ∃ c ∈ cellsFrom num id ps, c.num = num + k := by
  have hk : k < ps.length := by
    rcases Nat.lt_or_ge k ps.length with hk | hk
    · exact hk
    · rw [List.getElem?_eq_none hk] at h; cases h
  have : num + k ∈ (cellsFrom num id ps).map (·.num) := by
    rw [cells_nums, List.mem_range'_1]; omega
  exact List.mem_map.1 this

/-- What is read back. -/
theorem tree_file {schema : Guid} {root : Tree × Tree} {pages : List (Tree × Tree)} (hp : PairsFit 2 (root :: pages))
    (hl : pages.length + 3 ≤ 2 ^ 32) (ht : total (root :: pages) + 1 ≤ 2 ^ 32) :
    PlainFile (treeFile schema root pages) ∧ ∃ store, FileStore (treeFile schema root pages) store ∧
      store.schema = schema ∧ SpaceHas store.dataRoot root ∧
      ∀ (k : Nat) (p : Tree × Tree), pages[k]? = some p →
        ∃ space, store.objectSpaces.get? (cellId (3 + k)) = some space ∧ SpaceHas space p := by
  obtain ⟨header, h⟩ := file_is
  obtain ⟨c, i⟩ := root
  obtain ⟨hf, ha⟩ := cells_fit hp (by rw [List.length_cons]; omega) ht
  obtain ⟨h1, h2⟩ := h schema _ _ rfl hf
  refine ⟨h1, _, h2, rfl, cell_has hf List.mem_cons_self ha rfl rfl, ?_⟩
  intro k p hk
  obtain ⟨x, hx, hnum⟩ := getElem_cells (num := 3) (id := 1 + c.size + i.size) hk
  obtain ⟨c', i', h3, h4, h5, h6, h7, h8, h9⟩ := mem_cellsFrom hx
  rw [hnum, show 3 + k - 3 = k by omega, hk] at h9
  cases h9
  refine ⟨spaceIn x, ?_, cell_has hf (List.mem_cons_of_mem _ hx) ha h4 h5⟩
  refine Map.get?_of_mem ?_ (List.mem_map.2 ⟨x, hx, by rw [hnum]⟩)
  have hk := keys_nodup cellId_inj hf header fun _ => header
  simp only [cellsFrom, List.map_cons, List.nodup_cons, List.map_map] at hk
  simp only [List.map_map]
  exact hk.2.2

end OneNote.Writer
