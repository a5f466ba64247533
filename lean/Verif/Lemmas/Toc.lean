/-
The table of contents: sorting, dropping repeats and the traversal.
-/
import Verif.Model.Notebook
import Verif.Lemmas.Node
import Verif.Lemmas.Objects2
import Verif.Spec.Toc

namespace OneNote

open Spec.Toc

variable {α : Type}

/-! ### Sorting -/

theorem insertByKey_perm (x : Nat × α) (l : List (Nat × α)) : (insertByKey x l).Perm (x :: l) := by
  induction l with
  | nil => exact .refl _
  | cons y ys ih =>
    unfold insertByKey
    split
    · exact .refl _
    · exact (ih.cons y).trans (.swap ..)

theorem sortByKey_perm (l : List (Nat × α)) : (sortByKey l).Perm l := by
  induction l with
  | nil => exact .refl _
  | cons x xs ih => exact (insertByKey_perm x _).trans (ih.cons x)

theorem insertByKey_sorted (x : Nat × α) (l : List (Nat × α))
    (h : l.Pairwise fun a b => a.1 ≤ b.1) : (insertByKey x l).Pairwise fun a b => a.1 ≤ b.1 := by
  induction l with
  | nil => simp [insertByKey]
  | cons y ys ih =>
    unfold insertByKey
    rw [List.pairwise_cons] at h
    split
    · rename_i hle
      refine List.pairwise_cons.2 ⟨fun z hz => ?_, List.pairwise_cons.2 h⟩
      rcases List.mem_cons.1 hz with rfl | hz
      · exact hle
      · exact Nat.le_trans hle (h.1 z hz)
    · rename_i hle
      refine List.pairwise_cons.2 ⟨fun z hz => ?_, ih h.2⟩
      rcases List.mem_cons.1 ((insertByKey_perm x ys).mem_iff.1 hz) with rfl | hz
      · omega
      · exact h.1 z hz

theorem sortByKey_sorted (l : List (Nat × α)) : (sortByKey l).Pairwise fun a b => a.1 ≤ b.1 := by
  induction l with
  | nil => exact .nil
  | cons x xs ih => exact insertByKey_sorted x _ ih

theorem insertByKey_filter (x : Nat × α) (l : List (Nat × α)) (k : Nat) :
    ((insertByKey x l).filter fun e => e.1 == k) = (x :: l).filter fun e => e.1 == k := by
  induction l with
  | nil => rfl
  | cons y ys ih =>
    unfold insertByKey
    split
    · rfl
    · rename_i hle
      rw [List.filter_cons, ih]
      by_cases hx : x.1 = k
      · have hy : ¬ y.1 = k := by omega
        simp [hx, hy]
      · simp [List.filter_cons, hx]

theorem sortByKey_filter (l : List (Nat × α)) (k : Nat) :
    ((sortByKey l).filter fun e => e.1 == k) = l.filter fun e => e.1 == k := by
  induction l with
  | nil => rfl
  | cons x xs ih =>
    show (insertByKey x (sortByKey xs)).filter _ = _
    rw [insertByKey_filter, List.filter_cons, ih, List.filter_cons]

theorem sortByKey_spec (l : List (Nat × α)) : SortedByKey l (sortByKey l) :=
  ⟨sortByKey_perm l, sortByKey_sorted l, sortByKey_filter l⟩

/-- Two sorted lists with the same entries for every key are equal. -/
theorem sorted_unique : ∀ (l m : List (Nat × α)), (l.Pairwise fun a b => a.1 ≤ b.1) →
    (m.Pairwise fun a b => a.1 ≤ b.1) →
    (∀ k, (l.filter fun e => e.1 == k) = m.filter fun e => e.1 == k) → l = m
  | [], [], _, _, _ => rfl
  | [], y :: ys, _, _, h => by
    have := h y.1
    simp at this
  | x :: xs, [], _, _, h => by
    have := h x.1
    simp at this
  | x :: xs, y :: ys, hl, hm, h => by
    rw [List.pairwise_cons] at hl hm
    have hxy : x.1 ≤ y.1 := by
      have : y ∈ (x :: xs).filter fun e => e.1 == y.1 := by
        rw [h y.1]; simp
      rcases List.mem_cons.1 (List.mem_filter.1 this).1 with e | e
      · rw [e]; exact Nat.le_refl _
      · exact hl.1 y e
    have hyx : y.1 ≤ x.1 := by
      have : x ∈ (y :: ys).filter fun e => e.1 == x.1 := by
        rw [← h x.1]; simp
      rcases List.mem_cons.1 (List.mem_filter.1 this).1 with e | e
      · rw [e]; exact Nat.le_refl _
      · exact hm.1 x e
    have hk : y.1 = x.1 := by omega
    have e : x = y := by
      have := h x.1
      simp [hk] at this
      exact this.1
    subst e
    rw [sorted_unique xs ys hl.2 hm.2 fun k => ?_]
    have := h k
    rw [List.filter_cons, List.filter_cons] at this
    split at this
    · exact (List.cons.inj this).2
    · exact this

theorem SortedByKey.unique {l m n : List (Nat × α)} (h : SortedByKey l m) (h' : SortedByKey l n) :
    m = n :=
  sorted_unique m n h.sorted h'.sorted fun k => (h.stable k).trans (h'.stable k).symm

/-! ### Dropping repeats -/

theorem dedupFrom_head (last : Nat × Text) (l : List (Nat × Text)) :
    ∃ rest, dedupFrom last l = last :: rest := by
  induction l with
  | nil => exact ⟨[], rfl⟩
  | cons x xs ih =>
    unfold dedupFrom
    split
    · exact ih
    · exact ⟨_, rfl⟩

theorem dedupFrom_spec (last : Nat × Text) (l : List (Nat × Text)) :
    WithoutRepeats ((last :: l).map Prod.snd) ((dedupFrom last l).map Prod.snd) := by
  induction l generalizing last with
  | nil => exact .one _
  | cons x xs ih =>
    unfold dedupFrom
    split
    · rename_i he
      have := ih last
      simp only [List.map_cons] at this ⊢
      rw [← he]
      exact .again this
    · rename_i he
      exact .other he (ih x)

theorem tocNames_spec (entries : List (Nat × Text)) :
    WithoutRepeats ((sortByKey entries).map Prod.snd) (tocNames entries) := by
  unfold tocNames
  cases sortByKey entries with
  | nil => exact .none
  | cons x xs => exact dedupFrom_spec x xs

theorem WithoutRepeats.unique {l m n : List Text} (h : WithoutRepeats l m)
    (h' : WithoutRepeats l n) : m = n := by
  induction h generalizing n with
  | none => cases h'; rfl
  | one a => cases h'; rfl
  | again _ ih =>
    cases h' with
    | again h' => exact ih h'
    | other hne _ => exact absurd rfl hne
  | other hne _ ih =>
    cases h' with
    | again h' => exact absurd rfl hne
    | other _ h' => rw [ih h']

theorem WithoutRepeats.sublist {l m : List Text} (h : WithoutRepeats l m) : m.Sublist l := by
  induction h with
  | none => exact .refl _
  | one a => exact .refl _
  | again _ ih => exact ih.cons _
  | other _ _ ih => exact ih.cons_cons _

theorem WithoutRepeats.mem {l m : List Text} (h : WithoutRepeats l m) (a : Text) :
    a ∈ m ↔ a ∈ l := by
  induction h with
  | none => exact Iff.rfl
  | one a => exact Iff.rfl
  | again _ ih => rw [ih]; simp
  | other _ _ ih => rw [List.mem_cons, List.mem_cons, ih]

theorem WithoutRepeats.head {l m : List Text} {a : Text} (h : WithoutRepeats (a :: l) m) :
    ∃ rest, m = a :: rest := by
  generalize he : a :: l = x at h
  induction h generalizing a l with
  | none => cases he
  | one b => cases he; exact ⟨[], rfl⟩
  | again _ ih => cases he; exact ih rfl
  | other _ _ _ => cases he; exact ⟨_, rfl⟩

/-! ### The traversal -/

theorem ObjectSpace.object_ok {space : ObjectSpace} {id : ExGuid} {o : Object} :
    space.object id = .ok o ↔ space.getObject id = some o := by
  unfold ObjectSpace.object orErr
  cases space.getObject id with
  | none => simp
  | some p => simp

theorem parseTocEntry_tree (space : ObjectSpace) : ∀ (n : Nat) (id : ExGuid) (e : TocEntry),
    parseTocEntry space n id = .ok e → TocTree space id e.entries
  | 0, id, e, h => by cases h
  | n + 1, id, e, h => by
    unfold parseTocEntry at h
    obtain ⟨o, ho, h⟩ := Res.bind_ok h
    obtain ⟨t, ht, h⟩ := Res.bind_ok h
    rw [ObjectSpace.object_ok] at ho
    split at h
    · rename_i name hn
      obtain ⟨k, hk, h⟩ := Res.bind_ok h
      cases h
      unfold orErr at hk
      split at hk
      · rename_i k' hk'
        cases hk
        exact .file ho (TocContainer.parse_iff.1 ht) hn hk'
      · cases hk
    · rename_i hn
      obtain ⟨es, hes, h⟩ := Res.bind_ok h
      cases h
      exact .folder ho (TocContainer.parse_iff.1 ht) hn (trees t.children es hes)
where
  trees {n : Nat} (ids : List ExGuid) (es : List TocEntry)
      (hes : ids.mapM (parseTocEntry space n) = .ok es) :
      TocTrees space ids (es.flatMap (·.entries)) := by
    induction ids generalizing es with
    | nil => cases hes; exact .nil
    | cons i is ih =>
      rw [List.mapM_cons] at hes
      obtain ⟨a, ha, hes⟩ := Res.bind_ok hes
      obtain ⟨b, hb, hes⟩ := Res.bind_ok hes
      cases hes
      exact .cons (parseTocEntry_tree space n i a ha) (ih b hb)

theorem parseTocEntry_complete (space : ObjectSpace) {id : ExGuid} {entries : List (Nat × Text)}
    (h : TocTree space id entries) : ∃ n color, ∀ m, n ≤ m →
      parseTocEntry space m id = .ok ⟨entries, color⟩ := by
  refine TocTree.rec (space := space)
    (motive_1 := fun id entries _ => ∃ n color, ∀ m, n ≤ m →
      parseTocEntry space m id = .ok ⟨entries, color⟩)
    (motive_2 := fun ids entries _ => ∃ n, ∀ m, n ≤ m → ∃ es : List TocEntry,
      ids.mapM (parseTocEntry space m) = .ok es ∧ es.flatMap (·.entries) = entries)
    ?_ ?_ ?_ ?_ h
  · intro id o t name k ho ht hn hk
    refine ⟨1, t.color, fun m hm => ?_⟩
    obtain ⟨m, rfl⟩ : ∃ j, m = j + 1 := ⟨m - 1, by omega⟩
    unfold parseTocEntry
    rw [ObjectSpace.object_ok.2 ho]
    show (TocContainer.parse o >>= _) = _
    rw [TocContainer.parse_iff.2 ht]
    show (match t.filename with | some name => _ | none => _) = _
    rw [hn, hk]
    rfl
  · intro id o t entries ho ht hn _ ⟨n, ih⟩
    refine ⟨n + 1, t.color, fun m hm => ?_⟩
    obtain ⟨m, rfl⟩ : ∃ j, m = j + 1 := ⟨m - 1, by omega⟩
    obtain ⟨es, hes, he⟩ := ih m (by omega)
    unfold parseTocEntry
    rw [ObjectSpace.object_ok.2 ho]
    show (TocContainer.parse o >>= _) = _
    rw [TocContainer.parse_iff.2 ht]
    show (match t.filename with | some name => _ | none => _) = _
    rw [hn]
    show (t.children.mapM (parseTocEntry space m) >>= _) = _
    rw [hes, ← he]
    rfl
  · exact ⟨0, fun m _ => ⟨[], rfl, rfl⟩⟩
  · intro id ids a b _ _ ⟨n, color, h1⟩ ⟨n', h2⟩
    refine ⟨n + n', fun m hm => ?_⟩
    obtain ⟨es, hes, he⟩ := h2 m (by omega)
    refine ⟨⟨a, color⟩ :: es, ?_, by simp [he]⟩
    rw [List.mapM_cons, h1 m (by omega)]
    show (ids.mapM (parseTocEntry space m) >>= _) = _
    rw [hes]
    rfl

/-- The color of a table of contents is that of its root. -/
theorem parseTocEntry_color {space : ObjectSpace} {n : Nat} {id : ExGuid} {e : TocEntry}
    (h : parseTocEntry space n id = .ok e) :
    ∃ o t, space.getObject id = some o ∧ Spec.Objects.IsTocContainer o t ∧ e.color = t.color := by
  cases n with
  | zero => cases h
  | succ n =>
    unfold parseTocEntry at h
    obtain ⟨o, ho, h⟩ := Res.bind_ok h
    obtain ⟨t, ht, h⟩ := Res.bind_ok h
    refine ⟨o, t, ObjectSpace.object_ok.1 ho, TocContainer.parse_iff.1 ht, ?_⟩
    split at h
    · obtain ⟨k, hk, h⟩ := Res.bind_ok h
      cases h
      rfl
    · obtain ⟨es, hes, h⟩ := Res.bind_ok h
      cases h
      rfl

end OneNote
