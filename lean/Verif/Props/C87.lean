/-
C87: A section is read exactly if its pages are, and shows edited pages in their places.
-/
import Verif.Lemmas.Revised
import Verif.Lemmas.Fuel
import Verif.Lemmas.SampleEdit
import Verif.Props.C47

namespace OneNote

open Spec Spec.StoreContents Spec.Document Spec.PageHistory PageHistory

private theorem filePage_or (new : CellId → Option Page) (c : CellId) :
    new c = none ∨ ∃ p, new c = some p := by
  cases new c with
  | none => exact .inl rfl
  | some p => exact .inr ⟨p, rfl⟩

/-- The two files have the same list of pages. -/
private theorem root_kept {data data' : Bytes} {left : CellId → Prop} {store store' : Store}
    (hs : Resaved data data' left) (hu : PlainFile data) (hu' : PlainFile data')
    (h : FileStore data store) (h' : FileStore data' store') {id : ExGuid}
    (hr : store.dataRoot.roots.get? .defaultContent = some id) :
    store'.schema = store.schema ∧ SameSpace store.dataRoot store'.dataRoot ∧
      ∀ c, left c → ∀ space root, store.objectSpace c = some space →
        space.roots.get? .metadata = some root →
        ∃ space', store'.objectSpace c = some space' ∧ SameSpace space space' := by
  obtain ⟨i, i', es, es', items, items', m, m', schema, roots, rc, a1, a2, a3, a4, a5, a6, a7, a8, a9,
    a10⟩ := hs
  obtain ⟨b1, hc, dc, b2, b3, b4, b5, b6⟩ := store_parts a1 a3 a5 a7 hu h
  obtain ⟨c1, hc', dc', c2, c3, c4, c5, c6⟩ := store_parts a2 a4 a6 a8 hu' h'
  rw [b2] at c2
  cases c2
  rw [b3] at c3 a9
  cases c3
  cases a9
  refine ⟨c1.trans b1.symm,
    saved_space a1 a2 a3 a4 a5 a6 (a10 _ (.inl rfl)) hu hu' b4 c4 hr, fun c hl space root hsp hm => ?_⟩
  have hk := a10 c (.inr hl)
  have ho : ∃ m, IsOther (indexOf items) hc rc c m := by
    apply Classical.byContradiction
    intro hn
    rw [b6 c hn] at hsp
    cases hsp
  obtain ⟨m, d1, d2, d3, d4⟩ := ho
  obtain ⟨space', hsp'⟩ := c5 c m ⟨hk.cell.trans d1, d2, d3, d4⟩
  exact ⟨space', hsp', saved_space a1 a2 a3 a4 a5 a6 hk hu hu' (cellSpace_of hu h hsp)
    (cellSpace_of hu' h' hsp') hm⟩

/-- **Edited pages are shown in their places.** Let a section file be saved again with the list of its
pages left alone. If every page is either left alone or one that can be read, then the section is
read, with the new pages where the edited ones were and everything else as before. -/
theorem C87_edited (data data' : Bytes) (new : CellId → Option Page) (cells : List (List CellId))
    (hs : Resaved data data' fun c => c ∈ cells.flatten ∧ new c = none) (hu : PlainFile data)
    (hu' : PlainFile data') (hf : ∃ store, FileStore data' store)
    (hn : ∀ c ∈ cells.flatten, ∀ p, new c = some p → FilePage data' c p) (hc : FileCells data cells)
    (fuel : Nat) (ord : Order) (name : Text) (s : Section)
    (h : parseSectionBuffer fuel ord data name = .ok s) :
    ∃ n, ∀ k, n ≤ k → ∀ ord', parseSectionBuffer k ord' data' name = .ok (revisePages new cells s) := by
  obtain ⟨store', hf'⟩ := hf
  obtain ⟨store, h1, h2, h3⟩ := C47_section_sound fuel ord data name s h
  obtain ⟨store0, h0, hc⟩ := hc
  replace hc := pageCells_same (stores_alike hu h0 h1).dataRoot hc
  obtain ⟨id, hid⟩ : ∃ id, store.dataRoot.roots.get? .defaultContent = some id := by
    obtain ⟨id, _, _, h, -⟩ := hc
    exact ⟨id, h⟩
  obtain ⟨e1, e2, e3⟩ := root_kept hs hu hu' h1 hf' hid
  have key : SectionFile data' name (revisePages new cells s) := by
    refine ⟨store', hf', e1.trans h2, revised_section h3 hc e2 fun c hm p space k1 k2 => ?_⟩
    rcases filePage_or new c with hx | ⟨q, hx⟩
    · obtain ⟨root, hroot⟩ : ∃ root, space.roots.get? .metadata = some root := by
        obtain ⟨info, -, -, -, -, -, -, -, -, -, hi, -⟩ := k2
        exact ⟨_, hi⟩
      obtain ⟨space', g1, g2⟩ := e3 c ⟨hm, hx⟩ space root k1 hroot
      rw [hx]
      exact ⟨space', g1, page_same_space g2 k2⟩
    · rw [hx]
      exact filePage_in hu' hf' (hn c hm q hx)
  obtain ⟨n, hn⟩ := C47_section_complete data' name _ hu' key
  exact ⟨n, fun k hk ord' => refines_ok (refines_buffer hk ord' data' name) (hn ord')⟩

/-- **A page that cannot be read makes the section an error**, whatever the order of the hash maps. -/
theorem C87_unreadable (data : Bytes) (hu : PlainFile data) (cells : List (List CellId))
    (hc : FileCells data cells) (c : CellId) (hm : c ∈ cells.flatten)
    (hn : ¬ ∃ p, FilePage data c p) (fuel : Nat) (ord : Order) (name : Text) :
    ∃ e, parseSectionBuffer fuel ord data name = .error e := by
  cases h : parseSectionBuffer fuel ord data name with
  | error e => exact ⟨e, rfl⟩
  | ok s =>
    refine absurd ?_ hn
    obtain ⟨cs, h1, h2⟩ := List.mem_flatten.1 hm
    obtain ⟨i, hi⟩ := List.mem_iff_getElem?.1 h1
    obtain ⟨j, hj⟩ := List.mem_iff_getElem?.1 h2
    have hx : (cells[i]? >>= fun cs => cs[j]?) = some c := by rw [hi]; exact hj
    obtain ⟨p, hp⟩ := page_there hu h hc hx
    obtain ⟨store, k1, k2⟩ := page_at hu h hc
    obtain ⟨c', space, k3, k4, k5⟩ := (k2 i j p).1 hp
    rw [hx] at k3
    cases k3
    exact ⟨p, store, space, k1, k4, k5⟩

/-- **Exactly.** A section file that is saved again with its list of pages left alone is read if and
only if each of its pages can be read. -/
theorem C87_exactly (data data' : Bytes) (cells : List (List CellId))
    (hs : Resaved data data' fun _ => False) (hu : PlainFile data) (hu' : PlainFile data')
    (hf : ∃ store, FileStore data' store) (hc : FileCells data cells) (fuel : Nat) (ord : Order)
    (name : Text) (s : Section) (h : parseSectionBuffer fuel ord data name = .ok s) (ord' : Order) :
    (∃ k s', parseSectionBuffer k ord' data' name = .ok s') ↔
      ∀ c ∈ cells.flatten, ∃ p, FilePage data' c p := by
  constructor
  · rintro ⟨k, s', h'⟩ c hm
    apply Classical.byContradiction
    intro hn
    obtain ⟨store', hf'⟩ := hf
    obtain ⟨store, h1, -, -⟩ := C47_section_sound fuel ord data name s h
    obtain ⟨store0, h0, hc⟩ := hc
    replace hc := pageCells_same (stores_alike hu h0 h1).dataRoot hc
    obtain ⟨id, hid⟩ : ∃ id, store.dataRoot.roots.get? .defaultContent = some id := by
      obtain ⟨id, _, _, h, -⟩ := hc
      exact ⟨id, h⟩
    obtain ⟨-, e2, -⟩ := root_kept hs hu hu' h1 hf' hid
    obtain ⟨e, he⟩ := C87_unreadable data' hu' cells ⟨store', hf', pageCells_same e2 hc⟩ c hm hn k ord'
      name
    rw [he] at h'
    cases h'
  · intro hp
    obtain ⟨new, hnew⟩ : ∃ new : CellId → Option Page,
        ∀ c ∈ cells.flatten, ∃ p, new c = some p ∧ FilePage data' c p := by
      classical
      refine ⟨fun c => if hx : ∃ p, FilePage data' c p then some hx.choose else none, fun c hm => ?_⟩
      have hx := hp c hm
      exact ⟨hx.choose, dif_pos hx, hx.choose_spec⟩
    obtain ⟨n, hn⟩ := C87_edited data data' new cells
      (by
        obtain ⟨i, i', es, es', items, items', m, m', schema, roots, rc, a1, a2, a3, a4, a5, a6, a7, a8,
          a9, a10⟩ := hs
        refine ⟨i, i', es, es', items, items', m, m', schema, roots, rc, a1, a2, a3, a4, a5, a6, a7, a8,
          a9, fun c hc => a10 c ?_⟩
        rcases hc with hc | ⟨hc, hn⟩
        · exact .inl hc
        · obtain ⟨p, hp, -⟩ := hnew c hc
          rw [hn] at hp
          cases hp)
      hu hu' hf
      (fun c hm p hx => by
        obtain ⟨q, h1, h2⟩ := hnew c hm
        rw [hx] at h1
        cases h1
        exact h2) hc fuel ord name s h
    exact ⟨n, _, hn n (Nat.le_refl _) ord'⟩

/-! ### The hypotheses can be met -/

open SampleEdit

private theorem resaved {left : CellId → Prop} (h : ∀ c, left c → c = cell 5) :
    Resaved (fileW (sx 3) sectionGuid before) (fileW (sx 8) sectionGuid after) left := by
  refine ⟨sx 3, sx 8, before.map ordinary, after.map ordinary, indexItems 106, indexItems 107, sx 4, sx 4,
    sectionGuid, [(fileHeaderRoot, headerCell), (fileDataRoot, dataCell)], dataCell,
    fileW_holds (by decide) before_fits, fileW_holds (by decide) after_fits,
    (by unfold Distinct; decide +kernel), (by unfold Distinct; decide +kernel),
    ordinary_mem (e := ⟨sx 3, .storageIndex (indexItems 106)⟩).2 (.tail _ (.head _)),
    ordinary_mem (e := ⟨sx 8, .storageIndex (indexItems 107)⟩).2 (.tail _ (.head _)),
    ordinary_mem (e := ⟨sx 4, manifestOf sectionGuid⟩).2 (.head _),
    ordinary_mem (e := ⟨sx 4, manifestOf sectionGuid⟩).2 (.head _), by decide +kernel, fun c hc => ?_⟩
  rcases hc with rfl | hc
  · exact saved rfl
  · rw [h c hc]
    exact saved rfl

private theorem plain_before : PlainFile (fileW (sx 3) sectionGuid before) :=
  plain_of (by decide) before_fits
    (unambiguous_of (by decide +kernel) (by decide +kernel) (by decide +kernel))

private theorem plain_after : PlainFile (fileW (sx 8) sectionGuid after) :=
  plain_of (by decide) after_fits
    (unambiguous_of (by decide +kernel) (by decide +kernel) (by decide +kernel))

private theorem filePage_of {fuel : Nat} {ord : Order} {data : Bytes} {name : Text} {s : Section}
    {cells : List (List CellId)} (hu : PlainFile data)
    (h : parseSectionBuffer fuel ord data name = .ok s) (hc : FileCells data cells) {i j : Nat}
    {c : CellId} {p : Page} (hj : (cells[i]? >>= fun cs => cs[j]?) = some c)
    (hp : pageAt s i j = some p) : FilePage data c p := by
  obtain ⟨store, k1, k2⟩ := page_at hu h hc
  obtain ⟨c', space, k3, k4, k5⟩ := (k2 i j p).1 hp
  rw [hj] at k3
  cases k3
  exact ⟨store, space, k1, k4, k5⟩

private theorem store_there {fuel : Nat} {ord : Order} {data : Bytes} {name : Text} {s : Section}
    (h : parseSectionBuffer fuel ord data name = .ok s) : ∃ store, FileStore data store := by
  obtain ⟨store, h, -, -⟩ := C47_section_sound _ _ _ _ _ h
  exact ⟨store, h⟩

private theorem second_page {s : Section} (h : counts s = [[1, 2]]) :
    ∃ q, pageAt s 0 1 = some q ∧ q.contents.length = 2 := by
  have e := congrArg (fun l => l[0]? >>= fun x => x[1]?) h
  unfold counts at e
  unfold pageAt
  simp only [List.getElem?_map] at e
  cases h1 : s.pageSeries[0]? with
  | none => rw [h1] at e; cases e
  | some x =>
    rw [h1] at e
    have e : (x.pages.map fun p => p.contents.length)[1]? = some 2 := e
    rw [List.getElem?_map] at e
    obtain ⟨q, hq, hl⟩ := Option.map_eq_some_iff.1 e
    exact ⟨q, hq, hl⟩

/-- The second page of a section is edited; it then has two outlines. -/
example : ∃ (data data' : Bytes) (new : CellId → Option Page) (s : Section) (q : Page),
    (Resaved data data' fun c => c ∈ [[cell 5, cell 6]].flatten ∧ new c = none) ∧
    (Resaved data data' fun _ => False) ∧
    PlainFile data ∧ PlainFile data' ∧ (∃ store, FileStore data' store) ∧
    (∀ c ∈ [[cell 5, cell 6]].flatten, ∀ p, new c = some p → FilePage data' c p) ∧
    FileCells data [[cell 5, cell 6]] ∧ parseSectionBuffer 2 Order.id data [] = .ok s ∧
    counts s = [[1, 1]] ∧ new (cell 6) = some q ∧ q.contents.length = 2 := by
  obtain ⟨s, hs, h1⟩ := shown_of (data := fileW (sx 3) sectionGuid before) (n := [[1, 1]])
    (by decide +kernel)
  obtain ⟨s', hs', h2⟩ := shown_of (data := fileW (sx 8) sectionGuid after) (n := [[1, 2]])
    (by decide +kernel)
  obtain ⟨q, hq, hl⟩ := second_page h2
  have hc : FileCells (fileW (sx 8) sectionGuid after) [[cell 5, cell 6]] :=
    fileCells_of (by decide +kernel)
  refine ⟨_, _, fun c => if c = cell 6 then some q else none, s, q, resaved fun c hc => ?_,
    resaved fun c hc => hc.elim, plain_before, plain_after, store_there hs', fun c hm p hp => ?_,
    fileCells_of (by decide +kernel), hs, h1, if_pos rfl, hl⟩
  · obtain ⟨hm, hn⟩ := hc
    have hm : c ∈ [cell 5, cell 6] := hm
    rcases List.mem_cons.1 hm with h | h
    · exact h
    · dsimp only at hn
      rw [List.mem_singleton.1 h, if_pos rfl] at hn
      cases hn
  · dsimp only at hp
    by_cases hx : c = cell 6
    · rw [if_pos hx] at hp
      cases hp
      subst hx
      exact filePage_of plain_after hs' hc (i := 0) (j := 1) rfl hq
    · rw [if_neg hx] at hp
      cases hp

/-- The file before the edit, with a storage index without the second page. -/
private def lost : List Element :=
  ⟨sx 4, manifestOf sectionGuid⟩ :: ⟨sx 8, .storageIndex ((indexItems 106).take 3)⟩ :: kept

private theorem lost_fits : ∀ e ∈ lost, ElementFits e := by decide +kernel

private theorem without_space {data : Bytes} {c : CellId} (hu : PlainFile data)
    (h : (readStore Order.id data).toOption.map (fun s => (s.objectSpace c).isNone) = some true) :
    ¬ ∃ p, FilePage data c p := by
  rintro ⟨p, hp⟩
  obtain ⟨store, hs, hn⟩ := Option.map_eq_some_iff.1 h
  obtain ⟨space, h1, -⟩ := filePage_in hu (readStore_sound (toOption_some hs)) hp
  rw [h1] at hn
  cases hn

/-- A section whose second page is missing. -/
example : ∃ (data : Bytes) (cells : List (List CellId)), PlainFile data ∧ FileCells data cells ∧
    cell 6 ∈ cells.flatten ∧ ¬ ∃ p, FilePage data (cell 6) p := by
  have hu : PlainFile (fileW (sx 8) sectionGuid lost) :=
    plain_of (by decide) lost_fits
      (unambiguous_of (by decide +kernel) (by decide +kernel) (by decide +kernel))
  exact ⟨_, [[cell 5, cell 6]], hu, fileCells_of (by decide +kernel), by decide +kernel,
    without_space hu (by decide +kernel)⟩

#print axioms C87_edited
#print axioms C87_unreadable
#print axioms C87_exactly

end OneNote
