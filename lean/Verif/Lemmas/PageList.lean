/-
Sections as lists of pages.
-/
import Verif.Spec.PageList
import Verif.Lemmas.Revised
import Verif.Lemmas.Fuel

namespace OneNote.PageHistory

open Spec Spec.StoreContents Spec.Document Spec.PageHistory

theorem each_through {α β γ : Type} {R : α → β → Prop} {Q : β → γ → Prop} {S : α → γ → Prop} {as : List α}
    {bs : List β} {cs : List γ} (h : Each R as bs) (hq : Each Q bs cs)
    (hf : ∀ a b c, R a b → Q b c → S a c) : Each S as cs := by
  induction h generalizing cs with
  | nil => cases hq; exact .nil
  | cons hr _ ih =>
    cases hq with
    | cons hx hq => exact .cons (hf _ _ _ hr hx) (ih hq)

/-- A section is its heading and its pages. -/
theorem sectionFile_iff {data : Bytes} (hu : PlainFile data) {name : Text} {s : Section} :
    SectionFile data name s ↔ FileHeading data name s.displayName s.color ∧
      ∃ cells, FileCells data cells ∧ PagesOf data cells s.pageSeries := by
  constructor
  · rintro ⟨store, hf, hs, info, m, metadata, root, o, n, h1, h2, h3, h4, h5, h6, h7, h8, h9⟩
    refine ⟨⟨store, info, m, metadata, hf, hs, h1, h2, h3, h7, h9⟩, ?_⟩
    have key : ∀ (ids : List ExGuid) (ss : List PageSeries), Each (SeriesIs store) ids ss → ∃ cells,
        Each (fun series cs => ∃ o n, At store.dataRoot series o ∧ Objects.IsPageSeriesNode o n ∧
          n.pageSpaces = cs) ids cells ∧ PagesOf data cells ss := by
      intro ids ss h
      induction h with
      | nil => exact ⟨[], .nil, .nil⟩
      | cons hx _ ih =>
        obtain ⟨cells, a1, a2⟩ := ih
        obtain ⟨o, n, b1, b2, b3⟩ := hx
        exact ⟨n.pageSpaces :: cells, .cons ⟨o, n, b1, b2, rfl⟩ a1,
          .cons (each_mono b3 fun c p _ ⟨space, k1, k2⟩ => ⟨store, space, hf, k1, k2⟩) a2⟩
    obtain ⟨cells, a1, a2⟩ := key _ _ h8
    exact ⟨cells, ⟨store, hf, root, o, n, h4, h5, h6, a1⟩, a2⟩
  · rintro ⟨⟨store, info, m, metadata, hf, hs, h1, h2, h3, h7, h9⟩, cells, ⟨store', hf', hc⟩, hp⟩
    replace hc := pageCells_same (stores_alike hu hf' hf).dataRoot hc
    obtain ⟨root, o, n, h4, h5, h6, h8⟩ := hc
    refine ⟨store, hf, hs, info, m, metadata, root, o, n, h1, h2, h3, h4, h5, h6, h7, ?_, h9⟩
    refine each_through h8 hp fun id cs x ⟨o, n, a1, a2, a3⟩ hx => ?_
    subst a3
    exact ⟨o, n, a1, a2, each_mono hx fun c p _ hp => filePage_in hu hf hp⟩

/-- A page that is left alone is still stored. -/
theorem page_left {data data' : Bytes} {left : CellId → Prop} (hs : SavedPages data data' left)
    (hu : PlainFile data) (hu' : PlainFile data') (hf : ∃ store, FileStore data' store) {c : CellId}
    (hl : left c) {p : Page} (hp : FilePage data c p) : FilePage data' c p := by
  obtain ⟨store', h'⟩ := hf
  obtain ⟨store, space, h, hsp, hpage⟩ := hp
  obtain ⟨i, i', es, es', items, items', m, m', schema, roots, a1, a2, a3, a4, a5, a6, a7, a8, a10⟩ := hs
  obtain ⟨b1, hc, dc, b2, b3, b4, b5, b6⟩ := store_parts a1 a3 a5 a7 hu h
  obtain ⟨c1, hc', dc', c2, c3, c4, c5, c6⟩ := store_parts a2 a4 a6 a8 hu' h'
  rw [b2] at c2
  cases c2
  rw [b3] at c3
  cases c3
  have hk := a10 c hl
  have ho : ∃ m, IsOther (indexOf items) hc dc c m := by
    apply Classical.byContradiction
    intro hn
    rw [b6 c hn] at hsp
    cases hsp
  obtain ⟨m, d1, d2, d3, d4⟩ := ho
  obtain ⟨space', hsp'⟩ := c5 c m ⟨hk.cell.trans d1, d2, d3, d4⟩
  obtain ⟨root, hroot⟩ : ∃ root, space.roots.get? .metadata = some root := by
    obtain ⟨info, -, -, -, -, -, -, -, -, -, hi, -⟩ := hpage
    exact ⟨_, hi⟩
  exact ⟨store', space', h', hsp', page_same_space (saved_space a1 a2 a3 a4 a5 a6 hk hu hu'
    (cellSpace_of hu h hsp) (cellSpace_of hu' h' hsp') hroot) hpage⟩

/-- If each cell has a page, there is a list of them. -/
theorem pages_exist {data : Bytes} {cells : List (List CellId)}
    (h : ∀ c ∈ cells.flatten, ∃ p, FilePage data c p) : ∃ series, PagesOf data cells series := by
  have row : ∀ cs : List CellId, (∀ c ∈ cs, ∃ p, FilePage data c p) → ∃ ps, Each (FilePage data) cs ps := by
    intro cs
    induction cs with
    | nil => exact fun _ => ⟨[], .nil⟩
    | cons c cs ih =>
      intro h
      obtain ⟨p, hp⟩ := h c List.mem_cons_self
      obtain ⟨ps, hps⟩ := ih fun c hc => h c (.tail _ hc)
      exact ⟨p :: ps, .cons hp hps⟩
  induction cells with
  | nil => exact ⟨[], .nil⟩
  | cons cs cells ih =>
    obtain ⟨ps, hps⟩ := row cs fun c hc => h c (List.mem_flatten.2 ⟨cs, List.mem_cons_self, hc⟩)
    obtain ⟨ss, hss⟩ := ih fun c hc => by
      obtain ⟨x, hx, hc⟩ := List.mem_flatten.1 hc
      exact h c (List.mem_flatten.2 ⟨x, .tail _ hx, hc⟩)
    exact ⟨⟨ps⟩ :: ss, .cons hps hss⟩

theorem pages_length {data : Bytes} {cells : List (List CellId)} {series : List PageSeries}
    (h : PagesOf data cells series) :
    series.map (fun x => x.pages.length) = cells.map List.length := by
  have row : ∀ {cs : List CellId} {ps : List Page}, Each (FilePage data) cs ps → ps.length = cs.length := by
    intro cs ps h
    induction h with
    | nil => rfl
    | cons _ _ ih => rw [List.length_cons, List.length_cons, ih]
  unfold PagesOf at h
  induction h with
  | nil => rfl
  | cons hx _ ih => rw [List.map_cons, List.map_cons, row hx, ih]

theorem each_getElem {α β : Type} {R : α → β → Prop} {as : List α} {bs : List β} (h : Each R as bs)
    {i : Nat} {a : α} (ha : as[i]? = some a) : ∃ b, bs[i]? = some b ∧ R a b := by
  induction h generalizing i with
  | nil => cases ha
  | cons hr _ ih =>
    cases i with
    | zero => cases ha; exact ⟨_, rfl, hr⟩
    | succ i => exact ih ha

theorem page_of {data : Bytes} {cells : List (List CellId)} {s : Section}
    (h : PagesOf data cells s.pageSeries) {i j : Nat} {c : CellId}
    (hj : (cells[i]? >>= fun cs => cs[j]?) = some c) : ∃ p, pageAt s i j = some p ∧ FilePage data c p := by
  cases hi : cells[i]? with
  | none => rw [hi] at hj; cases hj
  | some cs =>
    rw [hi] at hj
    obtain ⟨x, h1, h2⟩ := each_getElem h hi
    obtain ⟨p, h3, h4⟩ := each_getElem h2 hj
    exact ⟨p, by unfold pageAt; rw [h1]; exact h3, h4⟩

theorem filePage_unique {data : Bytes} (hu : PlainFile data) {c : CellId} {p q : Page}
    (hp : FilePage data c p) (hq : FilePage data c q) : p = q := by
  obtain ⟨store, space, h, hs, hp⟩ := hp
  obtain ⟨space', hs', hq⟩ := filePage_in hu h hq
  rw [hs] at hs'
  cases hs'
  obtain ⟨m, hm⟩ := page_iff.2 hp
  obtain ⟨n, hn⟩ := page_iff.2 hq
  have e1 := refines_ok (refines_page (Nat.le_max_left m n) space) hm
  have e2 := refines_ok (refines_page (Nat.le_max_right m n) space) hn
  rw [e1] at e2
  cases e2
  rfl

end OneNote.PageHistory
