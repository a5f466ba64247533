/-
A page whose parts are referred to once has no more parts than its object space has objects.
-/
import Verif.Lemmas.Amount
import Verif.Spec.Parts

namespace OneNote.Unshared

open Spec Spec.StoreContents Spec.Document Spec.Objects Spec.Parts Spec.Shown

/-! ### Descendants -/

/-- `b` is `a` or below it. -/
inductive Below (space : ObjectSpace) (a : ExGuid) : ExGuid → Prop where
  | self : Below space a a
  | step {b c : ExGuid} {ids : List ExGuid} : Below space a b → Lists space b ids → c ∈ ids →
      Below space a c

variable {space : ObjectSpace}

theorem below_trans {a b c : ExGuid} (h : Below space a b) (h' : Below space b c) :
    Below space a c := by
  induction h' with
  | self => exact h
  | step _ hl hm ih => exact ih.step hl hm

theorem below_part {a b : ExGuid} (ha : Part space a) (h : Below space a b) : Part space b := by
  induction h with
  | self => exact ha
  | step _ hl hm ih => exact ih.child hl hm

/-- No part is below one of its own parts. -/
theorem acyclic (hu : Unshared space) {a : ExGuid} (ha : Part space a) :
    ∀ {ids : List ExGuid} {c : ExGuid}, Lists space a ids → c ∈ ids → ¬ Below space c a := by
  induction ha with
  | @root r hr =>
    intro ids c hl hm hb
    cases hb with
    | self => exact hu.root _ _ _ (.root hr) hl hr hm
    | step hb' hl' hm' =>
      exact hu.root _ _ _ (below_part ((Part.root hr).child hl hm) hb') hl' hr hm'
  | @child p x ids' hp hl' hm' ih =>
    intro ids c hl hm hb
    have hx : Part space x := hp.child hl' hm'
    cases hb with
    | self =>
      have : x = p := hu.parent _ _ _ _ _ hx hp hl hl' hm hm'
      subst this
      exact ih hl' hm' .self
    | step hb' hl'' hm'' =>
      have := hu.parent _ _ _ _ _ (below_part (hx.child hl hm) hb') hp hl'' hl' hm'' hm'
      subst this
      exact ih hl' hm' (below_trans (Below.self.step hl hm) hb')

/-- Two parts with a common descendant are one above the other. -/
theorem linear (hu : Unshared space) {a b x : ExGuid} (ha : Part space a) (hb : Part space b)
    (h : Below space a x) (h' : Below space b x) : Below space a b ∨ Below space b a := by
  induction h with
  | self => exact .inr h'
  | @step y x ids hy hl hm ih =>
    cases h' with
    | self => exact .inl (hy.step hl hm)
    | step hz hl' hm' =>
      have := hu.parent _ _ _ _ _ (below_part ha hy) (below_part hb hz) hl hl' hm hm'
      subst this
      exact ih hz

/-- Different parts of one object have nothing in common. -/
theorem disjoint (hu : Unshared space) {a c d x : ExGuid} {ids : List ExGuid} (ha : Part space a)
    (hl : Lists space a ids) (hc : c ∈ ids) (hd : d ∈ ids) (hne : c ≠ d) (h : Below space c x)
    (h' : Below space d x) : False := by
  have key : ∀ c d, c ∈ ids → d ∈ ids → c ≠ d → Below space c d → False := by
    intro c d hc hd hne hb
    cases hb with
    | self => exact hne rfl
    | step hy hl' hm' =>
      have := hu.parent _ _ _ _ _ (below_part (ha.child hl hc) hy) ha hl' hl hm' hd
      subst this
      exact acyclic hu ha hl hc hy
  rcases linear hu (ha.child hl hc) (ha.child hl hd) h h' with h | h
  · exact key c d hc hd hne h
  · exact key d c hd hc (Ne.symm hne) h

/-! ### Trees of parts -/

mutual

/-- The objects of a tree of parts below `id`. -/
inductive Visits (space : ObjectSpace) : ExGuid → List ExGuid → Prop where
  | leaf {id : ExGuid} {o : Object} : At space id o → Visits space id [id]
  | node {id : ExGuid} {ids l : List ExGuid} : Lists space id ids → VisitsAll space ids l →
      Visits space id (id :: l)

inductive VisitsAll (space : ObjectSpace) : List ExGuid → List ExGuid → Prop where
  | nil : VisitsAll space [] []
  | cons {id : ExGuid} {ids l l' : List ExGuid} : Visits space id l → VisitsAll space ids l' →
      VisitsAll space (id :: ids) (l ++ l')

end

theorem lists_at {id : ExGuid} {ids : List ExGuid} (h : Lists space id ids) : ∃ o, At space id o := by
  cases h <;> exact ⟨_, by assumption⟩

mutual

theorem visits_below {id : ExGuid} {l : List ExGuid} (h : Visits space id l) :
    ∀ x ∈ l, Below space id x ∧ ∃ o, At space x o := by
  intro x hx
  match h with
  | .leaf ha =>
    rw [List.mem_singleton.1 hx]
    exact ⟨.self, _, ha⟩
  | .node hl hv =>
    rcases List.mem_cons.1 hx with rfl | hx
    · exact ⟨.self, lists_at hl⟩
    · obtain ⟨c, hc, hb, ho⟩ := visitsAll_below hv x hx
      exact ⟨below_trans (Below.self.step hl hc) hb, ho⟩

theorem visitsAll_below {ids l : List ExGuid} (h : VisitsAll space ids l) :
    ∀ x ∈ l, ∃ c ∈ ids, Below space c x ∧ ∃ o, At space x o := by
  intro x hx
  match h with
  | .nil => cases hx
  | .cons hv hs =>
    rcases List.mem_append.1 hx with hx | hx
    · exact ⟨_, List.mem_cons_self .., visits_below hv x hx⟩
    · obtain ⟨c, hc, hb⟩ := visitsAll_below hs x hx
      exact ⟨c, List.mem_cons_of_mem _ hc, hb⟩

end

mutual

theorem visits_nodup (hu : Unshared space) {id : ExGuid} {l : List ExGuid} (h : Visits space id l)
    (hp : Part space id) : l.Nodup := by
  match h with
  | .leaf ha => simp
  | .node hl hv =>
    refine List.nodup_cons.2 ⟨fun hm => ?_, visitsAll_nodup hu hp hl hv (hu.once _ _ hp hl) fun _ h => h⟩
    obtain ⟨c, hc, hb, -⟩ := visitsAll_below hv _ hm
    exact acyclic hu hp hl hc hb

theorem visitsAll_nodup (hu : Unshared space) {id : ExGuid} (hp : Part space id) {all : List ExGuid}
    (hl : Lists space id all) {ids l : List ExGuid} (h : VisitsAll space ids l) (hn : ids.Nodup)
    (hs : ∀ c ∈ ids, c ∈ all) : l.Nodup := by
  match h with
  | .nil => exact List.nodup_nil
  | .cons (id := c) hv hvs =>
    have hn := List.nodup_cons.1 hn
    have hc := hs c (List.mem_cons_self ..)
    refine List.nodup_append.2 ⟨visits_nodup hu hv (hp.child hl hc),
      visitsAll_nodup hu hp hl hvs hn.2 fun d hd => hs d (List.mem_cons_of_mem _ hd), ?_⟩
    intro x hx y hy he
    subst he
    obtain ⟨d, hd, hb, -⟩ := visitsAll_below hvs _ hy
    exact disjoint hu hp hl hc (hs d (List.mem_cons_of_mem _ hd))
      (fun h => hn.1 (h ▸ hd)) (visits_below hv _ hx).1 hb

end

theorem visitsAll_append {as bs l l' : List ExGuid} (h : VisitsAll space as l)
    (h' : VisitsAll space bs l') : VisitsAll space (as ++ bs) (l ++ l') := by
  match h with
  | .nil => exact h'
  | .cons hv hs =>
    rw [List.append_assoc]
    exact .cons hv (visitsAll_append hs h')

/-! ### The parts that are shown form such a tree -/

mutual

theorem item_visits (i : OutlineItem) {id : ExGuid} (h : ItemIs space id i) :
    ∃ l, Visits space id l ∧ inItem i ≤ l.length := by
  match i with
  | .group ⟨_, items⟩ =>
    cases h with
    | group ha ho he =>
      obtain ⟨l, hv, hl⟩ := items_visit items he
      refine ⟨_, .node (.group ha ho) hv, ?_⟩
      rw [inItem, List.length_cons]
      omega
  | .element e =>
    cases h with
    | element he =>
      rw [inItem]
      exact element_visits e he

theorem items_visit (is : List OutlineItem) {ids : List ExGuid} (h : Each (ItemIs space) ids is) :
    ∃ l, VisitsAll space ids l ∧ inItems is ≤ l.length := by
  match is with
  | [] => cases h; exact ⟨_, .nil, by rw [inItems]; exact Nat.zero_le _⟩
  | i :: is =>
    cases h with
    | cons hi hs =>
      obtain ⟨l, hv, hl⟩ := item_visits i hi
      obtain ⟨l', hv', hl'⟩ := items_visit is hs
      refine ⟨_, .cons hv hv', ?_⟩
      rw [inItems, List.length_append]
      omega

theorem element_visits (e : OutlineElement) {id : ExGuid} (h : ElementIs space id e) :
    ∃ l, Visits space id l ∧ inElement e ≤ l.length := by
  match e with
  | ⟨contents, _, _, _, children⟩ =>
    cases h with
    | mk ha ho hc hk _ =>
      obtain ⟨l, hv, hl⟩ := items_visit children hc
      obtain ⟨l', hv', hl'⟩ := contents_visit contents hk
      refine ⟨_, .node (.element ha ho) (visitsAll_append hv hv'), ?_⟩
      rw [inElement, List.length_cons, List.length_append]
      omega

theorem elements_visit (es : List OutlineElement) {ids : List ExGuid}
    (h : Each (ElementIs space) ids es) : ∃ l, VisitsAll space ids l ∧ inElements es ≤ l.length := by
  match es with
  | [] => cases h; exact ⟨_, .nil, by rw [inElements]; exact Nat.zero_le _⟩
  | e :: es =>
    cases h with
    | cons hi hs =>
      obtain ⟨l, hv, hl⟩ := element_visits e hi
      obtain ⟨l', hv', hl'⟩ := elements_visit es hs
      refine ⟨_, .cons hv hv', ?_⟩
      rw [inElements, List.length_append]
      omega

theorem content_visits (c : Content) {id : ExGuid} (h : ContentIs space id c) :
    ∃ l, Visits space id l ∧ inContent c ≤ l.length := by
  match c with
  | .table ⟨_, _, rows, _, _, _, _, _, _⟩ =>
    cases h with
    | table ha ho hr _ =>
      obtain ⟨l, hv, hl⟩ := rows_visit rows hr
      refine ⟨_, .node (.table ha ho) hv, ?_⟩
      rw [inContent, List.length_cons]
      omega
  | .richText t =>
    cases h with
    | text h =>
      obtain ⟨o, _, _, _, _, _, _, ha, _⟩ := h
      exact ⟨_, .leaf ha, Nat.le_refl _⟩
  | .image t =>
    cases h with
    | image h =>
      obtain ⟨o, _, _, _, _, ha, _⟩ := h
      exact ⟨_, .leaf ha, Nat.le_refl _⟩
  | .embeddedFile t =>
    cases h with
    | file h =>
      obtain ⟨o, _, _, _, _, ha, _⟩ := h
      exact ⟨_, .leaf ha, Nat.le_refl _⟩
  | .ink t =>
    cases h with
    | ink h =>
      obtain ⟨o, _, ha, _⟩ := h
      exact ⟨_, .leaf ha, Nat.le_refl _⟩
  | .unknown =>
    cases h with
    | unknown ha => exact ⟨_, .leaf ha, Nat.le_refl _⟩

theorem contents_visit (cs : List Content) {ids : List ExGuid} (h : Each (ContentIs space) ids cs) :
    ∃ l, VisitsAll space ids l ∧ inContents cs ≤ l.length := by
  match cs with
  | [] => cases h; exact ⟨_, .nil, by rw [inContents]; exact Nat.zero_le _⟩
  | c :: cs =>
    cases h with
    | cons hi hs =>
      obtain ⟨l, hv, hl⟩ := content_visits c hi
      obtain ⟨l', hv', hl'⟩ := contents_visit cs hs
      refine ⟨_, .cons hv hv', ?_⟩
      rw [inContents, List.length_append]
      omega

theorem row_visits (r : TableRow) {id : ExGuid} (h : RowIs space id r) :
    ∃ l, Visits space id l ∧ inRow r ≤ l.length := by
  match r with
  | ⟨cells⟩ =>
    cases h with
    | mk ha ho hc =>
      obtain ⟨l, hv, hl⟩ := cells_visit cells hc
      refine ⟨_, .node (.row ha ho) hv, ?_⟩
      rw [inRow, List.length_cons]
      omega

theorem rows_visit (rs : List TableRow) {ids : List ExGuid} (h : Each (RowIs space) ids rs) :
    ∃ l, VisitsAll space ids l ∧ inRows rs ≤ l.length := by
  match rs with
  | [] => cases h; exact ⟨_, .nil, by rw [inRows]; exact Nat.zero_le _⟩
  | r :: rs =>
    cases h with
    | cons hi hs =>
      obtain ⟨l, hv, hl⟩ := row_visits r hi
      obtain ⟨l', hv', hl'⟩ := rows_visit rs hs
      refine ⟨_, .cons hv hv', ?_⟩
      rw [inRows, List.length_append]
      omega

theorem cell_visits (c : TableCell) {id : ExGuid} (h : CellIs space id c) :
    ∃ l, Visits space id l ∧ inCell c ≤ l.length := by
  match c with
  | ⟨elements, _, _, _⟩ =>
    cases h with
    | mk ha ho hc =>
      obtain ⟨l, hv, hl⟩ := elements_visit elements hc
      refine ⟨_, .node (.cell ha ho) hv, ?_⟩
      rw [inCell, List.length_cons]
      omega

theorem cells_visit (cs : List TableCell) {ids : List ExGuid} (h : Each (CellIs space) ids cs) :
    ∃ l, VisitsAll space ids l ∧ inCells cs ≤ l.length := by
  match cs with
  | [] => cases h; exact ⟨_, .nil, by rw [inCells]; exact Nat.zero_le _⟩
  | c :: cs =>
    cases h with
    | cons hi hs =>
      obtain ⟨l, hv, hl⟩ := cell_visits c hi
      obtain ⟨l', hv', hl'⟩ := cells_visit cs hs
      refine ⟨_, .cons hv hv', ?_⟩
      rw [inCells, List.length_append]
      omega

end

theorem all_visit {α : Type} {R : ExGuid → α → Prop} {f : α → Nat}
    (hR : ∀ id a, R id a → ∃ l, Visits space id l ∧ f a ≤ l.length) {ids : List ExGuid} {as : List α}
    (h : Each R ids as) : ∃ l, VisitsAll space ids l ∧ (as.map f).sum ≤ l.length := by
  induction h with
  | nil => exact ⟨_, .nil, Nat.le_refl _⟩
  | cons ha _ ih =>
    obtain ⟨l, hv, hl⟩ := hR _ _ ha
    obtain ⟨l', hv', hl'⟩ := ih
    refine ⟨_, .cons hv hv', ?_⟩
    rw [List.map_cons, List.sum_cons, List.length_append]
    omega

theorem outline_visits (id : ExGuid) (o : Outline) (h : OutlineIs space id o) :
    ∃ l, Visits space id l ∧ inOutline o ≤ l.length := by
  obtain ⟨_, n, items, ha, ho, hi, rfl⟩ := h
  obtain ⟨l, hv, hl⟩ := items_visit items hi
  refine ⟨_, .node (.outline ha ho) hv, ?_⟩
  show 1 + inItems items ≤ _
  rw [List.length_cons]
  omega

theorem pageContent_visits (id : ExGuid) (c : PageContent) (h : PageContentIs space id c) :
    ∃ l, Visits space id l ∧ inPageContent c ≤ l.length := by
  cases h with
  | image h =>
    obtain ⟨o, _, _, _, _, ha, _⟩ := h
    exact ⟨_, .leaf ha, Nat.le_refl _⟩
  | file h =>
    obtain ⟨o, _, _, _, _, ha, _⟩ := h
    exact ⟨_, .leaf ha, Nat.le_refl _⟩
  | outline h => exact outline_visits _ _ h
  | ink h =>
    obtain ⟨o, _, ha, _⟩ := h
    exact ⟨_, .leaf ha, Nat.le_refl _⟩
  | unknown ha => exact ⟨_, .leaf ha, Nat.le_refl _⟩

theorem title_visits (id : ExGuid) (t : Title) (h : TitleIs space id t) :
    ∃ l, Visits space id l ∧ inTitle t ≤ l.length := by
  obtain ⟨_, n, contents, ha, ho, hc, rfl⟩ := h
  obtain ⟨l, hv, hl⟩ := all_visit outline_visits hc
  refine ⟨_, .node (.title ha ho) hv, ?_⟩
  show 1 + (contents.map inOutline).sum ≤ _
  rw [List.length_cons]
  omega

theorem page_visits {p : Page} (h : PageIs space p) :
    ∃ root l, space.roots.get? .defaultContent = some root ∧ Visits space root l ∧ onPage p ≤ l.length := by
  obtain ⟨_, _, _, root, _, page, _, n, title, contents, -, -, -, hr, hm, hm', hp, hp', ht, hc, rfl⟩ := h
  obtain ⟨l, hv, hl⟩ := all_visit pageContent_visits hc
  have : ∃ l, VisitsAll space n.title.toList l ∧ (title.map inTitle).getD 0 ≤ l.length := by
    rcases ht with ⟨h1, h2⟩ | ⟨x, t, h1, h2, hx⟩
    · rw [h1, h2]
      exact ⟨_, .nil, Nat.le_refl _⟩
    · rw [h1, h2]
      obtain ⟨l, hv, hl⟩ := title_visits x t hx
      exact ⟨_, .cons hv .nil, by simpa using hl⟩
  obtain ⟨l', hv', hl'⟩ := this
  refine ⟨root, _, hr, .node (.manifest hm hm')
    (.cons (.node (.page hp hp') (visitsAll_append hv' hv)) .nil), ?_⟩
  show (title.map inTitle).getD 0 + (contents.map inPageContent).sum ≤ _
  simp only [List.length_cons, List.length_append, List.length_nil]
  omega

/-! ### The objects are in the file -/

theorem at_declared {pkg : Package} {si : StorageIndex} {m : CellMapping} {s : ObjectSpace}
    (h : SpaceIs pkg si m s) {id : ExGuid} {o : Object} (ho : At s id o) :
    id ∈ pkg.objectGroups.flatMap fun e => e.2.declarations.map fun d => (Spec.declared d).1 := by
  have ho : s.getObject id = some o := ho
  rcases h.contents with ⟨r, ms, _, _, hh⟩ | ⟨_, _, hn, _⟩
  · rcases first_declaring (groupsOf pkg ms) id with hn | ⟨pre, g, post, hs, hpre, hg⟩
    · rw [hh.absent id hn] at ho; cases ho
    · obtain ⟨i, hgi⟩ := Amount.groups_of (show g ∈ groupsOf pkg ms by rw [hs]; simp)
      obtain ⟨d, hd, he⟩ := hg
      exact List.mem_flatMap.2 ⟨(i, g), Map.mem_of_get? hgi, List.mem_map.2 ⟨d, hd, he⟩⟩
  · rw [hn id] at ho; cases ho

theorem declared_size (l : List (ExGuid × ObjectGroup)) :
    (l.flatMap fun e => e.2.declarations.map fun d => (Spec.declared d).1).length ≤
      (l.map fun e => 1 + sizeObjectGroup e.2).sum := by
  induction l with
  | nil => exact Nat.le_refl _
  | cons e l ih =>
    rw [List.flatMap_cons, List.length_append, List.map_cons, List.sum_cons, List.length_map]
    have : e.2.declarations.length ≤ sizeObjectGroup e.2 := by
      unfold sizeObjectGroup
      omega
    omega

theorem nodup_length {l l' : List ExGuid} (h : l.Nodup) (hs : ∀ x ∈ l, x ∈ l') :
    l.length ≤ l'.length := by
  induction l generalizing l' with
  | nil => exact Nat.zero_le _
  | cons a l ih =>
    have hn := List.nodup_cons.1 h
    have ha := hs a (List.mem_cons_self ..)
    have := ih hn.2 (l' := l'.erase a) fun x hx =>
      (List.mem_erase_of_ne (fun e : x = a => hn.1 (e ▸ hx))).2 (hs x (List.mem_cons_of_mem _ hx))
    rw [List.length_erase_of_mem ha] at this
    have := List.length_pos_of_mem ha
    rw [List.length_cons]
    omega

theorem space_parts {pkg : Package} {si : StorageIndex} {m : CellMapping} {s : ObjectSpace}
    (h : SpaceIs pkg si m s) (hu : Unshared s) {p : Page} (hp : PageIs s p) :
    onPage p ≤ sizePackage pkg := by
  obtain ⟨root, l, hr, hv, hl⟩ := page_visits hp
  have hn := visits_nodup hu hv (.root hr)
  have h1 := nodup_length hn fun x hx =>
    let ⟨_, _, ho⟩ := visits_below hv x hx
    at_declared h ho
  have h2 := declared_size pkg.objectGroups
  simp only [sizePackage, sizeMap]
  omega

/-- The pages of a file whose parts are referred to once. -/
theorem file_parts {data : Bytes} {s : Store} (h : FileStore data s) {cell : CellId}
    {space : ObjectSpace} (hs : s.objectSpace cell = some space) (hu : Unshared space) {p : Page}
    (hp : PageIs space p) : onPage p ≤ data.length := by
  obtain ⟨q, hc, hq⟩ := h
  have hsize : sizePackage q.package ≤ data.length := by
    have := holds_iff.1 hc
    unfold P.run at this
    split at this
    · rename_i v rest hv
      cases this
      have := Step.packaging _ _ _ hv
      simp only at this
      omega
    · cases this
  obtain ⟨si, sm, hc, dc, -, -, -, -, -, -, -, h10, h11⟩ := hq
  have hs : s.objectSpaces.get? cell = some space := hs
  by_cases hm : ∃ m, IsOther si hc dc cell m
  · obtain ⟨m, hm⟩ := hm
    obtain ⟨space', hs', hi⟩ := h10 cell m hm
    rw [hs'] at hs
    cases hs
    exact Nat.le_trans (space_parts hi hu hp) hsize
  · rw [h11 cell hm] at hs
    cases hs

theorem sum_le {l : List Nat} {n : Nat} (h : ∀ x ∈ l, x ≤ n) : l.sum ≤ l.length * n := by
  induction l with
  | nil => exact Nat.zero_le _
  | cons a l ih =>
    rw [List.sum_cons, List.length_cons, Nat.succ_mul]
    have h1 := h a (List.mem_cons_self ..)
    have h2 := ih fun x hx => h x (List.mem_cons_of_mem _ hx)
    omega

mutual

theorem item_le (i : OutlineItem) : itemsIn i ≤ inItem i := by
  match i with
  | .group ⟨_, items⟩ =>
    have := items_le items
    rw [itemsIn, inItem]
    omega
  | .element ⟨_, _, _, _, children⟩ =>
    have := items_le children
    rw [itemsIn, inItem, inElement]
    omega

theorem items_le (is : List OutlineItem) : itemsInAll is ≤ inItems is := by
  match is with
  | [] => rw [itemsInAll, inItems]; exact Nat.le_refl _
  | i :: is =>
    have := item_le i
    have := items_le is
    rw [itemsInAll, inItems]
    omega

end

theorem map_le {α : Type} {f g : α → Nat} {l : List α} (h : ∀ a ∈ l, f a ≤ g a) :
    (l.map f).sum ≤ (l.map g).sum := by
  induction l with
  | nil => exact Nat.le_refl _
  | cons a l ih =>
    have h1 := h a (List.mem_cons_self ..)
    have h2 := ih fun x hx => h x (List.mem_cons_of_mem _ hx)
    simp only [List.map_cons, List.sum_cons]
    omega

/-- The groups and elements are among the parts. -/
theorem shown_le (s : Section) : itemsShown s ≤ shown s := by
  refine map_le fun series _ => map_le fun p _ => ?_
  refine Nat.le_trans (map_le (g := inPageContent) fun c _ => ?_) (Nat.le_add_left _ _)
  cases c with
  | outline o =>
    have := items_le o.items
    show itemsInAll o.items ≤ 1 + inItems o.items
    omega
  | _ => exact Nat.zero_le _

/-! ### Checking a given object space -/

/-- The lists of parts of an object. -/
def listsOf (space : ObjectSpace) (id : ExGuid) : List (List ExGuid) :=
  match space.getObject id with
  | none => []
  | some o =>
    ((PageManifestNode.parse o).toOption.map fun page => [page]).toList ++
    ((PageNode.parse o).toOption.map fun n => n.title.toList ++ n.content).toList ++
    ((TitleNode.parse o).toOption.map fun n => n.children).toList ++
    ((OutlineNode.parse o).toOption.map fun n => n.children).toList ++
    ((OutlineGroupNode.parse o).toOption.map fun n => n.children).toList ++
    ((OutlineElementNode.parse o).toOption.map fun n => n.children ++ n.contents).toList ++
    ((TableNode.parse o).toOption.map fun n => n.rows).toList ++
    ((TableRowNode.parse o).toOption.map fun n => n.cells).toList ++
    ((TableCellNode.parse o).toOption.map fun n => n.contents).toList

theorem mem_listsOf {id : ExGuid} {ids : List ExGuid} (h : Lists space id ids) :
    ids ∈ listsOf space id := by
  have key : ∀ {α : Type} {p : Res α} {n : α} (f : α → List ExGuid), p = .ok n →
      f n ∈ (p.toOption.map f).toList := by
    rintro α p n f rfl
    exact List.mem_singleton.2 rfl
  unfold listsOf
  cases h with
  | manifest ha ho =>
    have ha : space.getObject id = _ := ha
    rw [ha]
    simp only [List.mem_append]
    have := key (fun page => [page]) (PageManifestNode.parse_iff.2 ho)
    simp only [this, true_or, or_true]
  | page ha ho =>
    have ha : space.getObject id = _ := ha
    rw [ha]
    simp only [List.mem_append]
    have := key (fun n => n.title.toList ++ n.content) (PageNode.parse_iff.2 ho)
    simp only [this, true_or, or_true]
  | title ha ho =>
    have ha : space.getObject id = _ := ha
    rw [ha]
    simp only [List.mem_append]
    have := key (fun n => n.children) (TitleNode.parse_iff.2 ho)
    simp only [this, true_or, or_true]
  | outline ha ho =>
    have ha : space.getObject id = _ := ha
    rw [ha]
    simp only [List.mem_append]
    have := key (fun n => n.children) (OutlineNode.parse_iff.2 ho)
    simp only [this, true_or, or_true]
  | group ha ho =>
    have ha : space.getObject id = _ := ha
    rw [ha]
    simp only [List.mem_append]
    have := key (fun n => n.children) (OutlineGroupNode.parse_iff.2 ho)
    simp only [this, true_or, or_true]
  | element ha ho =>
    have ha : space.getObject id = _ := ha
    rw [ha]
    simp only [List.mem_append]
    have := key (fun n => n.children ++ n.contents) (OutlineElementNode.parse_iff.2 ho)
    simp only [this, true_or, or_true]
  | table ha ho =>
    have ha : space.getObject id = _ := ha
    rw [ha]
    simp only [List.mem_append]
    have := key (fun n => n.rows) (TableNode.parse_iff.2 ho)
    simp only [this, true_or, or_true]
  | row ha ho =>
    have ha : space.getObject id = _ := ha
    rw [ha]
    simp only [List.mem_append]
    have := key (fun n => n.cells) (TableRowNode.parse_iff.2 ho)
    simp only [this, true_or, or_true]
  | cell ha ho =>
    have ha : space.getObject id = _ := ha
    rw [ha]
    simp only [List.mem_append]
    have := key (fun n => n.contents) (TableCellNode.parse_iff.2 ho)
    simp only [this, true_or, or_true]

/-- What is to be checked, with a list of all parts. -/
def Check (space : ObjectSpace) (parts : List ExGuid) : Prop :=
  (∀ r ∈ (space.roots.get? .defaultContent).toList, r ∈ parts) ∧
  ∀ id ∈ parts, ∀ ids ∈ listsOf space id, ids.Nodup ∧ (∀ c ∈ ids, c ∈ parts) ∧
    (∀ r ∈ (space.roots.get? .defaultContent).toList, r ∉ ids) ∧
    ∀ id' ∈ parts, ∀ ids' ∈ listsOf space id', id ≠ id' → ∀ c ∈ ids, c ∉ ids'

instance (space : ObjectSpace) (parts : List ExGuid) : Decidable (Check space parts) := by
  unfold Check
  infer_instance

theorem unshared_of {parts : List ExGuid} (h : Check space parts) : Unshared space := by
  have root : ∀ r, space.roots.get? .defaultContent = some r → r ∈ (space.roots.get? .defaultContent).toList := by
    intro r hr
    rw [hr]
    exact List.mem_singleton.2 rfl
  have hp : ∀ id, Part space id → id ∈ parts := by
    intro id hi
    induction hi with
    | root hr => exact h.1 _ (root _ hr)
    | child _ hl hm ih => exact (h.2 _ ih _ (mem_listsOf hl)).2.1 _ hm
  refine ⟨fun id ids hi hl => (h.2 _ (hp _ hi) _ (mem_listsOf hl)).1, ?_, ?_⟩
  · intro id id' ids ids' c hi hi' hl hl' hm hm'
    refine Classical.not_not.1 fun hne => ?_
    exact (h.2 _ (hp _ hi) _ (mem_listsOf hl)).2.2.2 _ (hp _ hi') _ (mem_listsOf hl') hne c hm hm'
  · intro id ids r hi hl hr
    exact (h.2 _ (hp _ hi) _ (mem_listsOf hl)).2.2.1 r (root r hr)

end OneNote.Unshared
