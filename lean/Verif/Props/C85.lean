/-
C85: Editing one part of a page leaves the other parts as they were.
-/
import Verif.Spec.Places
import Verif.Lemmas.Reach
import Verif.Lemmas.Placed
import Verif.Props.C56
import Verif.Lemmas.PageHistory
import Verif.Spec.SampleFile
import Verif.Lemmas.Written

namespace OneNote

open Spec Spec.Document Spec.Objects Spec.Reach Spec.Places Placed

private theorem above_cons {s : ObjectSpace} {k k' : PlaceStep} {pl : Place} {y : ExGuid}
    (h : Above s (k' :: pl) y) : Above s (k :: k' :: pl) y := by
  cases h with
  | root h => exact .root h
  | page h1 h2 h3 => exact .page h1 h2 h3
  | title h1 h2 h3 h4 h5 h6 h7 => exact .title (by simpa using h1) h2 h3 h4 h5 h6 h7
  | @way steps way _ h1 h2 h3 =>
    exact .way (steps := k :: steps) (by rw [h1, List.cons_append]) (by simp) h3

/-- What is stored for a place stays so if nothing above it is edited. -/
private theorem stored_edited {edited : ExGuid → Prop} {s s' : ObjectSpace} (he : EditedOnly edited s s')
    {pl : Place} {id : ExGuid} (h : StoredAt s pl id) (ha : ∀ y, Above s pl y → ¬ edited y) :
    StoredAt s' pl id := by
  have to : ∀ {y o}, ¬ edited y → At s y o → At s' y o := fun hy ho => (he.objects _ hy).symm.trans ho
  induction h with
  | page h1 h2 h3 h4 h5 h6 =>
    exact .page (he.contentRoot ▸ h1) (to (ha _ (.root h1)) h2) h3 (to (ha _ (.page h1 h2 h3)) h4) h5 h6
  | title h1 h2 h3 h4 h5 h6 h7 h8 h9 =>
    exact .title (he.contentRoot ▸ h1) (to (ha _ (.root h1)) h2) h3 (to (ha _ (.page h1 h2 h3)) h4) h5
      h6 (to (ha _ (.title rfl h1 h2 h3 h4 h5 h6)) h7) h8 h9
  | pageItem h0 h1 h2 h3 ih =>
    exact .pageItem (ih fun y hy => ha y (above_cons hy))
      (to (ha _ (.way (steps := [_]) rfl (by simp) h0)) h1) h2 h3
  | titleItem h0 h1 h2 h3 ih =>
    exact .titleItem (ih fun y hy => ha y (above_cons hy))
      (to (ha _ (.way (steps := [_]) rfl (by simp) h0)) h1) h2 h3
  | groupItem h0 h1 h2 h3 ih =>
    exact .groupItem (ih fun y hy => ha y (above_cons hy))
      (to (ha _ (.way (steps := [_]) rfl (by simp) h0)) h1) h2 h3
  | childItem h0 hk h1 h2 h3 ih =>
    exact .childItem (ih fun y hy => ha y (above_cons hy)) hk
      (to (ha _ (.way (steps := [_]) rfl (by simp) h0)) h1) h2 h3
  | content h0 hk h1 h2 h3 ih =>
    exact .content (ih fun y hy => ha y (above_cons hy)) hk
      (to (ha _ (.way (steps := [_]) rfl (by simp) h0)) h1) h2 h3
  | row h0 h1 h2 h3 ih =>
    exact .row (ih fun y hy => ha y (above_cons hy))
      (to (ha _ (.way (steps := [_]) rfl (by simp) h0)) h1) h2 h3
  | cell h0 h1 h2 h3 ih =>
    exact .cell (ih fun y hy => ha y (above_cons hy))
      (to (ha _ (.way (steps := [_]) rfl (by simp) h0)) h1) h2 h3
  | element h0 h1 h2 h3 ih =>
    exact .element (ih fun y hy => ha y (above_cons hy))
      (to (ha _ (.way (steps := [_]) rfl (by simp) h0)) h1) h2 h3

private theorem alike_self {s : ObjectSpace} {pl : Place} {id : ExGuid} (h : StoredAt s pl id) :
    SameSort pl pl := by
  cases h <;> trivial

private theorem page_of (fuel : Nat) (ord : Order) (data : Bytes) (name : Text) (s : Section)
    (h : parseSectionBuffer fuel ord data name = .ok s) (store : Store)
    (hst : readStore ord data = .ok store) (cells : List (List CellId))
    (hc : PageCells store.dataRoot cells) (i j : Nat) (c : CellId)
    (hj : (cells[i]? >>= fun cs => cs[j]?) = some c) (space : ObjectSpace)
    (hsp : store.objectSpace c = some space) : ∃ p, pageAt s i j = some p ∧ PageIs space p := by
  have h : parseSectionStore fuel store name = .ok s := by
    unfold parseSectionBuffer at h
    rw [hst] at h
    by_cases hn : store.schema = sectionSchema
    · exact (if_neg (not_not_intro hn)).symm.trans h
    · cases (if_pos hn).symm.trans h
  obtain ⟨cells', hc', hl⟩ := C56_page_cells fuel store name s h
  cases PageHistory.pageCells_unique hc' hc
  obtain ⟨cs, hcs, hcj⟩ := Option.bind_eq_some_iff.1 hj
  have hi := congrArg (fun l : List Nat => l[i]?) hl
  simp only [List.getElem?_map, hcs, Option.map_some] at hi
  obtain ⟨x, hx, hlen⟩ := Option.map_eq_some_iff.1 hi.symm
  have hjl : j < x.pages.length := by
    rw [hlen]
    exact (List.getElem?_eq_some_iff.1 hcj).1
  have hp : pageAt s i j = some x.pages[j] := by
    unfold pageAt
    rw [hx]
    exact List.getElem?_eq_getElem hjl
  obtain ⟨c', space', k1, k2, k3⟩ := (C56_own_space_partial fuel store name s h cells hc i j _).1 hp
  rw [hj] at k1
  cases k1
  rw [hsp] at k2
  cases k2
  exact ⟨_, hp, k3⟩

/-! ### The property -/

/-- **Everything on a page is stored somewhere**: the parts a page shows are those that objects are
stored for, each place has one part and one object. -/
theorem C85_places (fuel : Nat) (s : ObjectSpace) (p : Page) (h : parsePage fuel s = .ok p) (pl : Place) :
    (∀ x, On p pl x → ∃ id, StoredAt s pl id) ∧ (∀ id, StoredAt s pl id → ∃ x, On p pl x) ∧
      ∀ x y, On p pl x → On p pl y → x = y := by
  have hp := page_iff.1 ⟨fuel, h⟩
  refine ⟨fun x hx => ?_, fun id hid => ?_, fun x y hx hy => ?_⟩
  · obtain ⟨_, _, id, _, hs, _⟩ := on_stored hp hx
    exact ⟨id, hs⟩
  · obtain ⟨_, _, x, _, hx, _⟩ := stored_on hp hid
    exact ⟨x, hx⟩
  · exact on_unique hx hy

/-- **The same objects show the same**: if an object, and whatever can be got to from it by following
references, is the same in two object spaces, then it shows the same on their pages, wherever on these
pages it is. -/
theorem C85_same_part (fuel fuel' : Nat) (s s' : ObjectSpace) (p p' : Page)
    (h : parsePage fuel s = .ok p) (h' : parsePage fuel' s' = .ok p') (pl pl' : Place) (id : ExGuid)
    (hs : StoredAt s pl id) (hs' : StoredAt s' pl' id) (hk : SameSort pl pl') (ha : SameFrom s s' id) :
    ∃ x, On p pl x ∧ On p' pl' x :=
  same (page_iff.1 ⟨fuel, h⟩) (page_iff.1 ⟨fuel', h'⟩) hs hs' hk ha

/-- **An edit shows where it was made**: if some objects are edited, then whatever is at a place stays as
it was, unless the object for the place, one that can be got to from it, or one above it was edited. -/
theorem C85_edit (fuel fuel' : Nat) (edited : ExGuid → Prop) (s s' : ObjectSpace) (p p' : Page)
    (h : parsePage fuel s = .ok p) (h' : parsePage fuel' s' = .ok p') (he : EditedOnly edited s s')
    (pl : Place) (id : ExGuid) (hs : StoredAt s pl id) (hd : ∀ y, From s id y → ¬ edited y)
    (ha : ∀ y, Above s pl y → ¬ edited y) (x : Part) : On p pl x ↔ On p' pl x := by
  obtain ⟨y, hy, hy'⟩ := C85_same_part fuel fuel' s s' p p' h h' pl pl id hs (stored_edited he hs ha)
    (alike_self hs) fun z hz => he.objects z (hd z hz)
  constructor
  · intro hx; cases on_unique hx hy; exact hy'
  · intro hx; cases on_unique hx hy'; exact hy

/-- **The same for section files**: let two section files have a page each, and let an object be stored on
both that is the same, with whatever can be got to from it. Then it shows the same on both pages. -/
theorem C85_section (fuel fuel' : Nat) (ord ord' : Order) (data data' : Bytes) (name name' : Text)
    (s s' : Section) (h : parseSectionBuffer fuel ord data name = .ok s)
    (h' : parseSectionBuffer fuel' ord' data' name' = .ok s') (store store' : Store)
    (hst : readStore ord data = .ok store) (hst' : readStore ord' data' = .ok store')
    (cells cells' : List (List CellId)) (hc : PageCells store.dataRoot cells)
    (hc' : PageCells store'.dataRoot cells') (i j i' j' : Nat) (c c' : CellId)
    (hj : (cells[i]? >>= fun cs => cs[j]?) = some c)
    (hj' : (cells'[i']? >>= fun cs => cs[j']?) = some c') (space space' : ObjectSpace)
    (hsp : store.objectSpace c = some space) (hsp' : store'.objectSpace c' = some space')
    (pl pl' : Place) (id : ExGuid) (hs : StoredAt space pl id) (hs' : StoredAt space' pl' id)
    (hk : SameSort pl pl') (ha : SameFrom space space' id) :
    ∃ p p' x, pageAt s i j = some p ∧ pageAt s' i' j' = some p' ∧ On p pl x ∧ On p' pl' x := by
  obtain ⟨p, hp, hpi⟩ := page_of fuel ord data name s h store hst cells hc i j c hj space hsp
  obtain ⟨p', hp', hpi'⟩ := page_of fuel' ord' data' name' s' h' store' hst' cells' hc' i' j' c' hj'
    space' hsp'
  obtain ⟨x, hx, hx'⟩ := same hpi hpi' hs hs' hk ha
  exact ⟨p, p', x, hp, hp', hx, hx'⟩

/-! ### A page with two paragraphs -/

/-- The object that is stored for an outline on the page or an item of one. -/
private def objectAt (s : ObjectSpace) : Place → Option ExGuid
  | [.page i] => do
    let k ← s.roots.get? .defaultContent >>= s.getObject
    let page ← (PageManifestNode.parse k).toOption
    let o ← s.getObject page
    let n ← (PageNode.parse o).toOption
    n.content[i]?
  | [.item i, .page j] => do
    let o ← objectAt s [.page j] >>= s.getObject
    let n ← (OutlineNode.parse o).toOption
    n.children[i]?
  | _ => none

private theorem objectAt_page {s : ObjectSpace} {i : Nat} {id : ExGuid}
    (h : objectAt s [.page i] = some id) : StoredAt s [.page i] id := by
  unfold objectAt at h
  obtain ⟨k, hk, h⟩ := Option.bind_eq_some_iff.1 h
  obtain ⟨root, hr, hk⟩ := Option.bind_eq_some_iff.1 hk
  obtain ⟨page, hm, h⟩ := Option.bind_eq_some_iff.1 h
  obtain ⟨o, ho, h⟩ := Option.bind_eq_some_iff.1 h
  obtain ⟨n, hn, h⟩ := Option.bind_eq_some_iff.1 h
  exact .page hr hk (PageManifestNode.parse_iff.1 (toOption_some hm)) ho
    (PageNode.parse_iff.1 (toOption_some hn)) h

private theorem manifest_page {s : ObjectSpace} {root page : ExGuid} {k : Object}
    (h : s.roots.get? .defaultContent = some root) (hk : At s root k) (hm : IsPageManifest k page) :
    ((s.roots.get? .defaultContent >>= s.getObject) >>= fun k => (PageManifestNode.parse k).toOption) = some page := by
  show ((s.roots.get? .defaultContent).bind s.getObject).bind _ = _
  rw [h, Option.bind_some, hk, Option.bind_some, PageManifestNode.parse_iff.2 hm]
  rfl

private theorem page_objectAt {s : ObjectSpace} {i : Nat} {id : ExGuid}
    (h : StoredAt s [.page i] id) : objectAt s [.page i] = some id := by
  cases h with
  | page hr hk hm ho hn hi =>
    show ((s.roots.get? .defaultContent).bind s.getObject).bind _ = _
    rw [hr, Option.bind_some, hk, Option.bind_some, PageManifestNode.parse_iff.2 hm]
    show (s.getObject _).bind _ = _
    rw [ho, Option.bind_some, PageNode.parse_iff.2 hn]
    exact hi

private theorem objectAt_item {s : ObjectSpace} {i j : Nat} {id : ExGuid}
    (h : objectAt s [.item i, .page j] = some id) : StoredAt s [.item i, .page j] id := by
  unfold objectAt at h
  obtain ⟨o, ho, h⟩ := Option.bind_eq_some_iff.1 h
  obtain ⟨x, hx, ho⟩ := Option.bind_eq_some_iff.1 ho
  obtain ⟨n, hn, h⟩ := Option.bind_eq_some_iff.1 h
  exact .pageItem (objectAt_page hx) ho (OutlineNode.parse_iff.1 (toOption_some hn)) h

/-- The list has the object and all references of its objects. -/
private theorem from_closed {s : ObjectSpace} {id : ExGuid} (l : List ExGuid) (hid : id ∈ l)
    (h : (s.objects.all fun e => !l.contains e.1 ||
      e.2.mapping.objects.all fun r => r.2.all fun x => l.contains x.2) = true) {x : ExGuid}
    (hx : From s id x) : x ∈ l := by
  simp only [List.all_eq_true, Bool.or_eq_true, Bool.not_eq_true', List.contains_iff_mem] at h
  induction hx with
  | self => exact hid
  | step _ h1 h2 ih =>
    obtain ⟨cid, es, h3, h4⟩ := h2
    obtain ⟨x, hx, rfl⟩ := List.mem_map.1 h4
    rcases h _ (Map.mem_of_get? h1) with h5 | h5
    · rw [← List.contains_iff_mem] at ih
      rw [h5] at ih
      cases ih
    · exact h5 _ (Map.mem_of_get? h3) _ hx

/-- A page with one outline of two paragraphs, the second with so many paragraphs below it. -/
private def objects (children : List Nat) : List SampleObject :=
  pageObjects [3001] [outlineW 3001 [3002, 3003], outlineElementW 3002 [] [] [],
    outlineElementW 3003 children [] [], outlineElementW 3004 [] [] []]

private def sample (children : List Nat) : ObjectSpace :=
  Written.spaceOf pageCell (sx 2002) (sx 2001) (objects children)

/-- The page after an edit of the second paragraph that puts another one below it. -/
private def edited : ObjectSpace :=
  match (sample [3004]).getObject (sx 3003) with
  | some o => { sample [] with objects := (sample []).objects.insert (sx 3003) o }
  | none => sample []

private theorem edited_only : EditedOnly (· = sx 3003) (sample []) edited := by
  unfold edited
  split
  · exact ⟨rfl, fun id hid => (Map.get?_insert_ne _ _ _ _ hid).symm⟩
  · exact ⟨rfl, fun _ _ => rfl⟩

private def itemAt (i : Nat) (p : Page) : Option Nat :=
  match p.contents with
  | [.outline o] => match o.items[i]? with
    | some (.element e) => some e.children.length
    | _ => none
  | _ => none

/-- Only the second paragraph is edited, it shows the edit, and the first does not. -/
example : ∃ p p', parsePage 3 (sample []) = .ok p ∧ parsePage 3 edited = .ok p' ∧
    itemAt 1 p = some 0 ∧ itemAt 1 p' = some 1 ∧ (∃ x, On p [.item 0, .page 0] x) ∧
    ∀ x, On p [.item 0, .page 0] x ↔ On p' [.item 0, .page 0] x := by
  have h1 : (parsePage 3 (sample [])).toOption.bind (itemAt 1) = some 0 := by decide +kernel
  have h2 : (parsePage 3 edited).toOption.bind (itemAt 1) = some 1 := by decide +kernel
  obtain ⟨p, hp, h1⟩ := Option.bind_eq_some_iff.1 h1
  obtain ⟨p', hp', h2⟩ := Option.bind_eq_some_iff.1 h2
  replace hp := toOption_some hp
  replace hp' := toOption_some hp'
  have hs : StoredAt (sample []) [.item 0, .page 0] (sx 3002) := objectAt_item (by decide +kernel)
  refine ⟨p, p', hp, hp', h1, h2, (C85_places 3 _ p hp _).2.1 _ hs,
    C85_edit 3 3 (· = sx 3003) _ _ p p' hp hp' edited_only _ _ hs (fun y hy => ?_) fun y hy => ?_⟩
  · have := from_closed ([3002, 3000].map sx) (by decide +kernel) (by decide +kernel) hy
    rintro rfl
    exact absurd this (by decide +kernel)
  · rintro rfl
    cases hy with
    | root h => exact absurd h (by decide +kernel)
    | page h k m => exact absurd (manifest_page h k m) (by decide +kernel)
    | title h => cases h
    | @way steps _ _ e hn h =>
      match steps, hn, e with
      | [_], _, e =>
        cases e
        exact absurd (page_objectAt h) (by decide +kernel)
      | [_, _], _, e => cases e; cases h

#print axioms C85_places
#print axioms C85_same_part
#print axioms C85_edit
#print axioms C85_section

end OneNote
