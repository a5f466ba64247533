/-
C59: Objects that nothing refers to do not matter.
-/
import Verif.Spec.Reach
import Verif.Spec.SampleFile
import Verif.Lemmas.Reach
import Verif.Lemmas.Shown
import Verif.Lemmas.Written
import Verif.Lemmas.Terminates
import Verif.Props.C43

namespace OneNote

open Spec Spec.Document Spec.Reach Spec.Shown

/-- A page, or the error it is rejected with, depends on the objects that can be got to from the roots
of its space and on no others. -/
theorem C59_page {s s' : ObjectSpace} (h : SameReachable s s') (fuel : Nat) :
    parsePage fuel s = parsePage fuel s' := page_reach h fuel

/-- The same for a section. -/
theorem C59_section {s s' : Store} (h : SameReachableStore s s') (fuel : Nat) (name : Text) :
    parseSectionStore fuel s name = parseSectionStore fuel s' name := section_reach h fuel name

/-- The same for a table of contents. -/
theorem C59_toc {s s' : ObjectSpace} (h : SameReachable s s') (fuel : Nat) :
    parseToc fuel s = parseToc fuel s' := toc_reach h fuel

/-- The same for two files. -/
theorem C59_file {data data' : Bytes} {ord ord' : Order} {s s' : Store}
    (hs : readStore ord data = .ok s) (hs' : readStore ord' data' = .ok s')
    (hg : s.schema = s'.schema) (h : SameReachableStore s s') (fuel : Nat) (name : Text) :
    parseSectionBuffer fuel ord data name = parseSectionBuffer fuel ord' data' name := by
  unfold parseSectionBuffer
  rw [hs, hs']
  show (if s.schema ≠ sectionSchema then _ else _) = if s'.schema ≠ sectionSchema then _ else _
  rw [hg, C59_section h]

/-- An object that cannot be got to can be added, or be replaced by any other. -/
theorem C59_added {s : ObjectSpace} {id : ExGuid} (h : ¬ Reachable s id) (o : Object) (fuel : Nat) :
    parsePage fuel { s with objects := s.objects.insert id o } = parsePage fuel s := by
  symm
  apply C59_page
  refine ⟨fun _ => rfl, fun x hx => ?_⟩
  show s.objects.get? x = (s.objects.insert id o).get? x
  rw [Map.get?_insert_ne]
  rintro rfl
  exact h hx

private theorem get_filter (m : Objects) (keep : ExGuid → Bool) (id : ExGuid) :
    Map.get? (m.filter fun e => keep e.1) id = if keep id then m.get? id else none := by
  induction m with
  | nil => simp [Map.get?]
  | cons e m ih =>
    rw [List.filter_cons]
    by_cases he : e.1 = id
    · subst he
      by_cases hk : keep e.1
      · rw [if_pos hk, if_pos hk]
        simp [Map.get?]
      · rw [if_neg hk, if_neg hk, ih, if_neg hk]
    · by_cases hk : keep e.1
      · rw [if_pos hk]
        simp only [Map.get?, if_neg he, ih]
      · rw [if_neg hk, ih]
        simp only [Map.get?, if_neg he]

/-- Objects that cannot be got to can be removed, as many as one likes. -/
theorem C59_removed {s : ObjectSpace} {keep : ExGuid → Bool} (h : ∀ id, Reachable s id → keep id = true)
    (fuel : Nat) :
    parsePage fuel { s with objects := s.objects.filter fun e => keep e.1 } = parsePage fuel s := by
  symm
  apply C59_page
  refine ⟨fun _ => rfl, fun x hx => ?_⟩
  show s.objects.get? x = Map.get? (s.objects.filter fun e => keep e.1) x
  rw [get_filter, if_pos (h x hx)]

/-! ### What is shown can be got to -/

open Classical in
/-- Whether the object can be got to. -/
private noncomputable def got (s : ObjectSpace) (id : ExGuid) : Bool := decide (Reachable s id)

private theorem got_iff {s : ObjectSpace} {id : ExGuid} : got s id = true ↔ Reachable s id := by
  unfold got
  exact @decide_eq_true_iff _ (Classical.propDecidable _)

/-- The space without the objects that cannot be got to. -/
private noncomputable def pruned (s : ObjectSpace) : ObjectSpace :=
  { s with objects := s.objects.filter fun e => got s e.1 }

private theorem pruned_page {s : ObjectSpace} {p : Page} (h : PageIs s p) : PageIs (pruned s) p := by
  obtain ⟨n, hn⟩ := page_iff.2 h
  refine page_iff.1 ⟨n, ?_⟩
  rw [← hn]
  exact C59_removed (s := s) (keep := got s) (fun id hi => got_iff.2 hi) n

private theorem pruned_at {s : ObjectSpace} {id : ExGuid} {o : Object} (h : At (pruned s) id o) :
    Reachable s id := by
  have h : Map.get? (s.objects.filter fun e => got s e.1) id = some o := h
  rw [get_filter] at h
  split at h
  · rename_i hr
    exact got_iff.1 hr
  · cases h

private theorem pruned_agree (s : ObjectSpace) : AgreeOn (Reachable s) s (pruned s) := by
  refine ⟨fun id hi => ?_, fun _ _ _ hi ho hr => .step hi ho hr⟩
  show s.objects.get? id = Map.get? (s.objects.filter fun e => got s e.1) id
  rw [get_filter, if_pos (got_iff.2 hi)]

/-- Every content of an outline that a page shows is an object that can be got to from the roots. -/
theorem C59_content {s : ObjectSpace} {p : Page} {fuel : Nat} (h : parsePage fuel s = .ok p)
    {c : Content} (hc : ContentOn c p) : ∃ id, Reachable s id ∧ ContentIs s id c := by
  obtain ⟨id, hi⟩ := content_object (pruned_page (page_iff.1 ⟨fuel, h⟩)) hc
  obtain ⟨n, hn⟩ := complete_content (complete_rec _ (sizeOf c)) (Nat.le_refl _) hi
  have hr : Reachable s id := by
    unfold parseContent ObjectSpace.propertySetId at hn
    obtain ⟨k, hk, -⟩ := Res.bind_ok hn
    obtain ⟨o, ho, -⟩ := Res.bind_ok hk
    exact pruned_at (at_iff.1 ho)
  refine ⟨id, hr, ?_⟩
  rw [← content_reach (pruned_agree s) (rec_reach (pruned_agree s) n) hr] at hn
  exact sound_content (sound_rec s n) hn

/-- So is everything that stands directly on the page. -/
theorem C59_page_content {s : ObjectSpace} {p : Page} {fuel : Nat} (h : parsePage fuel s = .ok p)
    {c : PageContent} (hc : c ∈ p.contents) : ∃ id, Reachable s id ∧ PageContentIs s id c := by
  obtain ⟨id, hi⟩ := pageContent_object (pruned_page (page_iff.1 ⟨fuel, h⟩)) hc
  obtain ⟨n, hn⟩ := pageContent_iff.2 hi
  have hr : Reachable s id := by
    unfold parsePageContent ObjectSpace.propertySetId at hn
    obtain ⟨k, hk, -⟩ := Res.bind_ok hn
    obtain ⟨o, ho, -⟩ := Res.bind_ok hk
    exact pruned_at (at_iff.1 ho)
  refine ⟨id, hr, pageContent_iff.1 ⟨n, ?_⟩⟩
  rwa [pageContent_reach (pruned_agree s) n hr]

/-! ### A page with a deleted paragraph -/

/-- The list has the roots and all references of its objects. -/
private def closed (s : ObjectSpace) (l : List ExGuid) : Bool :=
  s.roots.all (fun e => l.contains e.2) &&
  s.objects.all fun e => !l.contains e.1 ||
    e.2.mapping.objects.all fun r => r.2.all fun x => l.contains x.2

private theorem closed_reachable {s : ObjectSpace} {l : List ExGuid} (h : closed s l = true)
    {id : ExGuid} (hr : Reachable s id) : id ∈ l := by
  simp only [closed, Bool.and_eq_true, List.all_eq_true, Bool.or_eq_true, Bool.not_eq_true',
    List.contains_iff_mem] at h
  induction hr with
  | root h1 => exact h.1 _ (Map.mem_of_get? h1)
  | step _ h1 h2 ih =>
    obtain ⟨cid, es, h3, h4⟩ := h2
    obtain ⟨x, hx, rfl⟩ := List.mem_map.1 h4
    rcases h.2 _ (Map.mem_of_get? h1) with h5 | h5
    · rw [← List.contains_iff_mem] at ih
      rw [h5] at ih
      cases ih
    · exact h5 _ (Map.mem_of_get? h3) _ hx

/-- The page has an outline with one of two paragraphs. -/
private def objects : List SampleObject :=
  pageObjects [3001] [outlineW 3001 [3002], outlineElementW 3002 [] [] [], outlineElementW 3003 [] [] []]

private def sample : ObjectSpace := Written.spaceOf pageCell (sx 2002) (sx 2001) objects

private theorem sample_closed : closed sample ([2001, 2002, 2003, 3001, 3002, 3000].map sx) = true := by
  decide +kernel

private theorem deleted : ¬ Reachable sample (sx 3003) :=
  fun h => absurd (closed_reachable sample_closed h) (by decide +kernel)

/-- The second paragraph is there, cannot be got to, and can be replaced by an object that is not even
a paragraph; the first can be got to. -/
example : (sample.getObject (sx 3003)).isSome = true ∧ ¬ Reachable sample (sx 3003) ∧
    Reachable sample (sx 3002) ∧
    (∀ o fuel, parsePage fuel { sample with objects := sample.objects.insert (sx 3003) o } =
      parsePage fuel sample) := by
  have step (a b : Nat) (ha : Reachable sample (sx a))
      (h : ((sample.getObject (sx a)).bind fun o =>
        (o.props.objectIds[0]?).bind (o.mapping.getObject 0)) = some (sx b)) :
      Reachable sample (sx b) := by
    obtain ⟨o, ho, hb⟩ := Option.bind_eq_some_iff.1 h
    obtain ⟨c, _, hc⟩ := Option.bind_eq_some_iff.1 hb
    exact .step ha ho (lookup_refers hc)
  refine ⟨by decide +kernel, deleted, ?_, fun o => C59_added deleted o⟩
  have r : Reachable sample (sx 2002) := .root (role := .defaultContent) (by decide +kernel)
  exact step 3001 3002 (step 2003 3001 (step 2002 2003 r (by decide +kernel)) (by decide +kernel))
    (by decide +kernel)

/-- Stores that differ in the deleted paragraph. -/
example (store : Store) (o : Object) (h : store.objectSpaces = [(pageCell, sample)]) :
    SameReachableStore store { store with
      objectSpaces := [(pageCell, { sample with objects := sample.objects.insert (sx 3003) o })] } := by
  refine ⟨⟨fun _ => rfl, fun _ _ => rfl⟩, fun c => ?_⟩
  rw [h]
  by_cases hc : pageCell = c
  · simp only [Map.get?, if_pos hc]
    refine ⟨fun _ => rfl, fun x hx => ?_⟩
    show sample.objects.get? x = (sample.objects.insert (sx 3003) o).get? x
    rw [Map.get?_insert_ne]
    rintro rfl
    exact deleted hx
  · simp only [Map.get?, if_neg hc]
    trivial

/-- The page of the file with the deleted paragraph shows the other one. -/
example : (parseSectionBuffer 2 Order.id (sectionFile none [3001] (objects.drop 3)) []).toOption.map
    (fun s => s.pageSeries.flatMap fun x => x.pages.flatMap fun p => p.contents.map fun
      | .outline o => o.items.length
      | _ => 0) = some [1] := by decide +kernel

#print axioms C59_page
#print axioms C59_section
#print axioms C59_toc
#print axioms C59_file
#print axioms C59_added
#print axioms C59_removed
#print axioms C59_content
#print axioms C59_page_content

end OneNote
