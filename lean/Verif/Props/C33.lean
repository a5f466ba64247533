/-
C33: Notebook entries come in table-of-contents order.
-/
import Verif.Lemmas.Toc
import Verif.Props.C35
import Verif.Spec.SampleFile
import Verif.Spec.SampleToc

namespace OneNote

open Spec Spec.Toc

/-- The names returned are the names of the entries in the tree below the content root, sorted by
ordering id with ties in traversal order, without direct repeats. -/
theorem C33_order (fuel : Nat) (space : ObjectSpace) (names : List Text) (color : Option Color)
    (h : parseToc fuel space = .ok (names, color)) :
    ∃ root entries sorted, space.roots.get? .defaultContent = some root ∧ TocTree space root entries ∧
      SortedByKey entries sorted ∧ WithoutRepeats (sorted.map Prod.snd) names := by
  unfold parseToc at h
  obtain ⟨root, hr, h⟩ := Res.bind_ok h
  obtain ⟨e, he, h⟩ := Res.bind_ok h
  cases h
  have hr : space.roots.get? .defaultContent = some root := by
    unfold orErr at hr
    split at hr
    · cases hr; assumption
    · cases hr
  exact ⟨root, e.entries, sortByKey e.entries, hr, parseTocEntry_tree space fuel root e he,
    sortByKey_spec _, tocNames_spec _⟩

/-- None is invented and none lost: a name is listed exactly when an entry has it. The list is the
sorted list with some occurrences left out. -/
theorem C33_same_names (entries sorted : List (Nat × Text)) (names : List Text)
    (hs : SortedByKey entries sorted) (hn : WithoutRepeats (sorted.map Prod.snd) names) :
    (∀ name, name ∈ names ↔ ∃ k, (k, name) ∈ entries) ∧ names.Sublist (sorted.map Prod.snd) := by
  refine ⟨fun name => ?_, WithoutRepeats.sublist hn⟩
  rw [WithoutRepeats.mem hn, List.mem_map]
  constructor
  · rintro ⟨⟨k, _⟩, hm, rfl⟩
    exact ⟨k, hs.same.mem_iff.1 hm⟩
  · rintro ⟨k, hm⟩
    exact ⟨(k, name), hs.same.mem_iff.2 hm, rfl⟩

/-- Conversely every finite tree is read, and the list that the specification asks for is the one
returned: the specification leaves no choice. -/
theorem C33_complete (space : ObjectSpace) (root : ExGuid) (entries sorted : List (Nat × Text))
    (names : List Text) (hr : space.roots.get? .defaultContent = some root) (ht : TocTree space root entries)
    (hs : SortedByKey entries sorted) (hn : WithoutRepeats (sorted.map Prod.snd) names) :
    ∃ fuel color, ∀ more, parseToc (fuel + more) space = .ok (names, color) := by
  obtain ⟨n, color, h⟩ := parseTocEntry_complete space ht
  refine ⟨n, color, fun more => ?_⟩
  unfold parseToc ObjectSpace.contentRoot
  rw [hr]
  show (parseTocEntry space (n + more) root >>= _) = _
  rw [h (n + more) (by omega)]
  have e : sorted = sortByKey entries := SortedByKey.unique hs (sortByKey_spec entries)
  subst e
  rw [WithoutRepeats.unique hn (tocNames_spec entries)]
  rfl

/-- Without equal names nothing is dropped: the names are all the names, sorted by ordering id. -/
theorem C33_all_listed (fuel : Nat) (space : ObjectSpace) (names : List Text)
    (color : Option Color) (h : parseToc fuel space = .ok (names, color)) :
    ∃ root entries, space.roots.get? .defaultContent = some root ∧ TocTree space root entries ∧
      ((entries.map Prod.snd).Nodup → ∃ sorted, SortedByKey entries sorted ∧
        names = sorted.map Prod.snd) := by
  obtain ⟨root, entries, sorted, hr, ht, hs, hn⟩ := C33_order fuel space names color h
  refine ⟨root, entries, hr, ht, fun hd => ⟨sorted, hs, ?_⟩⟩
  have hd : (sorted.map Prod.snd).Nodup := ((hs.same.map Prod.snd).nodup_iff).2 hd
  clear h
  generalize sorted.map Prod.snd = l at hn hd
  induction hn with
  | none => rfl
  | one a => rfl
  | again _ _ => simp at hd
  | other _ _ ih => rw [ih (List.nodup_cons.1 hd).2]

/-- **The entries of a notebook come in this order**: one for each of these names whose path exists and
is not the recycle bin. -/
theorem C33_notebook (env : Env) (n : Nat) (path : Path) (nb : Notebook)
    (h : parseNotebook env (n + 1) path = .ok nb) :
    ∃ data store base root entries sorted names paths,
      env.fs.read path = some data ∧ readStore env.ord data = .ok store ∧
      Path.parent path = some base ∧ store.dataRoot.roots.get? .defaultContent = some root ∧
      TocTree store.dataRoot root entries ∧ SortedByKey entries sorted ∧
      WithoutRepeats (sorted.map Prod.snd) names ∧
      Each (fun name p => resolveEntryPath env.fs env.sanitise base name = .ok p) names paths ∧
      Each (EntryAt env.fs (fun p s => parseSectionFile env p = .ok s)
        (fun p nb => parseNotebook env n p = .ok nb)) (Kept env.fs paths) nb.entries := by
  obtain ⟨base, names, color, paths, ⟨⟨data, store, hd, hs, -, ht⟩, hb⟩, hp, -, he⟩ :=
    (C35_entries env n path nb).1 h
  obtain ⟨root, entries, sorted, hr, htree, hsort, hw⟩ := C33_order _ _ _ _ ht
  exact ⟨data, store, base, root, entries, sorted, names, paths, hd, hs, hb, hr, htree, hsort, hw, hp,
    he⟩

/-- Five entries in two folders, with a tie and a repeat. -/
private def sample : ObjectSpace :=
  sampleToc (7, ['c']) [(3, ['b']), (9, ['d']), (3, ['a']), (3, ['a'])]

example : parseToc 3 sample = .ok ([['b'], ['a'], ['c'], ['d']], none) := by decide +kernel

/-- Three section files; the table of contents lists them with the ordering ids 5, 2 and 3. -/
private def disk : FileSystem where
  pathExists _ := true
  isFile _ := true
  canonicalize := some
  readDir _ := none
  read p := some (if p = [.rootDir, .normal ['t']] then tocFile [(5, ['x']), (2, ['y']), (3, ['z'])]
    else emptySectionFile none)

example : (parseNotebook ⟨disk, fun x => x, Order.id, 3⟩ 3 [.rootDir, .normal ['t']]).toOption.map
    (fun nb => nb.entries.map fun | .section s => s.displayName | .sectionGroup g => g.displayName) =
      some [['y'], ['z'], ['x']] := by
  decide +kernel

#print axioms C33_order
#print axioms C33_same_names
#print axioms C33_complete
#print axioms C33_all_listed
#print axioms C33_notebook

end OneNote
