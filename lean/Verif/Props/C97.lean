/-
C97: Entries of a notebook can be moved, renamed, added and taken away without a change to the others.
-/
import Verif.Lemmas.Rearranged
import Verif.Lemmas.Terminates
import Verif.Spec.SampleFile

namespace OneNote

open Spec

/-- What the entry of this name shows. -/
private def shownAt (env : Env) (n : Nat) (base : Path) (x : Text) : SectionEntry :=
  match parseEntry (parseNotebook env n) env (base ++ [.normal x]) with
  | .ok e => e
  | .error _ => .sectionGroup ⟨[], []⟩

private theorem shownAt_ok {env : Env} {n : Nat} {base : Path} {x : Text} {e : SectionEntry}
    (h : parseEntry (parseNotebook env n) env (base ++ [.normal x]) = .ok e) :
    shownAt env n base x = e := by
  unfold shownAt
  rw [h]

/-- **A rearranged notebook.** The notebook `path` can be read. The table of contents `path'`, on the same
disk or on another one, has any names, each of which belongs to a copy of an entry of the first notebook or
to an entry that can be read. Then the second notebook can be read. Both have one entry for each visible
name, in the order of their tables of contents. The entry of a copy is that of the original but for the
name it is shown with, and it is exactly that of the original if it has the same file name. -/
theorem C97_rearranged (env env' : Env) (hs : env.sanitise = env'.sanitise) (ho : env.ord = env'.ord)
    (hf : env.fuel = env'.fuel) (n : Nat) (path path' base base' : Path) (names names' : List Text)
    (color color' : Option Color) (nb : Notebook)
    (hc : Contents env path base names color) (hc' : Contents env' path' base' names' color')
    (hn : ∀ x ∈ names, FileName x) (hn' : ∀ y ∈ names', Usable env'.fs env'.sanitise base' y)
    (hv : ∀ y ∈ names', Visible env'.fs base' y = true →
      (∃ x ∈ names, Visible env.fs base x = true ∧
        SameEntry env.fs env'.fs (base ++ [.normal x]) (base' ++ [.normal y])) ∨
      ∃ e, EntryAt env'.fs (fun p s => parseSectionFile env' p = .ok s)
        (fun p nb => parseNotebook env' n p = .ok nb) (base' ++ [.normal y]) e)
    (h : parseNotebook env (n + 1) path = .ok nb) :
    ∃ shown shown' : Text → SectionEntry,
      nb = ⟨(names.filter (Visible env.fs base)).map shown, color⟩ ∧
      parseNotebook env' (n + 1) path' =
        .ok ⟨(names'.filter (Visible env'.fs base')).map shown', color'⟩ ∧
      (∀ y ∈ names', Visible env'.fs base' y = true → ∀ x ∈ names, Visible env.fs base x = true →
        SameEntry env.fs env'.fs (base ++ [.normal x]) (base' ++ [.normal y]) →
        Retitled y (shown x) (shown' y) ∧ (x = y → shown' y = shown x)) ∧
      ∀ y e, EntryAt env'.fs (fun p s => parseSectionFile env' p = .ok s)
        (fun p nb => parseNotebook env' n p = .ok nb) (base' ++ [.normal y]) e → shown' y = e := by
  obtain ⟨base0, names0, color0, paths, hc0, hp, hcol, he⟩ := (C35_entries env n path nb).1 h
  have hcc : base0 = base ∧ names0 = names ∧ color0 = color := by
    obtain ⟨⟨d, s, h1, h2, -, h3⟩, hb⟩ := hc0
    obtain ⟨⟨d', s', h1', h2', -, h3'⟩, hb'⟩ := hc
    cases h1.symm.trans h1'
    cases h2.symm.trans h2'
    cases h3.symm.trans h3'
    exact ⟨Option.some.inj (hb.symm.trans hb'), rfl, rfl⟩
  obtain ⟨rfl, rfl, rfl⟩ := hcc
  rw [Rearranged.paths_plain hn hp, Rearranged.kept_names, Rearranged.each_map_left] at he
  have hread : ∀ x ∈ names0, Visible env.fs base0 x = true →
      ∃ e, parseEntry (parseNotebook env n) env (base0 ++ [.normal x]) = .ok e := by
    intro x hx hvx
    obtain ⟨e, -, he⟩ := each_mem' he (List.mem_filter.2 ⟨hx, hvx⟩)
    exact ⟨e, (parseEntry_ok ..).2 he⟩
  have hread' : ∀ y ∈ names'.filter (Visible env'.fs base'),
      ∃ e, parseEntry (parseNotebook env' n) env' (base' ++ [.normal y]) = .ok e := by
    intro y hy
    obtain ⟨hy, hvy⟩ := List.mem_filter.1 hy
    rcases hv y hy hvy with ⟨x, hx, hvx, hsame⟩ | ⟨e, he⟩
    · obtain ⟨e, he⟩ := hread x hx hvx
      obtain ⟨e', he', -⟩ := Rearranged.entry_retitled hs ho hf hsame he
      exact ⟨e', he'⟩
    · exact ⟨e, (parseEntry_ok ..).2 he⟩
  refine ⟨shownAt env n base0, shownAt env' n base', ?_, ?_, ?_, ?_⟩
  · obtain ⟨es, col⟩ := nb
    subst hcol
    congr 1
    clear hread hread' hv hp h hc0 hc
    simp only at he
    generalize names0.filter (Visible env.fs base0) = l at he
    induction he with
    | nil => rfl
    | cons h1 _ ih => rw [List.map_cons, ← ih, shownAt_ok ((parseEntry_ok ..).2 h1)]
  · refine (C35_entries env' n path' _).2 ⟨base', names', color', _, hc',
      mapM_each.1 (Rearranged.resolve_usable hn'), rfl, ?_⟩
    rw [Rearranged.kept_names, Rearranged.each_map_left]
    simp only
    generalize names'.filter (Visible env'.fs base') = l at hread'
    induction l with
    | nil => exact .nil
    | cons y l ih =>
      obtain ⟨e, he⟩ := hread' y List.mem_cons_self
      refine .cons ?_ (ih fun z hz => hread' z (.tail _ hz))
      rw [shownAt_ok he]
      exact (parseEntry_ok ..).1 he
  · intro y hy hvy x hx hvx hsame
    obtain ⟨e, he⟩ := hread x hx hvx
    obtain ⟨e', he', hr, heq⟩ := Rearranged.entry_retitled hs ho hf hsame he
    rw [shownAt_ok he, shownAt_ok he']
    exact ⟨hr, heq⟩
  · intro y e he
    exact shownAt_ok ((parseEntry_ok ..).2 he)

/-! ### A notebook with two sections and a group -/

namespace C97

private def dir : Path := [.rootDir, .normal ['w']]

private def tocX : Text := "x.onetoc2".toList

/-- The names after those of the directory. -/
private def inside (p : Path) : List Text := (p.drop 2).filterMap fun | .normal x => some x | _ => none

/-- The group `g` has the section `r`. Everything else is a section or the table of contents `t`. -/
private def disk (g : Text) (toc : Bytes) : FileSystem where
  pathExists p := match inside p with
    | x :: rest => if x = g then decide (rest ∈ [[], [tocX], [['r']]]) else decide (rest = [])
    | [] => true
  isFile p := match inside p with
    | x :: rest => if x = g then decide (rest ∈ [[tocX], [['r']]]) else decide (rest = [])
    | [] => false
  canonicalize := some
  readDir p := match inside p with
    | x :: rest => if x = g ∧ rest = [] then some [some ['r'], some tocX] else none
    | [] => none
  read p := match inside p with
    | x :: rest =>
      if x = g then if rest = [tocX] then some (tocFile [(1, ['r'])]) else some (emptySectionFile none)
      else if x = ['t'] then some toc else some (emptySectionFile none)
    | [] => none

/-- The sections `a` and `b` and the group `g`. -/
private def before : Env := ⟨disk ['g'] (tocFile [(1, ['a']), (2, ['b']), (3, ['g'])]), id, Order.id, 3⟩

/-- The group has been renamed to `h` and moved to the front, the section `b` is gone, there is a new
section `c`, and `a` has been renamed to `d`. -/
private def after : Env := ⟨disk ['h'] (tocFile [(1, ['h']), (2, ['c']), (3, ['d'])]), id, Order.id, 3⟩

private theorem inside_names (x : Text) (names : List Text) :
    inside (dir ++ [.normal x] ++ names.map .normal) = x :: names := by
  show x :: (names.map Component.normal).filterMap _ = x :: names
  congr 1
  induction names with
  | nil => rfl
  | cons n ns ih => rw [List.map_cons, List.filterMap_cons]; exact congrArg (n :: ·) ih

private theorem group_copied (g h : Text) (toc toc' : Bytes) :
    Copied (disk g toc) (disk h toc') (dir ++ [.normal g]) (dir ++ [.normal h]) (dir ++ [.normal g])
      (dir ++ [.normal h]) := by
  refine ⟨rfl, rfl, fun names rest _ => ?_, fun names _ => ?_, fun names _ => ?_, fun names _ => ?_,
    fun names hn => ?_⟩
  · show some _ = some _ ↔ some _ = some _
    rw [Option.some.injEq, Option.some.injEq, List.append_cancel_left_eq, List.append_cancel_left_eq]
  · simp only [disk, inside_names, if_true]
  · simp only [disk, inside_names, if_true]
  · simp only [disk, inside_names, if_true]
  · simp only [disk, inside_names, hn, and_false, if_false]
    trivial

private theorem group_order (g h : Text) (toc toc' : Bytes) :
    SameOrder (disk g toc) (disk h toc') (dir ++ [.normal g]) (dir ++ [.normal h]) := by
  intro names hn
  simp only [disk, inside_names, hn, and_false, if_false]

private theorem group_same : SameEntry before.fs after.fs (dir ++ [.normal ['g']]) (dir ++ [.normal ['h']]) :=
  .directory _ _ (by decide) (by decide) (by decide) (group_copied _ _ _ _) (group_order _ _ _ _)

private theorem contents {env : Env} {names : List Text}
    (h : ((env.fs.read (dir ++ [.normal ['t']])).bind fun data =>
      ((readStore env.ord data).toOption.bind fun store =>
        if store.schema = tocSchema then (parseToc env.fuel store.dataRoot).toOption else none)) =
      some (names, none)) : Contents env (dir ++ [.normal ['t']]) dir names none := by
  obtain ⟨data, hd, h⟩ := Option.bind_eq_some_iff.1 h
  obtain ⟨store, hs, h⟩ := Option.bind_eq_some_iff.1 h
  split at h
  · rename_i hsch
    exact ⟨⟨data, store, hd, toOption_some hs, hsch, toOption_some h⟩, rfl⟩
  · cases h

/-- The names that are shown, of sections and of groups with the names in them. -/
private def titles (nb : Notebook) : List (Text × List Text) :=
  nb.entries.map fun
    | .section s => (s.displayName, [])
    | .sectionGroup g => (g.displayName, g.entries.map fun
      | .section s => s.displayName
      | .sectionGroup g => g.displayName)

/-- The hypotheses of the theorem hold of the two notebooks, and this is what they show. -/
example : ∃ nb nb' : Notebook,
    Contents before (dir ++ [.normal ['t']]) dir [['a'], ['b'], ['g']] none ∧
    Contents after (dir ++ [.normal ['t']]) dir [['h'], ['c'], ['d']] none ∧
    (∀ x ∈ [['a'], ['b'], ['g']], FileName x) ∧
    (∀ y ∈ [['h'], ['c'], ['d']], Usable after.fs after.sanitise dir y) ∧
    SameEntry before.fs after.fs (dir ++ [.normal ['g']]) (dir ++ [.normal ['h']]) ∧
    SameEntry before.fs after.fs (dir ++ [.normal ['a']]) (dir ++ [.normal ['d']]) ∧
    (∃ e, EntryAt after.fs (fun p s => parseSectionFile after p = .ok s)
      (fun p nb => parseNotebook after 2 p = .ok nb) (dir ++ [.normal ['c']]) e) ∧
    parseNotebook before 3 (dir ++ [.normal ['t']]) = .ok nb ∧
    parseNotebook after 3 (dir ++ [.normal ['t']]) = .ok nb' ∧
    titles nb = [(['a'], []), (['b'], []), (['g'], [['r']])] ∧
    titles nb' = [(['h'], [['r']]), (['c'], []), (['d'], [])] := by
  have h : (parseNotebook before 3 (dir ++ [.normal ['t']])).toOption.map titles =
      some [(['a'], []), (['b'], []), (['g'], [['r']])] := by decide +kernel
  have h' : (parseNotebook after 3 (dir ++ [.normal ['t']])).toOption.map titles =
      some [(['h'], [['r']]), (['c'], []), (['d'], [])] := by decide +kernel
  have hsec : (parseSectionFile after (dir ++ [.normal ['c']])).toOption.map (·.displayName) =
      some ['c'] := by decide +kernel
  obtain ⟨nb, e, ht⟩ := Option.map_eq_some_iff.1 h
  obtain ⟨nb', e', ht'⟩ := Option.map_eq_some_iff.1 h'
  obtain ⟨s, es, -⟩ := Option.map_eq_some_iff.1 hsec
  refine ⟨nb, nb', contents (by decide +kernel), contents (by decide +kernel), ?_, ?_, group_same,
    .file (by decide) (by decide) ?_, ⟨.section s, .file s (by decide) (toOption_some es)⟩,
    toOption_some e, toOption_some e', ht, ht'⟩
  · unfold FileName
    decide
  · intro y hy
    have hfn : FileName y := by
      have : ∀ y ∈ [['h'], ['c'], ['d']], FileName y := by
        unfold FileName
        decide
      exact this y hy
    exact ⟨hfn, rfl, fun _ => ⟨dir, dir ++ [.normal y], [.normal y], rfl, rfl, rfl⟩⟩
  · show some _ = some _
    rfl

end C97

#print axioms C97_rearranged

end OneNote
