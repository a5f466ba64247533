/-
C35: Notebook entries are parsed one for one.
-/
import Verif.Lemmas.Entries
import Verif.Spec.SampleFile

namespace OneNote

open Spec

/-- After the table of contents has been read, the notebook is the resolution of all names, and then
the parsing of the kept paths. -/
private theorem parseNotebook_contents {env : Env} {n : Nat} {path base : Path} {names : List Text}
    {color : Option Color} (h : Contents env path base names color) :
    parseNotebook env (n + 1) path =
      (names.mapM (resolveEntryPath env.fs env.sanitise base) >>= fun paths =>
        (Kept env.fs paths).mapM (parseEntry (parseNotebook env n) env) >>= fun entries =>
          pure { entries, color }) := by
  obtain ⟨⟨data, store, hd, hs, hsch, ht⟩, hp⟩ := h
  unfold parseNotebook
  rw [hd]
  show (readStore env.ord data >>= _) = _
  rw [hs]
  show (if store.schema ≠ tocSchema then _ else _) = _
  rw [if_neg (by simpa using hsch), hp]
  show (parseToc env.fuel store.dataRoot >>= _) = _
  rw [ht]
  show (names.mapM (resolveEntryPath env.fs env.sanitise base) >>= _) = _
  refine bind_congr' fun paths _ => ?_
  rw [← kept_eq]

/-- A notebook has one entry for each existing path other than the recycle bin, in order: the section
in the file, or the section group in the directory. -/
theorem C35_entries (env : Env) (n : Nat) (path : Path) (nb : Notebook) :
    parseNotebook env (n + 1) path = .ok nb ↔
      ∃ base names color paths, Contents env path base names color ∧
        Each (fun name p => resolveEntryPath env.fs env.sanitise base name = .ok p) names paths ∧
        nb.color = color ∧
        Each (EntryAt env.fs (fun p s => parseSectionFile env p = .ok s)
          (fun p nb => parseNotebook env n p = .ok nb)) (Kept env.fs paths) nb.entries := by
  constructor
  · intro h
    have h0 := h
    unfold parseNotebook at h
    obtain ⟨data, hd, h⟩ := Res.bind_ok h
    obtain ⟨store, hs, h⟩ := Res.bind_ok h
    split at h
    · cases h
    · rename_i hsch
      obtain ⟨base, hb, h⟩ := Res.bind_ok h
      obtain ⟨⟨names, color⟩, ht, h⟩ := Res.bind_ok h
      have hc : Contents env path base names color :=
        ⟨⟨data, store, orErr_some hd, hs, Classical.not_not.1 hsch, ht⟩, orErr_some hb⟩
      rw [parseNotebook_contents hc] at h0
      obtain ⟨paths, hp, h0⟩ := Res.bind_ok h0
      obtain ⟨entries, he, h0⟩ := Res.bind_ok h0
      cases h0
      exact ⟨base, names, color, paths, hc, mapM_each.1 hp, rfl,
        each_mono (mapM_each.1 he) fun p e _ h => (parseEntry_ok _ env p e).1 h⟩
  · rintro ⟨base, names, color, paths, hc, hp, hcol, he⟩
    rw [parseNotebook_contents hc, mapM_each.2 hp]
    show ((Kept env.fs paths).mapM (parseEntry (parseNotebook env n) env) >>= _) = _
    rw [mapM_each.2 (each_mono he fun p e _ h => (parseEntry_ok _ env p e).2 h)]
    subst hcol
    rfl

/-- The first path that is not an entry fails the notebook with its own error. -/
theorem C35_first_failure (env : Env) (n : Nat) (path base : Path) (names : List Text)
    (color : Option Color) (paths : List Path) (hc : Contents env path base names color)
    (hp : Each (fun name p => resolveEntryPath env.fs env.sanitise base name = .ok p) names paths)
    (e : Err) :
    parseNotebook env (n + 1) path = .error e ↔
      ∃ before p after entries, Kept env.fs paths = before ++ p :: after ∧
        Each (EntryAt env.fs (fun p s => parseSectionFile env p = .ok s)
          (fun p nb => parseNotebook env n p = .ok nb)) before entries ∧
        EntryFails env.fs (fun p e => parseSectionFile env p = .error e)
          (fun p e => parseNotebook env n p = .error e) p e := by
  have hlast : ∀ p ∈ Kept env.fs paths, ∃ name, p.getLast? = some (.normal name) := by
    intro p hpm
    obtain ⟨name, _, hr⟩ := each_mem hp (List.mem_filter.1 hpm).1
    obtain ⟨⟨ns, hne, _, rfl⟩, _⟩ := resolveEntryPath_ok hr
    refine ⟨ns.getLast hne, ?_⟩
    rw [List.getLast?_append, List.getLast?_map, List.getLast?_eq_some_getLast hne]
    rfl
  rw [parseNotebook_contents hc, mapM_each.2 hp]
  show ((Kept env.fs paths).mapM (parseEntry (parseNotebook env n) env) >>= _) = _ ↔ _
  constructor
  · intro h
    cases hm : (Kept env.fs paths).mapM (parseEntry (parseNotebook env n) env) with
    | ok entries => rw [hm] at h; cases h
    | error e' =>
      rw [hm] at h
      cases h
      obtain ⟨before, p, after, entries, hk, hb, hf⟩ := mapM_error.1 hm
      obtain ⟨name, hl⟩ := hlast p (by rw [hk]; simp)
      exact ⟨before, p, after, entries, hk,
        each_mono hb fun p e _ h => (parseEntry_ok _ env p e).1 h,
        (parseEntry_error _ env p e hl).1 hf⟩
  · rintro ⟨before, p, after, entries, hk, hb, hf⟩
    obtain ⟨name, hl⟩ := hlast p (by rw [hk]; simp)
    have hm : (Kept env.fs paths).mapM (parseEntry (parseNotebook env n) env) = .error e :=
      mapM_error.2 ⟨before, p, after, entries, hk,
        each_mono hb fun p e _ h => (parseEntry_ok _ env p e).2 h,
        (parseEntry_error _ env p e hl).2 hf⟩
    rw [hm]
    rfl

/-- A name that does not resolve fails the notebook, whatever the other entries are. -/
theorem C35_unresolved (env : Env) (n : Nat) (path base : Path) (names : List Text)
    (color : Option Color) (hc : Contents env path base names color) (name : Text)
    (hn : name ∈ names) (hf : ¬ ∃ p, resolveEntryPath env.fs env.sanitise base name = .ok p) :
    parseNotebook env (n + 1) path = .error .invalidPath := by
  rw [parseNotebook_contents hc]
  cases hm : names.mapM (resolveEntryPath env.fs env.sanitise base) with
  | ok paths =>
    obtain ⟨p, _, hp⟩ := each_mem' (mapM_each.1 hm) hn
    exact absurd ⟨p, hp⟩ hf
  | error e =>
    obtain ⟨_, x, _, _, _, _, hx⟩ := mapM_error.1 hm
    rw [resolveEntryPath_error hx]
    rfl

/-- The sample: a directory with a table of contents naming the section `s`, the missing `m`, the
section group `g` (with an empty table of contents) and the recycle bin. -/
private def nb : Path := [.rootDir, .normal ['n', 'b']]

private def sampleFs : FileSystem where
  pathExists p := decide (p ≠ nb ++ [.normal ['m']])
  isFile p := decide (p = nb ++ [.normal ['s']])
  canonicalize p := some p
  readDir _ := some [some ".onetoc2".toList, some "x.onetoc2".toList, some "y.onetoc2".toList]
  read p :=
    if p = nb ++ [.normal ['s']] then some (emptySectionFile none)
    else if p = nb ++ [.normal ['g'], .normal "x.onetoc2".toList] then some (tocFile [])
    else if p = nb ++ [.normal ['t']] then
      some (tocFile [(1, ['s']), (2, ['m']), (3, ['g']), (4, "OneNote_RecycleBin".toList)])
    else none

private def sampleEnv : Env := ⟨sampleFs, id, Order.id, 3⟩

/-- What a notebook's entries are, without the contents of the sections. -/
private def outline : SectionEntry → Text × Bool
  | .section s => (s.displayName, true)
  | .sectionGroup g => (g.displayName, g.entries.isEmpty)

/-- The sample notebook has two entries, the section and the section group. -/
example : ((parseNotebook sampleEnv 2 (nb ++ [.normal ['t']])).toOption.map fun b =>
    b.entries.map outline) = some [(['s'], true), (['g'], true)] := by
  decide +kernel

/-- The hypothesis of `C35_first_failure` and `C35_unresolved` holds of a file of bytes. -/
example : ∃ base names color, Contents sampleEnv (nb ++ [.normal ['t']]) base names color ∧
    names.length = 4 := by
  have key : (parseNotebook sampleEnv 2 (nb ++ [.normal ['t']])).toOption.isSome = true := by
    decide +kernel
  cases h : parseNotebook sampleEnv 2 (nb ++ [.normal ['t']]) with
  | error e => rw [h] at key; cases key
  | ok b =>
    obtain ⟨base, names, color, paths, hc, _⟩ := (C35_entries sampleEnv 1 _ b).1 h
    refine ⟨base, names, color, hc, ?_⟩
    obtain ⟨⟨data, store, hd, hs, _, ht⟩, _⟩ := hc
    have k2 : ((sampleFs.read (nb ++ [.normal ['t']])).bind fun data =>
        (readStore Order.id data).toOption.bind fun store =>
          (parseToc 3 store.dataRoot).toOption.map fun r => r.1.length) = some 4 := by
      decide +kernel
    have hd : sampleFs.read (nb ++ [.normal ['t']]) = some data := hd
    have hs : readStore Order.id data = .ok store := hs
    have ht : parseToc 3 store.dataRoot = .ok (names, color) := ht
    rw [hd, Option.bind_some, hs] at k2
    change ((parseToc 3 store.dataRoot).toOption.map fun r => r.1.length) = some 4 at k2
    rw [ht] at k2
    exact Option.some.inj k2

end OneNote

#print axioms OneNote.C35_entries
#print axioms OneNote.C35_first_failure
#print axioms OneNote.C35_unresolved
