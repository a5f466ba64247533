/-
C103: Files that are not listed have no influence on a notebook. FALSE of the code for files whose names end
in `.onetoc2`.
-/
import Verif.Spec.Unlisted
import Verif.Spec.SampleFile
import Verif.Lemmas.Path
import Verif.Lemmas.WholeNotebook
import Verif.Lemmas.Terminates

namespace OneNote

open Spec

namespace C103

private theorem resolve_leads (sanitise : Text → Text) (base : Path) (name : Text) :
    (∀ fs, resolveEntryPath fs sanitise base name = .error .invalidPath) ∨
    ∃ p, LeadsTo base name p ∧ ∀ fs, resolveEntryPath fs sanitise base name =
      (checkInside fs base p >>= fun _ => pure p) := by
  rcases resolveEntryPath_eq sanitise base name with h | ⟨names, hne, _, h⟩
  · exact .inl h
  · refine .inr ⟨_, ?_, h⟩
    have h0 : resolveEntryPath ⟨fun _ => false, fun _ => false, fun _ => none, fun _ => none, fun _ => none⟩
        sanitise base name = .ok (base ++ names.map .normal) := by
      rw [h]
      rfl
    obtain ⟨pieces, hp, _, _, _, _, he, _⟩ := entryPath_iff.1 h0
    exact ⟨pieces, hp, he⟩

private theorem findToc_others {added : Text → Prop} (dir : Path) {l l' : List (Option Text)}
    (h : WithOthers added l l') (ha : ∀ before toc after, l' = before ++ some toc :: after → NoToc before →
      TocName toc → ¬ added toc) : findToc dir l = findToc dir l' := by
  induction h with
  | nil => rfl
  | @same x l l' _ ih =>
    cases x with
    | none => rfl
    | some name =>
      unfold findToc
      simp only
      by_cases hx : Path.extension (Path.join dir [.normal name]) = some tocExtension
      · rw [if_pos hx, if_pos hx]
      · rw [if_neg hx, if_neg hx]
        refine ih fun before toc after he hb => ha (some name :: before) toc after (by rw [he]; rfl) ?_
        intro y hy
        rcases List.mem_cons.1 hy with rfl | hy
        · exact ⟨name, rfl, fun ht => hx ((tocExtension_iff dir name).2 ht)⟩
        · exact hb y hy
  | @other name l l' hn _ ih =>
    have hx : ¬ TocName name := fun ht => ha [] name l' rfl (fun _ h => nomatch h) ht hn
    rw [ih fun before toc after he hb => ha (some name :: before) toc after (by rw [he]; rfl) (by
      intro y hy
      rcases List.mem_cons.1 hy with rfl | hy
      · exact ⟨name, rfl, hx⟩
      · exact hb y hy)]
    conv => rhs; unfold findToc
    simp only
    rw [if_neg fun h => hx ((tocExtension_iff dir name).1 h)]

private theorem findToc_is {dir p : Path} {l : List (Option Text)} (h : findToc dir l = .ok p) :
    ∃ before toc after, l = before ++ some toc :: after ∧ NoToc before ∧ TocName toc ∧
      p = dir ++ [.normal toc] := by
  induction l with
  | nil => cases h
  | cons x l ih =>
    cases x with
    | none => cases h
    | some name =>
      unfold findToc at h
      simp only at h
      by_cases hx : Path.extension (Path.join dir [.normal name]) = some tocExtension
      · rw [if_pos hx] at h
        cases h
        exact ⟨[], name, l, rfl, (fun _ h => nomatch h), (tocExtension_iff dir name).1 hx, rfl⟩
      · rw [if_neg hx] at h
        obtain ⟨before, toc, after, rfl, hb, ht, rfl⟩ := ih h
        refine ⟨some name :: before, toc, after, rfl, ?_, ht, rfl⟩
        intro y hy
        rcases List.mem_cons.1 hy with rfl | hy
        · exact ⟨name, rfl, fun ht => hx ((tocExtension_iff dir name).2 ht)⟩
        · exact hb y hy

end C103

/-- **What holds**: further files and directories that no table of contents lists have no influence on the
notebook, or on the error, if none comes before the table of contents of its directory with a name that ends
in `.onetoc2`. -/
theorem C103_partial (env : Env) (fs' : FileSystem) (added : Path → Prop)
    (hs : AddsFiles added env.fs fs') (hu : Unlisted env added) (ht : NotFirst added fs') (n : Nat)
    (path base : Path) (hp : Path.parent path = some base) (hpath : ¬ added path) (hb : ¬ added base) :
    parseNotebook env n path = parseNotebook { env with fs := fs' } n path := by
  induction n generalizing path base with
  | zero => rfl
  | succ n ih =>
    unfold parseNotebook
    rw [← hs.read path hpath]
    refine bind_congr' fun data hd => bind_congr' fun store hst => ?_
    by_cases hsch : store.schema ≠ tocSchema
    · rw [if_pos hsch, if_pos hsch]
    rw [if_neg hsch, if_neg hsch, hp]
    refine bind_congr' fun d hd' => ?_
    cases hd'
    refine bind_congr' fun (names, color) hn => ?_
    have hnames : ∀ name ∈ names, ∀ p, LeadsTo base name p → ¬ added p := by
      refine hu path base names color hpath ⟨⟨data, store, ?_, hst, Decidable.of_not_not hsch, hn⟩, hp⟩
      cases hr : env.fs.read path with
      | none => rw [hr] at hd; cases hd
      | some x => rw [hr] at hd; cases hd; rfl
    have hres : ∀ name ∈ names, resolveEntryPath env.fs env.sanitise base name =
        resolveEntryPath fs' env.sanitise base name := by
      intro name hm
      rcases C103.resolve_leads env.sanitise base name with h | ⟨p, hl, h⟩
      · rw [h, h]
      · have hpa := hnames name hm p hl
        rw [h, h]
        unfold checkInside
        rw [hs.pathExists p hpa, hs.canonicalize p hpa, hs.canonicalize base hb]
    show (names.mapM (resolveEntryPath env.fs env.sanitise base) >>= _) =
      (names.mapM (resolveEntryPath fs' env.sanitise base) >>= _)
    rw [← mapM_congr hres]
    refine bind_congr' fun paths hpaths => ?_
    have hpaths : ∀ p ∈ paths, ¬ added p := by
      intro p hpm
      obtain ⟨name, hm, hx⟩ := each_mem (mapM_each.1 hpaths) hpm
      rcases C103.resolve_leads env.sanitise base name with h | ⟨q, hq, h⟩
      · rw [h] at hx; cases hx
      · rw [h] at hx
        obtain ⟨_, _, hx⟩ := Res.bind_ok hx
        cases hx
        exact hnames name hm _ hq
    have hkeep : paths.filter (keepEntry env) = paths.filter (keepEntry { env with fs := fs' }) := by
      refine List.filter_congr fun p hpm => ?_
      unfold keepEntry
      rw [hs.pathExists p (hpaths p hpm)]
    rw [← hkeep]
    refine congrArg (· >>= _) (mapM_congr fun p hpm => ?_)
    have hpa := hpaths p (List.mem_filter.1 hpm).1
    unfold parseEntry
    rw [← hs.isFile p hpa, parseSectionFile_congr env fs' p (hs.read p hpa)]
    split
    · rfl
    · congr 1
      unfold parseSectionGroup
      refine bind_congr' fun name _ => ?_
      rcases hs.readDir p hpa with ⟨h1, h2⟩ | ⟨l, l', h1, h2, hl⟩
      · rw [h1]
        show _ = (orErr _ (fs'.readDir p) >>= _)
        rw [h2]
        rfl
      · rw [h1]
        show _ = (orErr _ (fs'.readDir p) >>= _)
        rw [h2]
        show (findToc p l >>= _) = (findToc p l' >>= _)
        have hfirst : ∀ before toc after, l' = before ++ some toc :: after → NoToc before → TocName toc →
            ¬ added (p ++ [.normal toc]) := fun before toc after he =>
          ht p before toc after hpa (by rw [h2, he])
        rw [C103.findToc_others p hl hfirst]
        refine bind_congr' fun toc hf => ?_
        obtain ⟨before, toc, after, he, hbf, htn, rfl⟩ := C103.findToc_is hf
        exact congrArg (· >>= _) (ih _ p (parent_join p _) (hfirst before toc after he hbf htn) hpa)

/-- **Files that are not listed can be deleted as well**, with the same exception. -/
theorem C103_deleted_partial (env : Env) (fs' : FileSystem) (deleted : Path → Prop)
    (hs : AddsFiles deleted fs' env.fs) (hu : Unlisted env deleted) (ht : NotFirst deleted env.fs)
    (n : Nat)
    (path base : Path) (hp : Path.parent path = some base) (hpath : ¬ deleted path) (hb : ¬ deleted base) :
    parseNotebook env n path = parseNotebook { env with fs := fs' } n path := by
  refine (C103_partial { env with fs := fs' } env.fs deleted hs ?_ ht n path base hp hpath hb).symm
  intro path base names color hpath ⟨⟨data, store, h1, h2⟩, h3⟩
  exact hu path base names color hpath ⟨⟨data, store, (hs.read path hpath).symm.trans h1, h2⟩, h3⟩

/-! ### A section group with a further file -/

namespace C103

private def base : Path := [.rootDir, .normal ['d']]
private def toc : Path := base ++ [.normal "x.onetoc2".toList]
private def group : Path := base ++ [.normal ['g']]
private def groupToc : Path := group ++ [.normal "x.onetoc2".toList]

/-- A directory with a table of contents and a section group `g`, in whose directory there are a table of
contents, a section `s` and perhaps a further file. -/
private def disk (other : Option Text) : FileSystem where
  pathExists p := p == base || p == toc || p == group || p == groupToc || p == group ++ [.normal ['s']] ||
    other.any fun name => p == group ++ [.normal name]
  isFile p := p == toc || p == groupToc || p == group ++ [.normal ['s']] ||
    other.any fun name => p == group ++ [.normal name]
  canonicalize p := some p
  readDir p := if p = group then some (other.toList.map some ++ [some "x.onetoc2".toList, some ['s']])
    else none
  read p :=
    if p = toc then some (tocFile [(1, ['g'])])
    else if p = groupToc then some (tocFile [(1, ['s'])])
    else if p = group ++ [.normal ['s']] then some (emptySectionFile none)
    else if other.any fun name => p == group ++ [.normal name] then some [0x00, 0x05, 0x16, 0x07]
    else none

private def Other (name : Text) (p : Path) : Prop := p = group ++ [.normal name]

private theorem adds (name : Text) : AddsFiles (Other name) (disk none) (disk (some name)) := by
  have hne : ∀ p, ¬ Other name p → (p == group ++ [.normal name]) = false := fun p hp =>
    beq_eq_false_iff_ne.2 hp
  constructor
  · intro p hp
    unfold disk
    dsimp only [Option.any_none, Option.any_some]
    rw [hne p hp]
  · intro p hp
    unfold disk
    dsimp only [Option.any_none, Option.any_some]
    rw [hne p hp]
  · intro p _
    rfl
  · intro p hp
    have h1 : (none : Option Text).any (fun name => p == group ++ [.normal name]) ≠ true := by simp
    have h2 : (some name).any (fun name => p == group ++ [.normal name]) ≠ true := by
      rw [Option.any_some, hne p hp]
      exact Bool.false_ne_true
    unfold disk
    dsimp only
    rw [if_neg h1, if_neg h2]
  · intro p _
    unfold disk
    dsimp only
    by_cases hg : p = group
    · rw [if_pos hg, if_pos hg]
      refine .inr ⟨_, _, rfl, rfl, ?_⟩
      exact .other (by rw [hg]; rfl) (.same _ (.same _ .nil))
    · rw [if_neg hg, if_neg hg]
      exact .inl ⟨rfl, rfl⟩

/-- What the tables of contents list. -/
private def Lists (name : Text) : Prop :=
  ((readStore Order.id (tocFile [(1, name)])).toOption.bind fun st =>
    if st.schema = tocSchema then (parseToc 3 st.dataRoot).toOption else none) = some ([name], none)

private theorem lists_g : Lists ['g'] := by unfold Lists; decide +kernel
private theorem lists_s : Lists ['s'] := by unfold Lists; decide +kernel

private theorem section_schema : ((readStore Order.id (emptySectionFile none)).toOption.map fun st =>
    decide (st.schema = tocSchema)) = some false := by
  decide +kernel

private theorem not_section {store : Store} (h : readStore Order.id (emptySectionFile none) = .ok store) :
    store.schema ≠ tocSchema := by
  have := section_schema
  rw [h] at this
  exact of_decide_eq_false (Option.some.inj this)

private theorem names_are {name : Text} (hl : Lists name) {store : Store} {names : List Text}
    {color : Option Color} (h2 : readStore Order.id (tocFile [(1, name)]) = .ok store)
    (h3 : store.schema = tocSchema) (h4 : parseToc 3 store.dataRoot = .ok (names, color)) :
    names = [name] := by
  obtain ⟨st, g1, g2⟩ := Option.bind_eq_some_iff.1 hl
  rw [toOption_some g1] at h2
  cases h2
  rw [if_pos h3] at g2
  rw [toOption_some g2] at h4
  cases h4
  rfl

private theorem leads {dir p : Path} {c : Char} (hc : c = 'g' ∨ c = 's') (h : LeadsTo dir [c] p) :
    p = dir ++ [.normal [c]] := by
  obtain ⟨pieces, hp, rfl⟩ := h
  rw [pieces_unique hp]
  rcases hc with rfl | rfl
  · rw [show (splitSlash ['g']).filter (fun n => decide (n ≠ [] ∧ n ≠ ['.'])) = [['g']] by decide]
    rfl
  · rw [show (splitSlash ['s']).filter (fun n => decide (n ≠ [] ∧ n ≠ ['.'])) = [['s']] by decide]
    rfl

private theorem unlisted (name : Text) (hg : name ≠ ['g']) (hs : name ≠ ['s']) :
    Unlisted ⟨disk none, id, Order.id, 3⟩ (Other name) := by
  have key : ∀ (dir : Path) (c : Char), c = 'g' ∨ c = 's' → ∀ p, LeadsTo dir [c] p → ¬ Other name p := by
    intro dir c hc p hl ho
    have h := (leads hc hl).symm.trans ho
    have h := (List.append_inj' h rfl).2
    cases h
    rcases hc with rfl | rfl
    · exact hg rfl
    · exact hs rfl
  intro path b names color _ ⟨⟨data, store, h1, h2, h3, h4⟩, _⟩
  have h1 : (disk none).read path = some data := h1
  unfold disk at h1
  dsimp only at h1
  split at h1
  · cases h1
    cases names_are lists_g h2 h3 h4
    intro x hx
    cases List.mem_singleton.1 hx
    exact key b 'g' (.inl rfl)
  · split at h1
    · cases h1
      cases names_are lists_s h2 h3 h4
      intro x hx
      cases List.mem_singleton.1 hx
      exact key b 's' (.inr rfl)
    · split at h1
      · cases h1
        exact absurd h3 (not_section h2)
      · cases h1

/-- Whether the notebook can be opened, with the number of its entries. -/
private def shown (other : Option Text) : Option Nat :=
  (parseNotebook ⟨disk other, id, Order.id, 3⟩ 3 toc).toOption.map (·.entries.length)

private theorem shown_ok {other : Option Text} {k : Nat} (h : shown other = some k) :
    ∃ nb, parseNotebook ⟨disk other, id, Order.id, 3⟩ 3 toc = .ok nb ∧ nb.entries.length = k := by
  obtain ⟨nb, h1, h2⟩ := Option.map_eq_some_iff.1 h
  exact ⟨nb, toOption_some h1, h2⟩

private theorem without : shown none = some 1 := by decide +kernel

/-- The name of the file in which macOS keeps the attributes of `x.onetoc2` on disks of other systems. -/
private def attributes : Text := "._x.onetoc2".toList

private theorem with_store : shown (some ".DS_Store".toList) = some 1 := by decide +kernel

private theorem store_not_first (fs : FileSystem) : NotFirst (Other ".DS_Store".toList) fs := by
  intro dir _ name _ _ _ _ ht ha
  have h := (List.append_inj' ha rfl).2
  cases h
  exact absurd ((tocExtension_iff dir _).2 ht) (by
    unfold Path.extension Path.fileName
    rw [show Path.join dir [.normal ".DS_Store".toList] = dir ++ [.normal ".DS_Store".toList] from rfl,
      List.getLast?_concat]
    decide)

private theorem with_ : shown (some attributes) = none := by decide +kernel

end C103

/-- **The property is false**: a notebook that cannot be opened any more after a file that no table of
contents lists was added, since the name of the file, `._x.onetoc2`, ends in `.onetoc2`. -/
theorem C103_refuted : ∃ (env : Env) (fs' : FileSystem) (added : Path → Prop) (n : Nat) (path base : Path)
    (nb : Notebook), AddsFiles added env.fs fs' ∧ Unlisted env added ∧ Path.parent path = some base ∧
    ¬ added path ∧ ¬ added base ∧ parseNotebook env n path = .ok nb ∧ nb.entries.length = 1 ∧
    ∀ nb', parseNotebook { env with fs := fs' } n path ≠ .ok nb' := by
  obtain ⟨nb, h1, h2⟩ := C103.shown_ok C103.without
  refine ⟨_, C103.disk (some C103.attributes), C103.Other C103.attributes, 3, C103.toc, C103.base, nb,
    C103.adds _, C103.unlisted _ (by decide) (by decide), rfl, by unfold C103.Other; decide,
    by unfold C103.Other; decide, h1, h2, fun nb' h => ?_⟩
  have hw := C103.with_
  unfold C103.shown at hw
  rw [h] at hw
  cases hw

/-- A notebook to which the file `.DS_Store` is added. -/
example : ∃ (env : Env) (fs' : FileSystem) (added : Path → Prop) (path base : Path) (nb : Notebook),
    AddsFiles added env.fs fs' ∧ Unlisted env added ∧ NotFirst added fs' ∧ Path.parent path = some base ∧
    ¬ added path ∧ ¬ added base ∧ parseNotebook env 3 path = .ok nb ∧ nb.entries.length = 1 ∧
    ∃ p, added p ∧ fs'.pathExists p = true ∧ env.fs.pathExists p = false := by
  obtain ⟨nb, h1, h2⟩ := C103.shown_ok C103.without
  refine ⟨_, C103.disk (some ".DS_Store".toList), C103.Other ".DS_Store".toList, C103.toc, C103.base, nb,
    C103.adds _, C103.unlisted _ (by decide) (by decide), ?_, rfl, by unfold C103.Other; decide,
    by unfold C103.Other; decide, h1, h2, _, rfl, by decide +kernel, by decide +kernel⟩
  exact C103.store_not_first _

/-- A notebook from which the file `.DS_Store` is deleted. -/
example : ∃ (env : Env) (fs' : FileSystem) (deleted : Path → Prop) (path base : Path) (nb : Notebook),
    AddsFiles deleted fs' env.fs ∧ Unlisted env deleted ∧ NotFirst deleted env.fs ∧
    Path.parent path = some base ∧
    ¬ deleted path ∧ ¬ deleted base ∧ parseNotebook env 3 path = .ok nb ∧ nb.entries.length = 1 := by
  obtain ⟨nb, h1, h2⟩ := C103.shown_ok C103.with_store
  refine ⟨_, C103.disk none, C103.Other ".DS_Store".toList, C103.toc, C103.base, nb, C103.adds _, ?_,
    C103.store_not_first _, rfl, by unfold C103.Other; decide, by unfold C103.Other; decide, h1, h2⟩
  intro path base names color hpath ⟨⟨data, store, h1, h2⟩, h3⟩
  exact C103.unlisted _ (by decide) (by decide) path base names color hpath
    ⟨⟨data, store, ((C103.adds _).read path hpath).trans h1, h2⟩, h3⟩

end OneNote

#print axioms OneNote.C103_partial
#print axioms OneNote.C103_deleted_partial
#print axioms OneNote.C103_refuted
