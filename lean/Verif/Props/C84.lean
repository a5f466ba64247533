/-
C84: The kind of the error tells what is wrong.
-/
import Verif.Props.C35
import Verif.Lemmas.KindsDocument
import Verif.Lemmas.Path
import Verif.Spec.SampleFile

namespace OneNote

open Spec

/-- **What is not the container of a file is damaged**, and nothing but the kinds for damaged files is
reported for it. -/
theorem C84_container (ord : Order) (data : Bytes) (e : Err) (h : readStore ord data = .error e) :
    damaged e = true := Only.only e h

/-- **A section in a buffer**: the kind of the error says whether the bytes are damaged, or intact but of
another kind of file, or a section file whose objects do not make a section; and in each of these cases
there is an error of that kind. -/
theorem C84_buffer (fuel : Nat) (ord : Order) (data : Bytes) (name : Text) (e : Err) :
    parseSectionBuffer fuel ord data name = .error e ↔
      (readStore ord data = .error e ∧ damaged e = true) ∨
      ∃ store, readStore ord data = .ok store ∧
        ((store.schema ≠ sectionSchema ∧ e = .notASectionFile) ∨
          (store.schema = sectionSchema ∧ parseSectionStore fuel store name = .error e ∧
            malformed e = true)) := by
  unfold parseSectionBuffer
  constructor
  · intro h
    cases hs : readStore ord data with
    | error e' => rw [hs] at h; cases h; exact .inl ⟨rfl, C84_container ord data _ hs⟩
    | ok store =>
      rw [hs] at h
      refine .inr ⟨store, rfl, ?_⟩
      by_cases hc : store.schema = sectionSchema
      · have h : parseSectionStore fuel store name = .error e := (if_neg (not_not_intro hc)).symm.trans h
        exact .inr ⟨hc, h, Only.only e h⟩
      · have h : (.error .notASectionFile : Res Section) = .error e := (if_pos hc).symm.trans h
        cases h
        exact .inl ⟨hc, rfl⟩
  · rintro (⟨hs, -⟩ | ⟨store, hs, ⟨hc, rfl⟩ | ⟨hc, h, -⟩⟩) <;> rw [hs]
    · rfl
    · exact if_pos hc
    · exact (if_neg (not_not_intro hc)).trans h

/-- **Not a section file** means an intact file of another kind, and only that. -/
theorem C84_not_a_section (fuel : Nat) (ord : Order) (data : Bytes) (name : Text) :
    parseSectionBuffer fuel ord data name = .error .notASectionFile ↔
      ∃ store, readStore ord data = .ok store ∧ store.schema ≠ sectionSchema := by
  rw [C84_buffer]
  constructor
  · rintro (⟨-, h⟩ | ⟨store, hs, ⟨hc, -⟩ | ⟨-, -, h⟩⟩)
    · cases h
    · exact ⟨store, hs, hc⟩
    · cases h
  · rintro ⟨store, hs, hc⟩
    exact .inr ⟨store, hs, .inl ⟨hc, rfl⟩⟩

/-- **A section file**: an error of the disk means that the file cannot be read, and an invalid path that
the path of the section has no name; every other kind is what the bytes of the file give. -/
theorem C84_file (env : Env) (path : Path) (e : Err) :
    parseSectionFile env path = .error e ↔
      (env.fs.read path = none ∧ e = .io) ∨
      ∃ data, env.fs.read path = some data ∧
        ((∃ name, path.fileName = some name ∧ parseSectionBuffer env.fuel env.ord data name = .error e) ∨
          (path.fileName = none ∧
            ((readStore env.ord data = .error e ∧ damaged e = true) ∨
              ∃ store, readStore env.ord data = .ok store ∧
                ((store.schema ≠ sectionSchema ∧ e = .notASectionFile) ∨
                  (store.schema = sectionSchema ∧ e = .invalidPath))))) := by
  unfold parseSectionFile
  cases hr : env.fs.read path with
  | none =>
    constructor
    · intro h; cases h; exact .inl ⟨rfl, rfl⟩
    · rintro (⟨-, rfl⟩ | ⟨_, h, -⟩)
      · rfl
      · cases h
  | some data =>
    cases hn : path.fileName with
    | some name =>
      constructor
      · intro h; exact .inr ⟨data, rfl, .inl ⟨name, rfl, h⟩⟩
      · rintro (⟨h, -⟩ | ⟨_, h, ⟨name', h', h''⟩ | ⟨h', -⟩⟩)
        · cases h
        · cases h; cases h'; exact h''
        · cases h'
    | none =>
      constructor
      · intro h
        refine .inr ⟨data, rfl, .inr ⟨rfl, ?_⟩⟩
        cases hs : readStore env.ord data with
        | error e' =>
          have h : readStore env.ord data >>= _ = .error e := h
          rw [hs] at h; cases h; exact .inl ⟨rfl, C84_container _ data _ hs⟩
        | ok store =>
          have h : readStore env.ord data >>= _ = .error e := h
          rw [hs] at h
          refine .inr ⟨store, rfl, ?_⟩
          by_cases hc : store.schema = sectionSchema
          · have h : (.error .invalidPath : Res Section) = .error e :=
              (if_neg (not_not_intro hc)).symm.trans h
            cases h
            exact .inr ⟨hc, rfl⟩
          · have h : (.error .notASectionFile : Res Section) = .error e := (if_pos hc).symm.trans h
            cases h
            exact .inl ⟨hc, rfl⟩
      · rintro (⟨h, -⟩ | ⟨_, h, ⟨name', h', h''⟩ | ⟨-, h'⟩⟩)
        · cases h
        · cases h'
        · cases h
          show readStore env.ord data >>= _ = .error e
          rcases h' with ⟨hs, -⟩ | ⟨store, hs, ⟨hc, rfl⟩ | ⟨hc, rfl⟩⟩ <;> rw [hs]
          · rfl
          · exact if_pos hc
          · exact (if_neg (not_not_intro hc)).trans rfl

private theorem deeper {env : Env} {path base base' : Path} {toc : Text} {e : Err} (ht : TocName toc)
    (hb : Below base base') (h : Cause env (base' ++ [.normal toc]) base' e) : Cause env path base e := by
  have place : ∀ q, TocOf (base' ++ [.normal toc]) base' q → TocOf path base q := by
    rintro q (rfl | ⟨dir, toc', h, h', h''⟩)
    · exact .inr ⟨base', toc, hb, ht, rfl⟩
    · exact .inr ⟨dir, toc', below_trans hb h, h', h''⟩
  have place' : ∀ q, TocOf (base' ++ [.normal toc]) base' q ∨ Below base' q →
      TocOf path base q ∨ Below base q := by
    rintro q (h | h)
    · exact .inl (place q h)
    · exact .inr (below_trans hb h)
  cases h with
  | unreadable q h1 h2 => exact .unreadable q (place' q h1) h2
  | unlistable d h1 h2 => exact .unlistable d (below_trans hb h1) h2
  | missing d ns h1 h2 h3 h4 => exact .missing d ns (below_trans hb h1) h2 h3 h4
  | damaged q data _ h1 h2 h3 h4 => exact .damaged q data _ (place' q h1) h2 h3 h4
  | notSection q data st h1 h2 h3 h4 h5 => exact .notSection q data st (below_trans hb h1) h2 h3 h4 h5
  | notToc q data st h1 h2 h3 h4 => exact .notToc q data st (place q h1) h2 h3 h4
  | malformedSection q data st name _ h1 h2 h3 h4 h5 h6 =>
    exact .malformedSection q data st name _ (below_trans hb h1) h2 h3 h4 h5 h6
  | malformedToc q data st _ h1 h2 h3 h4 h5 h6 =>
    exact .malformedToc q data st _ (place q h1) h2 h3 h4 h5 h6
  | outside q d ns c name h1 h2 h3 h4 => exact .outside q d ns c name (place q h1) h2 h3 h4
  | nested => exact .nested

/-- **A notebook**: whatever the kind of the error, there is a cause of that kind, in a file or directory
of the notebook. -/
theorem C84_notebook (env : Env) (n : Nat) (path base : Path) (hb : Path.parent path = some base)
    (e : Err) (h : parseNotebook env n path = .error e) : Cause env path base e := by
  induction n generalizing path base with
  | zero => cases h; exact .nested
  | succ n ih =>
    by_cases hopen : ∃ names color, Contents env path base names color
    · obtain ⟨names, color, hc⟩ := hopen
      cases hm : names.mapM (resolveEntryPath env.fs env.sanitise base) with
      | error e' =>
        obtain ⟨before, x, after, _, hk, _, hx⟩ := mapM_error.1 hm
        have hx' : ∀ q, resolveEntryPath env.fs env.sanitise base x ≠ .ok q := by
          intro q hq; rw [hx] at hq; cases hq
        have hmem : x ∈ names := by rw [hk]; simp
        have := C35_unresolved env n path base names color hc x hmem fun ⟨p, hp⟩ => hx' p hp
        cases h.symm.trans this
        exact .outside path base names color x (.inl rfl) hc hmem hx'
      | ok paths =>
        have hp := mapM_each.1 hm
        obtain ⟨before, p, after, _, hk, -, hf⟩ :=
          (C35_first_failure env n path base names color paths hc hp e).1 h
        have hpm : p ∈ Kept env.fs paths := by rw [hk]; simp
        obtain ⟨name, -, hr⟩ := each_mem hp (List.mem_filter.1 hpm).1
        obtain ⟨⟨ns, hne, hok, hpe⟩, -⟩ := resolveEntryPath_ok hr
        have hbel : Below base p := ⟨ns, hne, fun x hx => (hok x hx).1, hpe⟩
        cases hf with
        | file _ h1 h2 =>
          rcases (C84_file env p e).1 h2 with ⟨h3, rfl⟩ | ⟨data, h3, ⟨nm, -, h4⟩ | ⟨h4, -⟩⟩
          · exact .unreadable p (.inr hbel) h3
          · rcases (C84_buffer ..).1 h4 with ⟨h5, h6⟩ | ⟨st, h5, ⟨h6, rfl⟩ | ⟨h6, h7, h8⟩⟩
            · exact .damaged p data e (.inr hbel) h3 h5 h6
            · exact .notSection p data st hbel h1 h3 h5 h6
            · exact .malformedSection p data st nm e hbel h3 h5 h6 h7 h8
          · exfalso
            subst hpe
            rw [Path.fileName, List.getLast?_append, List.getLast?_map,
              List.getLast?_eq_some_getLast hne] at h4
            cases h4
        | unlistable _ h2 => exact .unlistable p hbel (.inl h2)
        | unreadable before after _ h2 _ =>
          exact .unlistable p hbel (.inr ⟨_, h2, by simp⟩)
        | missing names h1 h2 h3 => exact .missing p names hbel h1 h2 h3
        | directory _ toc before after h1 h2 h3 h4 h5 =>
          exact deeper h4 hbel (ih _ p (parent_join p toc) h5)
    · unfold parseNotebook at h
      cases hr : env.fs.read path with
      | none => rw [hr] at h; cases h; exact .unreadable path (.inl (.inl rfl)) hr
      | some data =>
        rw [hr] at h
        have h : readStore env.ord data >>= _ = .error e := h
        cases hs : readStore env.ord data with
        | error e' =>
          rw [hs] at h; cases h; exact .damaged path data _ (.inl (.inl rfl)) hr hs (C84_container _ data _ hs)
        | ok store =>
          rw [hs] at h
          by_cases hc : store.schema = tocSchema
          · replace h := (if_neg (not_not_intro hc)).symm.trans h
            rw [hb] at h
            have h : parseToc env.fuel store.dataRoot >>= _ = .error e := h
            cases ht : parseToc env.fuel store.dataRoot with
            | ok x => exact absurd ⟨x.1, x.2, ⟨data, store, hr, hs, hc, ht⟩, hb⟩ hopen
            | error e' =>
              rw [ht] at h; cases h
              exact .malformedToc path data store _ (.inl rfl) hr hs hc ht (Only.only _ ht)
          · have h : (.error .notATocFile : Res Notebook) = .error e := (if_pos hc).symm.trans h
            cases h
            exact .notToc path data store (.inl rfl) hr hs hc

/-! ### One example for each kind -/

private def disk (file : Option Bytes) (names : List (Option Text)) : FileSystem where
  pathExists _ := true
  isFile p := decide (p.getLast? = some (.normal ['s']))
  canonicalize := some
  readDir _ := some names
  read p := if p = [.rootDir, .normal ['t']] then some (tocFile [(1, ['s']), (2, ['g'])]) else file

private def opened (file : Option Bytes) (names : List (Option Text)) : Res Notebook :=
  parseNotebook ⟨disk file names, id, Order.id, 3⟩ 3 [.rootDir, .normal ['t']]

private def kind (r : Res Notebook) : Option Err :=
  match r with
  | .error e => some e
  | .ok _ => none

example :
    -- a section that cannot be read, is cut off, is a table of contents, or refers to an object that is missing
    kind (opened none []) = some .io ∧
    kind (opened (some ((emptySectionFile (some ['1'])).take 60)) []) = some .eof ∧
    kind (opened (some (tocFile [])) []) = some .notASectionFile ∧
    kind (opened (some (sectionFile none [7] [])) []) = some .malformedOneNote ∧
    -- a group without a table of contents, that cannot be listed, or with a section for one
    kind (opened (some (emptySectionFile (some ['1']))) [some ['x']]) = some .tocFileMissing ∧
    kind (opened (some (emptySectionFile (some ['1']))) [none]) = some .io ∧
    kind (opened (some (emptySectionFile (some ['1']))) [some "t.onetoc2".toList]) =
      some .notATocFile := by decide +kernel

end OneNote

#print axioms OneNote.C84_container
#print axioms OneNote.C84_buffer
#print axioms OneNote.C84_not_a_section
#print axioms OneNote.C84_file
#print axioms OneNote.C84_notebook
