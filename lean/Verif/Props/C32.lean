/-
C32: Table-of-contents entries cannot escape the notebook directory.

True of the entries themselves. But the table of contents of a section group is found by listing the
group's directory, and that file is opened without the check: see `C32_group_toc_refuted`.
-/
import Verif.Lemmas.Path
import Verif.Spec.SampleFile

namespace OneNote

open Spec

/-- The path of an entry is the notebook's directory followed by ordinary file names, none of them
changed by the sanitiser, and if it exists its resolved location lies inside the directory. -/
theorem C32_entry (fs : FileSystem) (sanitise : Text → Text) (base : Path) (entry : Text) (p : Path)
    (h : resolveEntryPath fs sanitise base entry = .ok p) :
    Below base p ∧ (∀ n, Component.normal n ∈ p.drop base.length → sanitise n = n) ∧
      (fs.pathExists p = true → Inside fs base p) := by
  obtain ⟨⟨names, hne, hok, rfl⟩, hin⟩ := resolveEntryPath_ok h
  refine ⟨⟨names, hne, fun n hn => (hok n hn).1, rfl⟩, fun n hn => ?_, hin⟩
  rw [List.drop_left] at hn
  obtain ⟨m, hm, hmn⟩ := List.mem_map.1 hn
  cases hmn
  exact (hok n hm).2

/-- An entry that starts with a slash, has a piece `..` or has no piece other than `.` is rejected,
and so is one that exists and leads elsewhere. -/
theorem C32_rejected (fs : FileSystem) (sanitise : Text → Text) (base : Path) (entry : Text)
    (h : entry.head? = some '/' ∨ Piece ['.', '.'] entry ∨
      (∀ piece, '/' ∉ piece → Piece piece entry → piece = [] ∨ piece = ['.']) ∨
      (∀ p, Below base p → fs.pathExists p = true ∧ ¬ Inside fs base p)) :
    resolveEntryPath fs sanitise base entry = .error .invalidPath := by
  cases hr : resolveEntryPath fs sanitise base entry with
  | error e => rw [resolveEntryPath_error hr]
  | ok p =>
    exfalso
    obtain ⟨⟨names, hne, hok, rfl⟩, hin⟩ := resolveEntryPath_ok hr
    rcases h with h | h | h | h
    · unfold resolveEntryPath isAbsolute at hr
      rw [if_pos (by simpa using h)] at hr
      cases hr
    · have hm : Component.parentDir ∈ componentsOf entry := by
        have : Component.parentDir ∈ (splitSlash entry).filterMap pieceOf :=
          List.mem_filterMap.2 ⟨_, piece_mem (by decide) h, rfl⟩
        unfold componentsOf
        simp only
        split
        · exact List.mem_cons_of_mem _ this
        · split
          · exact List.mem_cons_of_mem _ this
          · exact this
      unfold resolveEntryPath at hr
      split at hr
      · cases hr
      · obtain ⟨parts, hp, _⟩ := Res.bind_ok hr
        obtain ⟨y, _, hy⟩ := each_mem' (mapM_each.1 hp) hm
        cases hy
    · unfold resolveEntryPath at hr
      split at hr
      · cases hr
      · rename_i ha
        obtain ⟨parts, hp, hr⟩ := Res.bind_ok hr
        simp only at hr
        split at hr
        · cases hr
        · rename_i hs
          refine hs ?_
          have hall : ∀ part ∈ parts, part = none := by
            intro part hpart
            obtain ⟨c, hc, hcp⟩ := each_mem (mapM_each.1 hp) hpart
            have hc : c = .curDir := by
              unfold componentsOf at hc
              simp only at hc
              rw [if_neg ha] at hc
              have hnone : (splitSlash entry).filterMap pieceOf = [] := by
                rw [List.filterMap_eq_nil_iff]
                intro q hq
                rcases h q (mem_splitSlash hq) (mem_piece hq) with rfl | rfl <;> rfl
              rw [hnone] at hc
              split at hc
              · rw [List.mem_singleton] at hc
                exact hc
              · cases hc
            subst hc
            cases hcp
            rfl
          rw [List.isEmpty_iff, List.filterMap_eq_nil_iff]
          intro part hpart
          exact hall part hpart
    · have := h _ ⟨names, hne, fun n hn => (hok n hn).1, rfl⟩
      exact this.2 (hin this.1)

/-- An ordinary file name that the sanitiser leaves alone is accepted, unless it exists and leads
elsewhere. -/
theorem C32_accepted (fs : FileSystem) (sanitise : Text → Text) (base : Path) (name : Text)
    (hn : FileName name) (hs : sanitise name = name)
    (hi : fs.pathExists (base ++ [.normal name]) = true → Inside fs base (base ++ [.normal name])) :
    resolveEntryPath fs sanitise base name = .ok (base ++ [.normal name]) := by
  obtain ⟨h1, h2, h3, h4⟩ := hn
  have ha : isAbsolute name = false := by
    cases name with
    | nil => rfl
    | cons c name =>
      rw [List.mem_cons, not_or] at h2
      have := Ne.symm h2.1
      simpa [isAbsolute] using this
  have hc : componentsOf name = [.normal name] := by
    unfold componentsOf
    simp only
    rw [splitSlash_piece name h2, ha, if_neg (by simp), if_neg (by simpa using h3)]
    simp [pieceOf, h1, h3, h4]
  have hchk : checkInside fs base (base ++ [.normal name]) = .ok () := by
    unfold checkInside
    split
    · rename_i he
      obtain ⟨b, c, rest, hb, hcn, rfl⟩ := hi he
      rw [hb, hcn]
      show (if Path.startsWith (b ++ rest) b then pure () else _) = _
      rw [if_pos]
      · rfl
      · exact List.isPrefixOf_iff_prefix.2 ⟨rest, rfl⟩
    · rfl
  unfold resolveEntryPath
  rw [ha, if_neg (by simp), hc]
  have hm : List.mapM (resolveComponent sanitise) [.normal name] = .ok [some (.normal name)] := by
    rw [mapM_each]
    refine .cons ?_ .nil
    show (if sanitise name ≠ name then _ else _) = _
    rw [if_neg (by simpa using hs)]
  rw [hm]
  show (checkInside fs base (base ++ [.normal name]) >>= _) = _
  rw [hchk]
  rfl

/-- What a notebook looks like depends on nothing outside its directory, except what the `onetoc2`
files in the directories of its section groups lead to. -/
theorem C32_confined_partial (env : Env) (fs' : FileSystem) (base path : Path) (n : Nat)
    (hp : Path.parent path = some base) (hr : env.fs.read path = fs'.read path)
    (hs : SameInside base env.fs fs') (ht : SameTocs base env.fs fs') :
    parseNotebook env n path = parseNotebook { env with fs := fs' } n path :=
  parseNotebook_congr env fs' base hs ht n path base hp (.inl rfl) hr

/-- The directory of the sample notebook. -/
private def nb : Path := [.rootDir, .normal ['n', 'b']]

/-- The table of contents of the section group `g` of the sample notebook. -/
private def groupToc : Path := nb ++ [.normal ['g'], .normal "x.onetoc2".toList]

/-- A notebook with one section group `g`, whose table of contents is a symbolic link to a file
elsewhere. -/
private def linked (secret : Option Bytes) : FileSystem where
  pathExists _ := true
  isFile _ := false
  canonicalize p := if p = groupToc then some [.rootDir, .normal ['s']] else some p
  readDir _ := some [some "x.onetoc2".toList]
  read p := if p = groupToc then secret else some (tocFile [(1, ['g'])])

private def linkedEnv (secret : Option Bytes) : Env := ⟨linked secret, id, Order.id, 3⟩

/-- The property in full is false: the result depends on a file outside the notebook's directory. -/
theorem C32_group_toc_refuted :
    ¬ ∀ (env : Env) (fs' : FileSystem) (base path : Path) (n : Nat),
      Path.parent path = some base → env.fs.read path = fs'.read path →
      SameInside base env.fs fs' →
      parseNotebook env n path = parseNotebook { env with fs := fs' } n path := by
  intro h
  have key := h (linkedEnv (some (tocFile []))) (linked none) nb (nb ++ [.normal ['t']]) 2
    (by decide) rfl
    { pathExists := fun _ _ => rfl
      isFile := fun _ _ _ => rfl
      canonicalize := fun _ _ => rfl
      readDir := fun _ _ _ => rfl
      read := fun p _ hi => by
        obtain ⟨b, c, rest, hb, hc, hbc⟩ := hi
        have hp : p ≠ groupToc := by
          rintro rfl
          have hb : nb = b := Option.some.inj hb
          have hc : [Component.rootDir, .normal ['s']] = c := Option.some.inj hc
          subst hb
          rw [← hc] at hbc
          exact absurd hbc (by simp [nb])
        show (if p = groupToc then _ else _) = (if p = groupToc then _ else _)
        rw [if_neg hp, if_neg hp] }
  have h1 : (parseNotebook (linkedEnv (some (tocFile []))) 2 (nb ++ [.normal ['t']])).toOption.isSome
      = true := by decide +kernel
  have h2 : (parseNotebook (linkedEnv none) 2 (nb ++ [.normal ['t']])).toOption.isSome = false := by
    decide +kernel
  rw [key] at h1
  exact absurd (h1.symm.trans h2) (by decide)

/-- A plain entry is resolved. -/
example : resolveEntryPath (linked none) id nb ['a', '.', 'o', 'n', 'e'] =
    .ok (nb ++ [.normal ['a', '.', 'o', 'n', 'e']]) := by decide +kernel

/-- Entries in a directory below, also with `.` pieces. -/
example : resolveEntryPath (linked none) id nb ['.', '/', 'a', '/', '.', '/', '/', 'b'] =
    .ok (nb ++ [.normal ['a'], .normal ['b']]) := by decide +kernel

/-- `..` is rejected, and `Piece` finds it. -/
example : resolveEntryPath (linked none) id nb ['a', '/', '.', '.', '/', 'b'] =
    .error .invalidPath :=
  C32_rejected _ _ _ _ (.inr (.inl ⟨['a', '/'], ['/', 'b'], rfl, .inr ⟨['a'], rfl⟩, .inr ⟨['b'], rfl⟩⟩))

/-- An existing entry that leads elsewhere is rejected. -/
example : resolveEntryPath (linked none) id nb
    (['g', '/'] ++ ['x', '.', 'o', 'n', 'e', 't', 'o', 'c', '2']) = .error .invalidPath := by
  decide +kernel

/-- A file of the sample notebook that is outside its directory. -/
private def outside : Path := [.rootDir, .normal ['q']]

/-- The sample notebook with a different file outside its directory. -/
private def moved : FileSystem := { linked (some (tocFile [])) with
  read := fun p => if p = outside then none else (linked (some (tocFile []))).read p }

/-- The hypotheses of `C32_confined_partial` hold for them, and the notebook is parsed. -/
example : moved.read outside ≠ (linked (some (tocFile []))).read outside ∧
    SameInside nb (linked (some (tocFile []))) moved ∧
    SameTocs nb (linked (some (tocFile []))) moved ∧
    (parseNotebook (linkedEnv (some (tocFile []))) 2 (nb ++ [.normal ['t']])).toOption.isSome := by
  have hread : ∀ p, p ≠ outside → (linked (some (tocFile []))).read p = moved.read p :=
    fun p hp => (if_neg hp).symm
  refine ⟨?_, ⟨fun _ _ => rfl, fun _ _ _ => rfl, fun _ _ => rfl, fun _ _ _ => rfl,
    fun p hp _ => hread p ?_⟩, fun p hp => hread p ?_, by decide +kernel⟩
  · rw [show moved.read outside = none by simp [moved],
      show (linked (some (tocFile []))).read outside = some (tocFile [(1, ['g'])]) by
        simp [linked, outside, groupToc, nb]]
    exact Option.some_ne_none _ ∘ Eq.symm
  · obtain ⟨names, _, _, rfl⟩ := hp
    simp [nb, outside]
  · obtain ⟨dir, stem, _, rfl, ⟨names, _, _, rfl⟩, _⟩ := hp
    simp [nb, outside]

end OneNote

#print axioms OneNote.C32_entry
#print axioms OneNote.C32_rejected
#print axioms OneNote.C32_accepted
#print axioms OneNote.C32_confined_partial
#print axioms OneNote.C32_group_toc_refuted
