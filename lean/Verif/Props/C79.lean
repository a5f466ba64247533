/-
C79: Damage to one section does not affect the other sections. FALSE of the code: nothing is shown of
a notebook if one of its section files cannot be read.
-/
import Verif.Props.C78

namespace OneNote

open Spec Edited

/-- **Everything is lost**: whenever one of the section files of a notebook, at any depth, is replaced
by something that is not read as a section (it may be cut off, empty or deleted in the meantime), the
result for the notebook is an error. Nothing of the other sections is shown. -/
theorem C79_all_lost (env : Env) (files : Path → Option Bytes) (p : Path) (n : Nat) (path : Path)
    (nb : Notebook) (_h : parseNotebook env n path = .ok nb) (es : List Located)
    (hes : Opens env path es nb.color) (hf : Located.HasFile p es)
    (hr : ∀ q, q ≠ p → files q = env.fs.read q) (e : Err)
    (hd : parseSectionFile (withFiles env files) p = .error e) (k : Nat) :
    ∃ e', parseNotebook (withFiles env files) k path = .error e' := by
  cases hk : parseNotebook (withFiles env files) k path with
  | error e' => exact ⟨e', rfl⟩
  | ok nb' =>
    obtain ⟨es', ho', -⟩ := opens_of_parse _ k path nb' hk
    have hp : ∃ s0, parseSectionFile env p = .ok s0 := hasFile_read hes hf
    obtain ⟨s0, hp⟩ := hp
    obtain ⟨s, hs⟩ := opens_file hr hp hes ho' hf
    rw [hs] at hd
    cases hd

/-- **What holds**: a section file that the tables of contents do not lead to may be damaged, and
(`C78`) the other sections are as before if what is in the file can still be read as a section. -/
theorem C79_partial (env : Env) (files : Path → Option Bytes) (p : Path) (n : Nat) (path : Path)
    (nb : Notebook) (_h : parseNotebook env n path = .ok nb) (es : List Located)
    (hes : Opens env path es nb.color) (hne : Located.entries es = nb.entries)
    (hf : ¬ Located.HasFile p es) (s : Section) (hp : parseSectionFile env p = .ok s)
    (hr : ∀ q, q ≠ p → files q = env.fs.read q) :
    ∃ m, ∀ k, m ≤ k → parseNotebook (withFiles env files) k path = .ok nb := by
  obtain ⟨m, hm⟩ := parse_of_opens (opens_other hr hp hes hf)
  refine ⟨m, fun k hk => ?_⟩
  rw [hm k hk, hne]

/-! ### A notebook with two sections, one of them damaged -/

private def disk (second third : Bytes) : FileSystem where
  pathExists p := decide (p ≠ [.rootDir, .normal ['u']])
  isFile _ := true
  canonicalize := some
  readDir _ := some []
  read p :=
    if p = [.rootDir, .normal ['t']] then some (tocFile [(1, ['r']), (2, ['s'])])
    else if p = [.rootDir, .normal ['s']] then some second
    else if p = [.rootDir, .normal ['u']] then some third
    else some (emptySectionFile none)

private def env (second third : Bytes) : Env := ⟨disk second third, id, Order.id, 3⟩

private def names (nb : Notebook) : List Text :=
  nb.entries.map fun
    | .section s => s.displayName
    | .sectionGroup g => g.displayName

private def whole : Bytes := emptySectionFile none

private theorem disk_toc : ((readStore Order.id (tocFile [(1, ['r']), (2, ['s'])])).toOption.bind fun st =>
    if st.schema = tocSchema then (parseToc 3 st.dataRoot).toOption else none) =
      some ([['r'], ['s']], none) := by
  decide +kernel

private theorem disk_contents (second third : Bytes) :
    Contents (env second third) [.rootDir, .normal ['t']] [.rootDir] [['r'], ['s']] none := by
  obtain ⟨st, h1, h2⟩ := Option.bind_eq_some_iff.1 disk_toc
  split at h2
  · next hs => exact ⟨⟨_, st, rfl, toOption_some h1, hs, toOption_some h2⟩, rfl⟩
  · cases h2

/-- The notebook with the sections `r` and `s`. -/
private theorem disk_opens : ∃ s s' : Section, s.displayName = ['r'] ∧ s'.displayName = ['s'] ∧
    Opens (env whole whole) [.rootDir, .normal ['t']]
      [.file [.rootDir, .normal ['r']] s, .file [.rootDir, .normal ['s']] s'] none := by
  have h1 : (parseSectionFile (env whole whole) [.rootDir, .normal ['r']]).toOption.map
      Section.displayName = some ['r'] := by decide +kernel
  have h2 : (parseSectionFile (env whole whole) [.rootDir, .normal ['s']]).toOption.map
      Section.displayName = some ['s'] := by decide +kernel
  obtain ⟨s, hs, e⟩ := Option.map_eq_some_iff.1 h1
  obtain ⟨s', hs', e'⟩ := Option.map_eq_some_iff.1 h2
  refine ⟨s, s', e, e', .mk (disk_contents _ _)
    (paths := [[.rootDir, .normal ['r']], [.rootDir, .normal ['s']]])
    (.cons ?_ (.cons ?_ .nil)) ?_⟩
  · decide +kernel
  · decide +kernel
  · have hk : Kept (env whole whole).fs [[.rootDir, .normal ['r']], [.rootDir, .normal ['s']]] =
        [[.rootDir, .normal ['r']], [.rootDir, .normal ['s']]] := by decide +kernel
    rw [hk]
    exact .cons (.file rfl (toOption_some hs)) (.cons (.file rfl (toOption_some hs')) .nil)

/-- **Refuted**: a notebook with the sections `r` and `s` is shown. When the last byte of the file of
`s` is missing, `r` is not shown either. -/
theorem C79_refuted : ∃ (env : Env) (files : Path → Option Bytes) (path p : Path) (data : Bytes)
    (nb : Notebook), (∃ n, parseNotebook env n path = .ok nb) ∧ names nb = [['r'], ['s']] ∧
    p.fileName = some ['s'] ∧ env.fs.read p = some data ∧ files p = some data.dropLast ∧
    (∀ q, q ≠ p → files q = env.fs.read q) ∧
    ∀ k, ∃ e, parseNotebook (withFiles env files) k path = .error e := by
  obtain ⟨s, s', h1, h2, ho⟩ := disk_opens
  obtain ⟨n, hn⟩ := parse_of_opens ho
  have hf : ∀ q, q ≠ [.rootDir, .normal ['s']] →
      (disk whole.dropLast whole).read q = (env whole whole).fs.read q := by
    intro q hq
    show (disk whole.dropLast whole).read q = (disk whole whole).read q
    unfold disk
    dsimp only
    rw [if_neg hq, if_neg hq]
  have hd : ∃ e, parseSectionFile (withFiles (env whole whole) (disk whole.dropLast whole).read)
      [.rootDir, .normal ['s']] = .error e := by
    have : (parseSectionFile (withFiles (env whole whole) (disk whole.dropLast whole).read)
      [.rootDir, .normal ['s']]).toOption.isNone = true := by decide +kernel
    generalize parseSectionFile _ _ = x at this ⊢
    cases x with
    | error e => exact ⟨e, rfl⟩
    | ok s => cases this
  obtain ⟨e, hd⟩ := hd
  refine ⟨env whole whole, (disk whole.dropLast whole).read, _, [.rootDir, .normal ['s']], whole, _,
    ⟨n, hn n (Nat.le_refl n)⟩, ?_, rfl, rfl, rfl, hf,
    C79_all_lost (env whole whole) _ _ n _ _ (hn n (Nat.le_refl n)) _ ho (.later .here) hf e hd⟩
  show [s.displayName, s'.displayName] = _
  rw [h1, h2]

/-- The file `u` is a section file that is not listed: it may be damaged. -/
example : ∃ (env : Env) (files : Path → Option Bytes) (p path : Path) (n : Nat) (nb : Notebook)
    (es : List Located) (s : Section), parseNotebook env n path = .ok nb ∧ Opens env path es nb.color ∧
    Located.entries es = nb.entries ∧ ¬ Located.HasFile p es ∧ parseSectionFile env p = .ok s ∧
    (∀ q, q ≠ p → files q = env.fs.read q) ∧ files p = some [] ∧ nb.entries.length = 2 := by
  obtain ⟨s, s', h1, h2, ho⟩ := disk_opens
  obtain ⟨n, hn⟩ := parse_of_opens ho
  have hu : (parseSectionFile (env whole whole) [.rootDir, .normal ['u']]).toOption.map
      Section.displayName = some ['u'] := by decide +kernel
  obtain ⟨u, hu, -⟩ := Option.map_eq_some_iff.1 hu
  refine ⟨env whole whole, (disk whole []).read, [.rootDir, .normal ['u']], _, n, _, _, u,
    hn n (Nat.le_refl n), ho, rfl, ?_, toOption_some hu, fun q hq => ?_, rfl, rfl⟩
  · intro h
    cases h with
    | later h => cases h with
      | later h => cases h
  · show (disk whole []).read q = (disk whole whole).read q
    unfold disk
    dsimp only
    rw [if_neg hq, if_neg hq]

#print axioms C79_all_lost
#print axioms C79_partial
#print axioms C79_refuted

end OneNote
