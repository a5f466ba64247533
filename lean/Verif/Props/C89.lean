/-
C89: A notebook is the same on Windows and on other systems.

False: a backslash in the table of contents separates directories on Windows only. True if there are no
backslashes and colons in the names.
-/
import Verif.Lemmas.WindowsNotebook
import Verif.Lemmas.Terminates
import Verif.Lemmas.PlainSamples
import Verif.Spec.SampleFile

namespace OneNote

open Spec Spec.Windows OneNote.Windows

/-- **What holds**: copy a notebook without backslashes and colons in its names to a Windows disk, to the
same place on any drive. It is then read the same there, also if it cannot be read. -/
theorem C89_same_partial (drive canon : Option Text) (env : Env) (fsw : WFileSystem)
    (hm : Mirrors drive canon env.fs fsw) (hn : PortableNames env.fs) (n : Nat) (path : Path)
    (hp : Portable path) :
    Windows.parseNotebook ⟨fsw, env.sanitise, env.ord, env.fuel⟩ n (placed drive path) =
      parseNotebook env n path :=
  notebook_placed hm hn n hp

/-- Sections are read the same as well. -/
theorem C89_section_partial (drive canon : Option Text) (env : Env) (fsw : WFileSystem)
    (hm : Mirrors drive canon env.fs fsw) (path : Path) (hp : Portable path) :
    Windows.parseSectionFile ⟨fsw, env.sanitise, env.ord, env.fuel⟩ (placed drive path) =
      parseSectionFile env path :=
  section_placed hm hp

/-! ### Disks with the same files -/

/-- The Windows path without the drive, on Unix. -/
def C89.back : WComponent → Component
  | .rootDir => .rootDir
  | .curDir => .curDir
  | .parentDir => .parentDir
  | .normal n => .normal n
  | .prefixed _ => .curDir

theorem C89.back_on (p : Path) : (p.map onWindows).map C89.back = p := by
  induction p with
  | nil => rfl
  | cons c p ih => cases c <;> simp [onWindows, C89.back, ih]

/-- The Windows disk with the files of `fs` on the drive `C:`. -/
def C89.copied (fs : FileSystem) : WFileSystem where
  pathExists p := fs.pathExists ((p.drop 1).map C89.back)
  isFile p := fs.isFile ((p.drop 1).map C89.back)
  canonicalize p := (fs.canonicalize ((p.drop 1).map C89.back)).map (placed (some ['C', ':']))
  readDir p := fs.readDir ((p.drop 1).map C89.back)
  read p := fs.read ((p.drop 1).map C89.back)

theorem C89.copied_mirrors (fs : FileSystem) :
    Mirrors (some ['C', ':']) (some ['C', ':']) fs (C89.copied fs) := by
  have e : ∀ p : Path, ((placed (some ['C', ':']) p).drop 1).map C89.back = p := C89.back_on
  constructor <;> intro p _ <;> simp only [C89.copied, e]

private def toc : Path := [.rootDir, .normal ['t']]

/-- The notebook `t` with this entry, and the section file `g/s`. -/
private def disk (entry : Text) : FileSystem where
  pathExists p := decide (p ∈ [toc, [.rootDir, .normal ['g'], .normal ['s']], [.rootDir, .normal ['g']]])
  isFile p := decide (p ∈ [toc, [.rootDir, .normal ['g'], .normal ['s']]])
  canonicalize := some
  readDir _ := none
  read p :=
    if p = toc then some (tocFile [(1, entry)])
    else if p = [.rootDir, .normal ['g'], .normal ['s']] then some (emptySectionFile none)
    else none

private def names (nb : Notebook) : List Text :=
  nb.entries.map fun
    | .section s => s.displayName
    | .sectionGroup g => g.displayName

/-- A sanitiser that removes backslashes. -/
private def dropBackslashes (t : Text) : Text := t.filter (· ≠ '\\')

private def entry : Text := ['g', '\\', 's']

private theorem windows_shows :
    (Windows.parseNotebook ⟨C89.copied (disk entry), dropBackslashes, Order.id, 2⟩ 3
      (placed (some ['C', ':']) toc)).toOption.map names = some [['s']] := by
  decide +kernel

private theorem unix_error :
    (parseNotebook ⟨disk entry, dropBackslashes, Order.id, 2⟩ 3 toc).isOk = false := by
  decide +kernel

/-- **Refuted**: with the entry `g\s` of the table of contents, and a sanitiser that removes backslashes,
the notebook shows the section `s` on Windows, and is an error elsewhere although the files are the same. -/
theorem C89_refuted : ∃ (drive : Option Text) (fs : FileSystem) (fsw : WFileSystem)
    (sanitise : Text → Text) (path : Path) (nb : Notebook) (e : Err),
    Mirrors drive drive fs fsw ∧ Portable path ∧
    Windows.parseNotebook ⟨fsw, sanitise, Order.id, 2⟩ 3 (placed drive path) = .ok nb ∧
    names nb = [['s']] ∧ parseNotebook ⟨fs, sanitise, Order.id, 2⟩ 3 path = .error e := by
  obtain ⟨nb, hn, he⟩ := Option.map_eq_some_iff.1 windows_shows
  cases hu : parseNotebook ⟨disk entry, dropBackslashes, Order.id, 2⟩ 3 toc with
  | ok _ =>
    have h := unix_error
    rw [hu] at h
    cases h
  | error e =>
    exact ⟨_, disk entry, C89.copied (disk entry), dropBackslashes, toc, nb, e, C89.copied_mirrors _,
      by unfold Portable toc PortableName; simp, toOption_some hn, he, hu⟩

private theorem unix_empty :
    (parseNotebook ⟨disk entry, id, Order.id, 2⟩ 3 toc).toOption.map names = some [] := by
  decide +kernel

private theorem windows_shows' :
    (Windows.parseNotebook ⟨C89.copied (disk entry), id, Order.id, 2⟩ 3
      (placed (some ['C', ':']) toc)).toOption.map names = some [['s']] := by
  decide +kernel

/-- Without the sanitiser it would be shown empty. -/
theorem C89_refuted_without_sanitiser : ∃ (drive : Option Text) (fs : FileSystem) (fsw : WFileSystem)
    (path : Path) (nb nb' : Notebook), Mirrors drive drive fs fsw ∧ Portable path ∧
    Windows.parseNotebook ⟨fsw, id, Order.id, 2⟩ 3 (placed drive path) = .ok nb ∧ names nb = [['s']] ∧
    parseNotebook ⟨fs, id, Order.id, 2⟩ 3 path = .ok nb' ∧ names nb' = [] := by
  obtain ⟨nb, hn, he⟩ := Option.map_eq_some_iff.1 windows_shows'
  obtain ⟨nb', hn', he'⟩ := Option.map_eq_some_iff.1 unix_empty
  exact ⟨_, disk entry, C89.copied (disk entry), toc, nb, nb', C89.copied_mirrors _,
    by unfold Portable toc PortableName; simp, toOption_some hn, he, toOption_some hn', he'⟩

/-! ### A notebook that is the same -/

/-- The names of a table of contents are without backslashes and colons. -/
def C89.portableToc (data : Bytes) : Bool :=
  match readStore Order.id data with
  | .ok s => s.schema ≠ tocFileSchema || match parseToc 3 s.dataRoot with
    | .ok (ns, _) => ns.all fun n => decide ('\\' ∉ n ∧ ':' ∉ n)
    | .error _ => false
  | .error _ => false

theorem C89.portable_names {data : Bytes} (hp : PlainFile data) (hc : C89.portableToc data = true)
    {ns : List Text} {color : Option Color} (h : TocFile data ns color) : ∀ n ∈ ns, PortableName n := by
  obtain ⟨store, hst, hsch, htoc⟩ := h
  obtain ⟨store', hs', e⟩ := readStore_complete hp hst Order.id
  obtain ⟨k, hk⟩ := is_toc htoc
  unfold C89.portableToc at hc
  rw [hs'] at hc
  dsimp only at hc
  rw [← e.schema, hsch] at hc
  rw [← toc_same e.dataRoot] at hc
  simp only [ne_eq, not_true_eq_false, decide_false, Bool.false_or] at hc
  cases ht : parseToc 3 store.dataRoot with
  | error _ => rw [ht] at hc; cases hc
  | ok x =>
    rw [ht] at hc
    obtain ⟨ns', color'⟩ := x
    obtain ⟨k', hk'⟩ := is_toc (toc_is ht)
    have e1 := hk (k + k') (by omega)
    rw [hk' (k + k') (by omega)] at e1
    cases e1
    intro n hn
    have : '\\' ∉ n ∧ ':' ∉ n := of_decide_eq_true (List.all_eq_true.1 hc n hn)
    exact this

private theorem disk_portable : PortableNames (disk ['g', '/', 's']) where
  listed := fun _ _ h => nomatch h
  entries := by
    have h1 := PlainSamples.toc_plain [(1, ['g', '/', 's'])] (by decide +kernel)
      (PlainSamples.package_unambiguous (by decide +kernel) (by decide +kernel) (by decide +kernel))
    have h2 := PlainSamples.section_plain
    have c1 : C89.portableToc (tocFile [(1, ['g', '/', 's'])]) = true := by decide +kernel
    have c2 : C89.portableToc (emptySectionFile none) = true := by decide +kernel
    intro p data ns color h ht
    unfold disk at h
    dsimp only at h
    split at h
    · cases h; exact C89.portable_names h1 c1 ht
    split at h
    · cases h; exact C89.portable_names h2 c2 ht
    · cases h

/-- With the entry `g/s` the notebook is the same, and shows the section. -/
example : ∃ (drive : Option Text) (env : Env) (fsw : WFileSystem) (path : Path) (nb : Notebook),
    Mirrors drive drive env.fs fsw ∧ PortableNames env.fs ∧ Portable path ∧
    parseNotebook env 3 path = .ok nb ∧ names nb = [['s']] := by
  have h : (parseNotebook ⟨disk ['g', '/', 's'], id, Order.id, 2⟩ 3 toc).toOption.map names =
      some [['s']] := by
    decide +kernel
  obtain ⟨nb, hn, he⟩ := Option.map_eq_some_iff.1 h
  exact ⟨_, ⟨disk ['g', '/', 's'], id, Order.id, 2⟩, C89.copied (disk ['g', '/', 's']), toc, nb,
    C89.copied_mirrors _, disk_portable, by unfold Portable toc PortableName; simp, toOption_some hn, he⟩

#print axioms C89_same_partial
#print axioms C89_section_partial
#print axioms C89_refuted
#print axioms C89_refuted_without_sanitiser

end OneNote
