/-
C102: What is in the recycle bin is not shown. FALSE of the code: only entries whose last piece is the name
of the recycle bin, letter for letter, are left out.
-/
import Verif.Spec.RecycleBin
import Verif.Spec.SampleFile
import Verif.Lemmas.Path
import Verif.Lemmas.WholeNotebook
import Verif.Lemmas.Terminates
import Verif.Props.C89

namespace OneNote

open Spec

/-! ### Names that lead into a recycle bin -/

private theorem pieces_infix {name : Text} {ps : List Text} (h : Pieces name ps) {x : Text}
    (hx : x ∈ ps.dropLast) : (x ++ ['/']) <:+: name := by
  induction h with
  | last => cases hx
  | @slash p s ps _ hs ih =>
    cases ps with
    | nil => cases hs
    | cons q ps =>
      rw [List.dropLast_cons_cons] at hx
      rcases List.mem_cons.1 hx with rfl | hx
      · exact ⟨[], s, by simp⟩
      · obtain ⟨a, b, h⟩ := ih hx
        exact ⟨p ++ '/' :: a, b, by rw [← h]; simp⟩

private theorem filter_dropLast {α : Type} {f : α → Bool} {l : List α} {x : α}
    (h : x ∈ (l.filter f).dropLast) : x ∈ l.dropLast := by
  induction l with
  | nil => cases h
  | cons a l ih =>
    cases l with
    | nil =>
      rw [List.filter_cons] at h
      split at h <;> cases h
    | cons b l =>
      rw [List.dropLast_cons_cons]
      rw [List.filter_cons] at h
      split at h
      · cases hf : (b :: l).filter f with
        | nil => rw [hf] at h; cases h
        | cons c l' =>
          rw [hf, List.dropLast_cons_cons] at h
          rcases List.mem_cons.1 h with rfl | h
          · exact List.mem_cons_self ..
          · refine List.mem_cons_of_mem _ (ih ?_)
            rw [hf]
            exact h
      · exact List.mem_cons_of_mem _ (ih h)

/-- Where a name that avoids recycle bins leads. -/
private theorem resolve_avoids (sanitise : Text → Text) (base : Path) (name : Text)
    (hn : ¬ (binName ++ ['/']) <:+: name) (hb : Component.normal binName ∉ base) :
    (∀ fs, resolveEntryPath fs sanitise base name = .error .invalidPath) ∨
    ∃ p, Component.normal binName ∉ p.dropLast ∧ ∀ fs, resolveEntryPath fs sanitise base name =
      (checkInside fs base p >>= fun _ => pure p) := by
  rcases resolveEntryPath_eq sanitise base name with h | ⟨names, hne, _, h⟩
  · exact .inl h
  · refine .inr ⟨_, ?_, h⟩
    have h0 : resolveEntryPath ⟨fun _ => false, fun _ => false, fun _ => none, fun _ => none, fun _ => none⟩
        sanitise base name = .ok (base ++ names.map .normal) := by
      rw [h]
      rfl
    obtain ⟨pieces, hp, _, _, _, _, he, _⟩ := entryPath_iff.1 h0
    have he := List.append_cancel_left he
    rw [he, List.dropLast_append_of_ne_nil (by
      rw [← he]
      exact fun h => hne (List.map_eq_nil_iff.1 h)), ← List.map_dropLast]
    intro hm
    rcases List.mem_append.1 hm with hm | hm
    · exact hb hm
    · obtain ⟨x, hx, hxe⟩ := List.mem_map.1 hm
      cases hxe
      exact hn (pieces_infix hp (filter_dropLast hx))

private theorem kept_avoids {env : Env} {p : Path} (h : keepEntry env p = true)
    (hp : Component.normal binName ∉ p.dropLast) : Component.normal binName ∉ p := by
  intro hm
  unfold keepEntry at h
  have h2 := (Bool.and_eq_true_iff.1 h).2
  rcases List.eq_nil_or_concat p with rfl | ⟨q, c, rfl⟩
  · cases hm
  · rw [List.concat_eq_append] at hm hp h2
    rw [List.dropLast_concat] at hp
    rcases List.mem_append.1 hm with hm | hm
    · exact hp hm
    · cases List.mem_singleton.1 hm
      have : Path.endsWith (q ++ [.normal binName]) [.normal recycleBin] = true :=
        List.isSuffixOf_iff_suffix.2 ⟨q, by rw [show recycleBin = binName by decide]⟩
      rw [this] at h2
      cases h2

private theorem dropLast_avoids {p : Path} (h : Component.normal binName ∉ p) : ¬ InBin p :=
  fun hm => h (List.dropLast_subset p hm)

/-! ### The property -/

/-- **What holds**: if no name in a table of contents outside recycle bins contains
`OneNote_RecycleBin/`, then nothing in a
recycle bin has an influence on the notebook, or on the error. -/
theorem C102_partial (env : Env) (fs' : FileSystem) (hs : SameOutsideBins env.fs fs')
    (ha : AvoidsBins env) (n : Nat) (path base : Path) (hp : Path.parent path = some base)
    (hb : Component.normal binName ∉ base) :
    parseNotebook env n path = parseNotebook { env with fs := fs' } n path := by
  induction n generalizing path base with
  | zero => rfl
  | succ n ih =>
    have hpath : ¬ InBin path := by
      unfold Path.parent at hp
      split at hp
      · cases hp
      · cases hp
      · cases hp; exact hb
    unfold parseNotebook
    rw [← hs.read path hpath]
    refine bind_congr' fun data hd => bind_congr' fun store hst => ?_
    by_cases hsch : store.schema ≠ tocSchema
    · rw [if_pos hsch, if_pos hsch]
    rw [if_neg hsch, if_neg hsch, hp]
    refine bind_congr' fun d hd' => ?_
    cases hd'
    refine bind_congr' fun (names, color) hn => ?_
    have hnames : ∀ name ∈ names, ¬ (binName ++ ['/']) <:+: name := by
      refine ha path base names color hpath ⟨⟨data, store, ?_, hst, Decidable.of_not_not hsch, hn⟩, hp⟩
      cases hr : env.fs.read path with
      | none => rw [hr] at hd; cases hd
      | some x => rw [hr] at hd; cases hd; rfl
    have hres : ∀ name ∈ names, resolveEntryPath env.fs env.sanitise base name =
        resolveEntryPath fs' env.sanitise base name := by
      intro name hm
      rcases resolve_avoids env.sanitise base name (hnames name hm) hb with h | ⟨p, hpb, h⟩
      · rw [h, h]
      · rw [h, h]
        unfold checkInside
        rw [hs.pathExists p hpb, hs.canonicalize p hpb, hs.canonicalize base (dropLast_avoids hb)]
    show (names.mapM (resolveEntryPath env.fs env.sanitise base) >>= _) =
      (names.mapM (resolveEntryPath fs' env.sanitise base) >>= _)
    rw [← mapM_congr hres]
    refine bind_congr' fun paths hpaths => ?_
    have hpaths : ∀ p ∈ paths, Component.normal binName ∉ p.dropLast := by
      intro p hpm
      obtain ⟨name, hm, hx⟩ := each_mem (mapM_each.1 hpaths) hpm
      rcases resolve_avoids env.sanitise base name (hnames name hm) hb with h | ⟨q, hq, h⟩
      · rw [h] at hx; cases hx
      · rw [h] at hx
        obtain ⟨_, _, hx⟩ := Res.bind_ok hx
        cases hx
        exact hq
    have hkeep : paths.filter (keepEntry env) = paths.filter (keepEntry { env with fs := fs' }) := by
      refine List.filter_congr fun p hpm => ?_
      unfold keepEntry
      rw [hs.pathExists p (hpaths p hpm)]
    rw [← hkeep]
    refine congrArg (· >>= _) (mapM_congr fun p hpm => ?_)
    obtain ⟨hpm, hk⟩ := List.mem_filter.1 hpm
    have hpb := kept_avoids hk (hpaths p hpm)
    have hni := dropLast_avoids hpb
    unfold parseEntry
    rw [← hs.isFile p hni, parseSectionFile_congr env fs' p (hs.read p hni)]
    split
    · rfl
    · congr 1
      unfold parseSectionGroup
      refine bind_congr' fun name _ => ?_
      rw [← hs.readDir p hpb]
      refine bind_congr' fun listing _ => bind_congr' fun toc hf => ?_
      obtain ⟨stem, _, rfl, _⟩ := findToc_ok hf
      exact congrArg (· >>= _) (ih _ p (parent_join p _) hpb)

/-! ### A notebook with a recycle bin -/

namespace C102

private def base : Path := [.rootDir, .normal ['d']]
private def toc : Path := base ++ [.normal "x.onetoc2".toList]

/-- A directory with a table of contents, a section `s` and a recycle bin, in which there is a section `s`
if `there` is true. -/
private def disk (names : List (Nat × Text)) (there : Bool) : FileSystem where
  pathExists p := p == base || p == toc || p == base ++ [.normal ['s']] || p == base ++ [.normal binName] ||
    (there && p == base ++ [.normal binName, .normal ['s']])
  isFile p := p == toc || p == base ++ [.normal ['s']] ||
    (there && p == base ++ [.normal binName, .normal ['s']])
  canonicalize p := some p
  readDir p := if p = base ++ [.normal binName] then (if there then some [some ['s']] else some []) else none
  read p :=
    if p = toc then some (tocFile names)
    else if p = base ++ [.normal ['s']] then some (emptySectionFile none)
    else if there && p == base ++ [.normal binName, .normal ['s']] then some (emptySectionFile none)
    else none

private theorem same (names : List (Nat × Text)) (a b : Bool) :
    SameOutsideBins (disk names a) (disk names b) := by
  have hne : ∀ p, ¬ InBin p → (p == base ++ [.normal binName, .normal ['s']]) = false := by
    intro p hp
    refine beq_eq_false_iff_ne.2 ?_
    rintro rfl
    exact hp (by unfold InBin; decide)
  constructor
  · intro p hp
    unfold disk
    dsimp only
    rw [hne p hp, Bool.and_false, Bool.and_false]
  · intro p hp
    unfold disk
    dsimp only
    rw [hne p hp, Bool.and_false, Bool.and_false]
  · intro p _
    rfl
  · intro p hp
    unfold disk
    dsimp only
    rw [hne p hp, Bool.and_false, Bool.and_false]
  · intro p hp
    have : p ≠ base ++ [.normal binName] := by
      rintro rfl
      exact hp (by decide)
    unfold disk
    dsimp only
    rw [if_neg this, if_neg this]

/-- The number of entries of the notebook. -/
private def shown (fs : FileSystem) : Option Nat :=
  (parseNotebook ⟨fs, id, Order.id, 3⟩ 3 toc).toOption.map (·.entries.length)

private theorem shown_ok {fs : FileSystem} {k : Nat} (h : shown fs = some k) :
    ∃ nb, parseNotebook ⟨fs, id, Order.id, 3⟩ 3 toc = .ok nb ∧ nb.entries.length = k := by
  obtain ⟨nb, h1, h2⟩ := Option.map_eq_some_iff.1 h
  exact ⟨nb, toOption_some h1, h2⟩

/-- A table of contents that leads into the recycle bin. -/
private def into : List (Nat × Text) := [(1, binName ++ ['/', 's'])]

private theorem into_there : shown (disk into true) = some 1 := by decide +kernel
private theorem into_gone : shown (disk into false) = some 0 := by decide +kernel

/-- A table of contents that lists the recycle bin. -/
private def plain : List (Nat × Text) := [(1, ['s']), (2, binName)]

private theorem plain_there : shown (disk plain true) = some 1 := by decide +kernel

private theorem plain_lists : ((readStore Order.id (tocFile plain)).toOption.bind fun st =>
    if st.schema = tocSchema then (parseToc 3 st.dataRoot).toOption else none) =
      some ([['s'], binName], none) := by
  decide +kernel

private theorem section_schema : ((readStore Order.id (emptySectionFile none)).toOption.map fun st =>
    decide (st.schema = tocSchema)) = some false := by
  decide +kernel

private theorem not_section {store : Store} (h : readStore Order.id (emptySectionFile none) = .ok store) :
    store.schema ≠ tocSchema := by
  have := section_schema
  rw [h] at this
  exact of_decide_eq_false (Option.some.inj this)

private theorem plain_avoids (there : Bool) : AvoidsBins ⟨disk plain there, id, Order.id, 3⟩ := by
  intro path b names color _ ⟨⟨data, store, h1, h2, h3, h4⟩, _⟩
  have h1 : (disk plain there).read path = some data := h1
  unfold disk at h1
  dsimp only at h1
  split at h1
  · cases h1
    obtain ⟨st, g1, g2⟩ := Option.bind_eq_some_iff.1 plain_lists
    have h2 : readStore Order.id (tocFile plain) = .ok store := h2
    rw [toOption_some g1] at h2
    cases h2
    rw [if_pos h3] at g2
    have h4 : parseToc 3 store.dataRoot = .ok (names, color) := h4
    rw [toOption_some g2] at h4
    cases h4
    decide
  · split at h1
    · cases h1
      exact absurd h3 (not_section h2)
    · split at h1
      · cases h1
        exact absurd h3 (not_section h2)
      · cases h1

/-! ### A disk that ignores the case of letters -/

/-- The name of the recycle bin in small letters. -/
private def small : Text := "onenote_recyclebin".toList

private def fold (p : Path) : Path := p.map fun c => if c = .normal small then .normal binName else c

/-- A directory with a table of contents and a recycle bin, in which there are a table of contents and a
section `s`. -/
private def caseDisk : FileSystem where
  pathExists p := [base, toc, base ++ [.normal binName], base ++ [.normal binName, .normal ['s']],
    base ++ [.normal binName, .normal "y.onetoc2".toList]].contains (fold p)
  isFile p := [toc, base ++ [.normal binName, .normal ['s']],
    base ++ [.normal binName, .normal "y.onetoc2".toList]].contains (fold p)
  canonicalize p := some (fold p)
  readDir p := if fold p = base ++ [.normal binName] then some [some "y.onetoc2".toList, some ['s']] else none
  read p :=
    if p = toc then some (tocFile [(1, small)])
    else if fold p = base ++ [.normal binName, .normal "y.onetoc2".toList] then some (tocFile [(1, ['s'])])
    else if fold p = base ++ [.normal binName, .normal ['s']] then some (emptySectionFile none)
    else none

private theorem case_shown : shown caseDisk = some 1 := by decide +kernel

private theorem case_inside (p q : Path) (data : Bytes) (hr : caseDisk.read p = some data)
    (hc : caseDisk.canonicalize p = some q) (hp : p ≠ toc) : InBin q := by
  have hc : some (fold p) = some q := hc
  cases hc
  unfold caseDisk at hr
  dsimp only at hr
  rw [if_neg hp] at hr
  split at hr
  · rename_i h
    rw [h]
    unfold InBin
    decide
  · split at hr
    · rename_i h
      rw [h]
      unfold InBin
      decide
    · cases hr

end C102

/-- **The property is false**: two disks that differ only in what is in the recycle bin, with different
notebooks: the section in the recycle bin is shown, since the name in the table of contents leads to it. -/
theorem C102_refuted : ∃ (env : Env) (fs' : FileSystem) (n : Nat) (path base : Path) (nb nb' : Notebook),
    SameOutsideBins env.fs fs' ∧ Path.parent path = some base ∧ Component.normal binName ∉ base ∧
    parseNotebook env n path = .ok nb ∧ parseNotebook { env with fs := fs' } n path = .ok nb' ∧
    nb.entries.length = 1 ∧ nb'.entries.length = 0 := by
  obtain ⟨nb, h1, h2⟩ := C102.shown_ok C102.into_there
  obtain ⟨nb', h3, h4⟩ := C102.shown_ok C102.into_gone
  exact ⟨_, C102.disk C102.into false, 3, C102.toc, C102.base, nb, nb', C102.same _ _ _, rfl, by decide,
    h1, h3, h2, h4⟩

/-- **On a disk that ignores the case of letters** the recycle bin is shown as a section group if its name
is listed in small letters, although all files but the table of contents are in the recycle bin. -/
theorem C102_case_refuted : ∃ (env : Env) (n : Nat) (path base : Path) (nb : Notebook),
    Path.parent path = some base ∧ Component.normal binName ∉ base ∧
    (∀ p q data, env.fs.read p = some data → env.fs.canonicalize p = some q → p ≠ path → InBin q) ∧
    parseNotebook env n path = .ok nb ∧ nb.entries.length = 1 := by
  obtain ⟨nb, h1, h2⟩ := C102.shown_ok C102.case_shown
  exact ⟨_, 3, C102.toc, C102.base, nb, rfl, by decide, C102.case_inside, h1, h2⟩

/-- A notebook with a section in the recycle bin, which is listed: the other section is shown, and the
notebook is the same without the section in the recycle bin. -/
example : ∃ (env : Env) (fs' : FileSystem) (path base : Path) (nb : Notebook),
    SameOutsideBins env.fs fs' ∧ AvoidsBins env ∧ Path.parent path = some base ∧
    Component.normal binName ∉ base ∧ parseNotebook env 3 path = .ok nb ∧ nb.entries.length = 1 ∧
    (∃ p, InBin p ∧ env.fs.read p ≠ none ∧ fs'.read p = none) := by
  obtain ⟨nb, h1, h2⟩ := C102.shown_ok C102.plain_there
  refine ⟨_, C102.disk C102.plain false, C102.toc, C102.base, nb, C102.same _ _ _, C102.plain_avoids true,
    rfl, by decide, h1, h2, C102.base ++ [.normal binName, .normal ['s']], by unfold InBin; decide, ?_, ?_⟩
  · unfold C102.disk
    dsimp only
    rw [if_neg (by decide), if_neg (by decide), if_pos (by decide)]
    exact Option.some_ne_none _
  · unfold C102.disk
    dsimp only
    rw [if_neg (by decide), if_neg (by decide), if_neg (by decide)]

/-! ### On Windows -/

/-- **The same holds on Windows**: if two Windows disks have the same files as two disks that differ only in
recycle bins, and no backslashes and colons in names, the notebook is the same on both. -/
theorem C102_windows_partial (drive canon : Option Text) (env : Env) (fs' : FileSystem)
    (fsw fsw' : OneNote.Windows.WFileSystem)
    (hm : Spec.Windows.Mirrors drive canon env.fs fsw) (hm' : Spec.Windows.Mirrors drive canon fs' fsw')
    (hn : Spec.Windows.PortableNames env.fs) (hn' : Spec.Windows.PortableNames fs')
    (hs : SameOutsideBins env.fs fs') (ha : AvoidsBins env) (n : Nat) (path base : Path)
    (hpp : Spec.Windows.Portable path) (hp : Path.parent path = some base)
    (hb : Component.normal binName ∉ base) :
    Windows.parseNotebook ⟨fsw, env.sanitise, env.ord, env.fuel⟩ n (Spec.Windows.placed drive path) =
      Windows.parseNotebook ⟨fsw', env.sanitise, env.ord, env.fuel⟩ n (Spec.Windows.placed drive path) := by
  rw [C89_same_partial drive canon env fsw hm hn n path hpp, C102_partial env fs' hs ha n path base hp hb]
  exact (C89_same_partial drive canon { env with fs := fs' } fsw' hm' hn' n path hpp).symm

namespace C102

private theorem plain_portable (there : Bool) : Spec.Windows.PortableNames (disk plain there) where
  listed := by
    intro p names h
    unfold disk at h
    dsimp only at h
    split at h
    · split at h
      · cases h
        intro n hn
        cases List.mem_singleton.1 hn
        unfold Spec.Windows.PortableName
        decide
      · cases h
        intro n hn
        cases hn
    · cases h
  entries := by
    have h1 := PlainSamples.toc_plain plain (by decide +kernel)
      (PlainSamples.package_unambiguous (by decide +kernel) (by decide +kernel) (by decide +kernel))
    have h2 := PlainSamples.section_plain
    have c1 : C89.portableToc (tocFile plain) = true := by decide +kernel
    have c2 : C89.portableToc (emptySectionFile none) = true := by decide +kernel
    intro p data ns color h ht
    unfold disk at h
    dsimp only at h
    split at h
    · cases h; exact C89.portable_names h1 c1 ht
    split at h
    · cases h; exact C89.portable_names h2 c2 ht
    split at h
    · cases h; exact C89.portable_names h2 c2 ht
    · cases h

end C102

/-- The hypotheses of `C102_windows_partial` are met by the notebook above, copied to `C:`. -/
example : ∃ (drive canon : Option Text) (env : Env) (fs' : FileSystem)
    (fsw fsw' : OneNote.Windows.WFileSystem) (path base : Path) (nb : Notebook), Spec.Windows.Mirrors drive canon env.fs fsw ∧
    Spec.Windows.Mirrors drive canon fs' fsw' ∧ Spec.Windows.PortableNames env.fs ∧
    Spec.Windows.PortableNames fs' ∧ SameOutsideBins env.fs fs' ∧ AvoidsBins env ∧
    Spec.Windows.Portable path ∧ Path.parent path = some base ∧ Component.normal binName ∉ base ∧
    Windows.parseNotebook ⟨fsw, env.sanitise, env.ord, env.fuel⟩ 3 (Spec.Windows.placed drive path) = .ok nb ∧
    nb.entries.length = 1 := by
  obtain ⟨nb, h1, h2⟩ := C102.shown_ok C102.plain_there
  have hp : Spec.Windows.Portable C102.toc := by
    unfold Spec.Windows.Portable C102.toc C102.base Spec.Windows.PortableName
    simp
  refine ⟨_, _, ⟨C102.disk C102.plain true, id, Order.id, 3⟩, C102.disk C102.plain false, _, _, C102.toc,
    C102.base, nb, C89.copied_mirrors _, C89.copied_mirrors _, C102.plain_portable true,
    C102.plain_portable false, C102.same _ _ _, C102.plain_avoids true, hp, rfl, by decide, ?_, h2⟩
  exact (C89_same_partial _ _ ⟨C102.disk C102.plain true, id, Order.id, 3⟩ _ (C89.copied_mirrors _)
    (C102.plain_portable true) 3 C102.toc hp).trans h1

end OneNote

#print axioms OneNote.C102_partial
#print axioms OneNote.C102_windows_partial
#print axioms OneNote.C102_refuted
#print axioms OneNote.C102_case_refuted
