/-
The same notebook on Windows.
-/
import Verif.Lemmas.Windows
import Verif.Lemmas.Whole

namespace OneNote.Windows

open Spec Spec.Windows

theorem splitSlash_chars {s p : Text} (h : p ∈ splitSlash s) : ∀ c ∈ p, c ∈ s := by
  induction s generalizing p with
  | nil =>
    simp [splitSlash] at h
    simp [h]
  | cons c s ih =>
    unfold splitSlash at h
    split at h
    · rcases List.mem_cons.1 h with rfl | h
      · simp
      · exact fun x hx => .tail _ (ih h x hx)
    · split at h
      · rename_i hs
        exact absurd hs (splitSlash_ne_nil s)
      · rename_i q qs hs
        rw [hs] at ih
        rcases List.mem_cons.1 h with rfl | h
        · intro x hx
          rcases List.mem_cons.1 hx with rfl | hx
          · exact .head _
          · exact .tail _ (ih (.head _) x hx)
        · exact fun x hx => .tail _ (ih (.tail _ h) x hx)

theorem component_portable {s n : Text} (hs : PortableName s) (h : .normal n ∈ OneNote.componentsOf s) :
    PortableName n := by
  have hp : Component.normal n ∈ (splitSlash s).filterMap OneNote.pieceOf := by
    unfold OneNote.componentsOf at h
    dsimp only at h
    split at h
    · rcases List.mem_cons.1 h with h | h
      · cases h
      · exact h
    · split at h
      · rcases List.mem_cons.1 h with h | h
        · cases h
        · exact h
      · exact h
  obtain ⟨p, hm, he⟩ := List.mem_filterMap.1 hp
  have e : p = n := by
    unfold OneNote.pieceOf at he
    split at he
    · cases he
    · split at he
      · cases he
      · split at he
        · cases he
        · cases he
          rfl
  subst e
  exact ⟨fun hx => hs.1 (splitSlash_chars hm _ hx), fun hx => hs.2 (splitSlash_chars hm _ hx)⟩

theorem onWindows_inj {a b : Component} (h : onWindows a = onWindows b) : a = b := by
  cases a <;> cases b <;> cases h <;> rfl

theorem isPrefixOf_map (a b : Path) :
    (b.map onWindows).isPrefixOf (a.map onWindows) = b.isPrefixOf a := by
  induction b generalizing a with
  | nil => rfl
  | cons x b ih =>
    cases a with
    | nil => rfl
    | cons y a =>
      simp only [List.map_cons, List.isPrefixOf, ih]
      congr 1
      rw [Bool.eq_iff_iff, beq_iff_eq, beq_iff_eq]
      exact ⟨onWindows_inj, congrArg _⟩

theorem startsWith_placed (d : Option Text) (a b : Path) :
    WPath.startsWith (placed d a) (placed d b) = Path.startsWith a b := by
  unfold WPath.startsWith Path.startsWith placed
  cases d with
  | none => exact isPrefixOf_map a b
  | some t =>
    show ((WComponent.prefixed t == WComponent.prefixed t) && _) = _
    simp only [BEq.rfl, Bool.true_and]
    exact isPrefixOf_map a b

theorem placed_append (d : Option Text) (p : Path) (q : Path) :
    placed d (p ++ q) = placed d p ++ q.map onWindows := by
  unfold placed
  simp

theorem join_placed (d : Option Text) (p q : Path) :
    WPath.join (placed d p) (q.map onWindows) = placed d (p.join q) := by
  unfold Path.join
  rw [placed_append]
  cases q with
  | nil => rfl
  | cons c q => cases c <;> rfl

theorem portable_append {p q : Path} (h : Portable p) (h' : Portable q) : Portable (p ++ q) := by
  intro n hn
  rcases List.mem_append.1 hn with hn | hn
  · exact h n hn
  · exact h' n hn

section
variable {drive canon : Option Text} {fs : FileSystem} {fsw : WFileSystem}
  (hm : Mirrors drive canon fs fsw)
include hm

theorem checkInside_placed {base p : Path} (hb : Portable base) (hp : Portable p) :
    checkInside fsw (placed drive base) (placed drive p) = OneNote.checkInside fs base p := by
  unfold checkInside OneNote.checkInside
  rw [hm.pathExists p hp, hm.canonicalize base hb, hm.canonicalize p hp]
  split
  · cases fs.canonicalize base with
    | none => rfl
    | some b =>
      cases fs.canonicalize p with
      | none => rfl
      | some c =>
        show (if WPath.startsWith (placed canon c) (placed canon b) = true then _ else _) = _
        rw [startsWith_placed]
        rfl
  · rfl

/-- An entry with portable names leads to the same place. -/
theorem resolve_placed {sanitise : Text → Text} {base : Path} {entry : Text} (hb : Portable base)
    (he : PortableName entry) :
    resolveEntryPath fsw sanitise (placed drive base) entry =
      placed drive <$> OneNote.resolveEntryPath fs sanitise base entry := by
  by_cases hr : entry.head? = some '/'
  · rw [resolve_slash hr]
    unfold OneNote.resolveEntryPath
    rw [if_pos (by unfold OneNote.isAbsolute; simpa using hr)]
    rfl
  · unfold resolveEntryPath OneNote.resolveEntryPath
    have h1 : isAbsolute entry = false := by
      unfold isAbsolute
      rw [no_prefix he hr]
    have h2 : OneNote.isAbsolute entry = false := by
      unfold OneNote.isAbsolute
      simpa using hr
    rw [h1, h2, components_portable he hr, fold_portable fun n hn => no_drive (component_portable he hn).2]
    simp only [Bool.false_eq_true, if_false]
    cases hp : (OneNote.componentsOf entry).mapM (OneNote.resolveComponent sanitise) with
    | error e => rfl
    | ok parts =>
      show (if (List.map onWindows (parts.filterMap fun x => x)).isEmpty = true then _ else
          (checkInside fsw (placed drive base) (WPath.join (placed drive base)
              (List.map onWindows (parts.filterMap fun x => x))) >>= fun _ =>
            pure (WPath.join (placed drive base) (List.map onWindows (parts.filterMap fun x => x))))) =
        placed drive <$> (if (parts.filterMap fun x => x).isEmpty = true then _ else _)
      have hport : Portable (parts.filterMap fun x => x) := by
        intro n hn
        obtain ⟨part, hpart, e⟩ := List.mem_filterMap.1 hn
        subst e
        obtain ⟨c, hc, hx⟩ := each_mem (mapM_each.1 hp) hpart
        cases c with
        | normal m =>
          unfold OneNote.resolveComponent at hx
          dsimp only at hx
          split at hx
          · cases hx
          · cases hx
            exact component_portable he hc
        | curDir => cases hx
        | parentDir => cases hx
        | rootDir => cases hx
      generalize (parts.filterMap fun x => x) = sanitized at hport
      rw [List.isEmpty_map]
      split
      · rfl
      · rw [join_placed, checkInside_placed hm hb (p := base.join sanitized) (portable_append hb hport)]
        show _ = placed drive <$> (OneNote.checkInside fs base (base.join sanitized) >>= _)
        cases OneNote.checkInside fs base (base.join sanitized) <;> rfl

end

/-- The path of an entry with portable names is portable. -/
theorem resolve_portable {fs : FileSystem} {sanitise : Text → Text} {base p : Path} {entry : Text}
    (hb : Portable base) (he : PortableName entry)
    (h : OneNote.resolveEntryPath fs sanitise base entry = .ok p) : Portable p := by
  unfold OneNote.resolveEntryPath at h
  split at h
  · cases h
  obtain ⟨parts, hp, h⟩ := Res.bind_ok_iff.1 h
  dsimp only at h
  split at h
  · cases h
  obtain ⟨_, -, h⟩ := Res.bind_ok_iff.1 h
  cases h
  refine portable_append hb fun n hn => ?_
  obtain ⟨part, hpart, e⟩ := List.mem_filterMap.1 hn
  subst e
  obtain ⟨c, hc, hx⟩ := each_mem (mapM_each.1 hp) hpart
  cases c with
  | normal m =>
    unfold OneNote.resolveComponent at hx
    dsimp only at hx
    split at hx
    · cases hx
    · cases hx
      exact component_portable he hc
  | curDir => cases hx
  | parentDir => cases hx
  | rootDir => cases hx

/-! ### Notebooks -/

theorem getLast_placed (d : Option Text) (p : Path) :
    (placed d p).getLast? = (p.getLast?.map onWindows).or (d.map .prefixed) := by
  unfold placed
  rw [List.getLast?_append, List.getLast?_map]
  cases d <;> rfl

theorem fileName_placed (d : Option Text) (p : Path) : WPath.fileName (placed d p) = p.fileName := by
  unfold WPath.fileName Path.fileName
  rw [getLast_placed]
  cases p.getLast? with
  | none => cases d <;> rfl
  | some c => cases c <;> rfl

theorem parent_placed (d : Option Text) (p : Path) :
    WPath.parent (placed d p) = p.parent.map (placed d) := by
  unfold WPath.parent Path.parent
  rw [getLast_placed]
  cases h : p.getLast? with
  | none => cases d <;> rfl
  | some c =>
    have hne : p ≠ [] := by
      intro e
      subst e
      cases h
    have key : (placed d p).dropLast = placed d p.dropLast := by
      unfold placed
      rw [List.dropLast_append_of_ne_nil (by simpa using hne), List.map_dropLast]
    cases c <;> first | rfl | exact congrArg some key

theorem endsWith_placed (d : Option Text) (p : Path) (name : Text) :
    WPath.endsWith (placed d p) [.normal name] = p.endsWith [.normal name] := by
  have h1 : WPath.endsWith (placed d p) [.normal name] =
      decide ((placed d p).getLast? = some (.normal name)) := by
    unfold WPath.endsWith
    rw [Bool.eq_iff_iff, List.isSuffixOf_iff_suffix, decide_eq_true_iff, List.getLast?_eq_some_iff]
    constructor
    · rintro ⟨t, ht⟩
      exact ⟨t, ht.symm⟩
    · rintro ⟨t, ht⟩
      exact ⟨t, ht.symm⟩
  have h2 : p.endsWith [.normal name] = decide (p.getLast? = some (.normal name)) := by
    unfold Path.endsWith
    rw [Bool.eq_iff_iff, List.isSuffixOf_iff_suffix, decide_eq_true_iff, List.getLast?_eq_some_iff]
    constructor
    · rintro ⟨t, ht⟩
      exact ⟨t, ht.symm⟩
    · rintro ⟨t, ht⟩
      exact ⟨t, ht.symm⟩
  rw [h1, h2, getLast_placed]
  cases p.getLast? with
  | none => cases d <;> simp
  | some c => cases c <;> simp [onWindows]

theorem findToc_placed (d : Option Text) (dir : Path) (names : List (Option Text)) :
    findToc (placed d dir) names = placed d <$> OneNote.findToc dir names := by
  induction names with
  | nil => rfl
  | cons x names ih =>
    cases x with
    | none => rfl
    | some n =>
      unfold findToc OneNote.findToc
      have e : placed d dir ++ [.normal n] = placed d (dir.join [.normal n]) := by
        unfold Path.join
        rw [placed_append]
        rfl
      dsimp only
      rw [e]
      have hx : WPath.extension (placed d (dir.join [.normal n])) =
          Path.extension (dir.join [.normal n]) := by
        unfold WPath.extension Path.extension
        rw [fileName_placed]
      rw [hx]
      split
      · rfl
      · exact ih

theorem findToc_portable {dir p : Path} {names : List (Option Text)} (hd : Portable dir)
    (hn : ∀ n, some n ∈ names → PortableName n) (h : OneNote.findToc dir names = .ok p) : Portable p := by
  induction names with
  | nil => cases h
  | cons x names ih =>
    cases x with
    | none => cases h
    | some n =>
      unfold OneNote.findToc at h
      dsimp only at h
      split at h
      · cases h
        refine portable_append hd fun m hm => ?_
        rw [List.mem_singleton] at hm
        cases hm
        exact hn n (.head _)
      · exact ih (fun n h => hn n (.tail _ h)) h

/-- The same call of the parser on Windows. -/
def atWindows (env : Env) (fsw : WFileSystem) : WEnv := ⟨fsw, env.sanitise, env.ord, env.fuel⟩

section
variable {drive canon : Option Text} {env : Env} {fsw : WFileSystem}
  (hm : Mirrors drive canon env.fs fsw)
include hm

theorem section_placed {p : Path} (hp : Portable p) :
    parseSectionFile (atWindows env fsw) (placed drive p) = OneNote.parseSectionFile env p := by
  unfold parseSectionFile OneNote.parseSectionFile atWindows
  dsimp only
  rw [hm.read p hp, fileName_placed]

omit hm in
theorem mapM_placed {α : Type} {f : WPath → Res α} {g : Path → Res α} {ps : List Path}
    (h : ∀ p ∈ ps, f (placed drive p) = g p) : (ps.map (placed drive)).mapM f = ps.mapM g := by
  rw [List.mapM_map]
  exact mapM_congr h

theorem filter_placed {ps : List Path} (h : ∀ p ∈ ps, Portable p) :
    (ps.map (placed drive)).filter (keepEntry (atWindows env fsw)) =
      (ps.filter (OneNote.keepEntry env)).map (placed drive) := by
  induction ps with
  | nil => rfl
  | cons p ps ih =>
    have e : keepEntry (atWindows env fsw) (placed drive p) = OneNote.keepEntry env p := by
      unfold keepEntry OneNote.keepEntry
      rw [endsWith_placed]
      show (fsw.pathExists _ && _) = _
      rw [hm.pathExists p (h p (.head _))]
    rw [List.map_cons, List.filter_cons, List.filter_cons, e, ih fun q hq => h q (.tail _ hq)]
    split <;> rfl

/-- The notebook is the same on Windows. -/
theorem notebook_placed (hn : PortableNames env.fs) (n : Nat) {path : Path} (hp : Portable path) :
    parseNotebook (atWindows env fsw) n (placed drive path) = OneNote.parseNotebook env n path := by
  induction n generalizing path with
  | zero => rfl
  | succ n ih =>
    unfold parseNotebook OneNote.parseNotebook
    rw [show (atWindows env fsw).fs.read (placed drive path) = env.fs.read path from hm.read path hp]
    cases hr : env.fs.read path with
    | none => rfl
    | some data =>
      show (readStore env.ord data >>= _) = (readStore env.ord data >>= _)
      cases hs : readStore env.ord data with
      | error e => rfl
      | ok store =>
        show (if store.schema ≠ tocSchema then _ else _) = (if store.schema ≠ tocSchema then _ else _)
        split
        · rfl
        rename_i hschema
        rw [parent_placed]
        cases hpar : path.parent with
        | none => rfl
        | some base =>
          show (parseToc env.fuel store.dataRoot >>= _) = (parseToc env.fuel store.dataRoot >>= _)
          cases ht : parseToc env.fuel store.dataRoot with
          | error e => rfl
          | ok x =>
            obtain ⟨names, color⟩ := x
            have hnames : ∀ m ∈ names, PortableName m :=
              hn.entries path data names color hr ⟨store, readStore_sound hs,
                Classical.byContradiction hschema, toc_is ht⟩
            have hb : Portable base := by
              intro m hm'
              refine hp m ?_
              unfold Path.parent at hpar
              split at hpar
              · cases hpar
              · cases hpar
              · cases hpar
                exact List.dropLast_subset _ hm'
            show (names.mapM (resolveEntryPath fsw env.sanitise (placed drive base)) >>= _) =
              (names.mapM (OneNote.resolveEntryPath env.fs env.sanitise base) >>= _)
            have e1 : names.mapM (resolveEntryPath fsw env.sanitise (placed drive base)) =
                (List.map (placed drive)) <$>
                  names.mapM (OneNote.resolveEntryPath env.fs env.sanitise base) := by
              rw [mapM_congr fun m hx => resolve_placed hm hb (hnames m hx)]
              clear ht hnames
              induction names with
              | nil => rfl
              | cons m names ih =>
                rw [List.mapM_cons, List.mapM_cons, ih]
                cases OneNote.resolveEntryPath env.fs env.sanitise base m with
                | error e => rfl
                | ok p =>
                  cases names.mapM (OneNote.resolveEntryPath env.fs env.sanitise base) <;> rfl
            rw [e1]
            cases hps : names.mapM (OneNote.resolveEntryPath env.fs env.sanitise base) with
            | error e => rfl
            | ok paths =>
              have hports : ∀ p ∈ paths, Portable p := by
                intro p hx
                obtain ⟨m, h1, h2⟩ := each_mem (mapM_each.1 hps) hx
                exact resolve_portable hb (hnames m h1) h2
              show (((paths.map (placed drive)).filter (keepEntry (atWindows env fsw))).mapM
                  (parseEntry (parseNotebook (atWindows env fsw) n) (atWindows env fsw)) >>= _) =
                ((paths.filter (OneNote.keepEntry env)).mapM
                  (OneNote.parseEntry (OneNote.parseNotebook env n) env) >>= _)
              rw [filter_placed hm hports,
                mapM_placed (g := OneNote.parseEntry (OneNote.parseNotebook env n) env)]
              intro p hx
              have hpp := hports p (List.mem_filter.1 hx).1
              unfold parseEntry OneNote.parseEntry
              rw [show (atWindows env fsw).fs.isFile (placed drive p) = env.fs.isFile p from hm.isFile p hpp,
                section_placed hm hpp]
              split
              · rfl
              · suffices hg : parseSectionGroup (parseNotebook (atWindows env fsw) n) (atWindows env fsw)
                    (placed drive p) = OneNote.parseSectionGroup (OneNote.parseNotebook env n) env p by
                  rw [hg]
                unfold parseSectionGroup OneNote.parseSectionGroup
                rw [fileName_placed,
                  show (atWindows env fsw).fs.readDir (placed drive p) = env.fs.readDir p
                    from hm.readDir p hpp]
                cases p.fileName with
                | none => rfl
                | some name =>
                  cases hd : env.fs.readDir p with
                  | none => rfl
                  | some listed =>
                    show (findToc (placed drive p) listed >>= _) = (OneNote.findToc p listed >>= _)
                    rw [findToc_placed]
                    cases hf : OneNote.findToc p listed with
                    | error e => rfl
                    | ok toc =>
                      show (parseNotebook (atWindows env fsw) n (placed drive toc) >>= _) =
                        (OneNote.parseNotebook env n toc >>= _)
                      rw [ih (findToc_portable hpp (hn.listed p listed hd) hf)]

end

end OneNote.Windows
