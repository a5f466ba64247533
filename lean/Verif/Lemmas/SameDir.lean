/-
Parsing a notebook through two paths for its directory.
-/
import Verif.Lemmas.Path
import Verif.Spec.SameDir

namespace OneNote

open Spec

/-- Both results are the same error, or paths with the same names below the two directories. -/
def SameNames (a b : Path) (x y : Res Path) : Prop :=
  (∃ e, x = .error e ∧ y = .error e) ∨
  ∃ names : List Text, names ≠ [] ∧ x = .ok (a ++ names.map .normal) ∧
    y = .ok (b ++ names.map .normal)

theorem checkInside_same {fs : FileSystem} {a b : Path} (h : SameDir fs a b) {names : List Text}
    (hn : names ≠ []) :
    checkInside fs a (a ++ names.map .normal) = checkInside fs b (b ++ names.map .normal) := by
  unfold checkInside
  rw [h.location, h.resolved names hn, h.pathExists names hn]

theorem resolveEntryPath_same {fs : FileSystem} {a b : Path} (h : SameDir fs a b)
    (sanitise : Text → Text) (entry : Text) :
    SameNames a b (resolveEntryPath fs sanitise a entry) (resolveEntryPath fs sanitise b entry) := by
  unfold resolveEntryPath
  split
  · exact .inl ⟨_, rfl, rfl⟩
  · cases hp : (componentsOf entry).mapM (resolveComponent sanitise) with
    | error e => exact .inl ⟨e, rfl, rfl⟩
    | ok parts =>
      obtain ⟨names, hns, _⟩ := componentsOf_accepted hp
      show SameNames a b
        (if (parts.filterMap fun x => x).isEmpty then _ else
          checkInside fs a (a.join (parts.filterMap fun x => x)) >>= fun _ =>
            pure (a.join (parts.filterMap fun x => x)))
        (if (parts.filterMap fun x => x).isEmpty then _ else
          checkInside fs b (b.join (parts.filterMap fun x => x)) >>= fun _ =>
            pure (b.join (parts.filterMap fun x => x)))
      rw [hns]
      cases names with
      | nil => exact .inl ⟨_, rfl, rfl⟩
      | cons n ns =>
        have hc := checkInside_same h (names := n :: ns) (by simp)
        rw [if_neg (by simp), if_neg (by simp)]
        unfold Path.join
        rw [hc]
        cases checkInside fs b (b ++ (n :: ns).map .normal) with
        | error e => exact .inl ⟨e, rfl, rfl⟩
        | ok _ => exact .inr ⟨n :: ns, by simp, rfl, rfl⟩

theorem resolveAll_same {fs : FileSystem} {a b : Path} (h : SameDir fs a b)
    (sanitise : Text → Text) (entries : List Text) :
    (∃ e, entries.mapM (resolveEntryPath fs sanitise a) = .error e ∧
      entries.mapM (resolveEntryPath fs sanitise b) = .error e) ∨
    ∃ lists : List (List Text), (∀ names ∈ lists, names ≠ []) ∧
      entries.mapM (resolveEntryPath fs sanitise a) =
        .ok (lists.map fun names => a ++ names.map .normal) ∧
      entries.mapM (resolveEntryPath fs sanitise b) =
        .ok (lists.map fun names => b ++ names.map .normal) := by
  induction entries with
  | nil => exact .inr ⟨[], by simp, rfl, rfl⟩
  | cons entry entries ih =>
    rw [List.mapM_cons, List.mapM_cons]
    rcases resolveEntryPath_same h sanitise entry with ⟨e, h1, h2⟩ | ⟨names, hn, h1, h2⟩
    · rw [h1, h2]; exact .inl ⟨e, rfl, rfl⟩
    · rcases ih with ⟨e, h3, h4⟩ | ⟨lists, hl, h3, h4⟩
      · rw [h1, h2, h3, h4]; exact .inl ⟨e, rfl, rfl⟩
      · rw [h1, h2, h3, h4]
        exact .inr ⟨names :: lists, by simpa using ⟨hn, hl⟩, rfl, rfl⟩

theorem sameDir_below {fs : FileSystem} {a b : Path} (h : SameDir fs a b) {names : List Text}
    (hn : names ≠ []) : SameDir fs (a ++ names.map .normal) (b ++ names.map .normal) := by
  have hne : ∀ more : List Text, names ++ more ≠ [] := by simp [hn]
  constructor
  · exact h.resolved names hn
  all_goals
    intro more _
    rw [List.append_assoc, List.append_assoc, ← List.map_append]
  · exact h.resolved _ (hne more)
  · exact h.pathExists _ (hne more)
  · exact h.isFile _ (hne more)
  · exact h.readDir _ (hne more)
  · exact h.read _ (hne more)

theorem getLast?_names (a : Path) {names : List Text} (hn : names ≠ []) :
    (a ++ names.map Component.normal).getLast? = some (.normal (names.getLast hn)) := by
  rw [List.getLast?_append, List.getLast?_map, List.getLast?_eq_some_getLast hn]
  rfl

theorem fileName_names (a : Path) {names : List Text} (hn : names ≠ []) :
    Path.fileName (a ++ names.map Component.normal) = some (names.getLast hn) := by
  unfold Path.fileName
  rw [getLast?_names a hn]

theorem parent_name (a : Path) (name : Text) : Path.parent (a ++ [.normal name]) = some a := by
  unfold Path.parent
  rw [List.getLast?_append]
  simp

theorem findToc_same (a b : Path) (names : List (Option Text)) :
    (∃ e, findToc a names = .error e ∧ findToc b names = .error e) ∨
    ∃ toc, findToc a names = .ok (a ++ [.normal toc]) ∧ findToc b names = .ok (b ++ [.normal toc]) := by
  induction names with
  | nil => exact .inl ⟨_, rfl, rfl⟩
  | cons x names ih =>
    cases x with
    | none => exact .inl ⟨_, rfl, rfl⟩
    | some name =>
      have hx : Path.extension (a ++ [.normal name]) = Path.extension (b ++ [.normal name]) := by
        unfold Path.extension
        have e1 := fileName_names a (names := [name]) (by simp)
        have e2 := fileName_names b (names := [name]) (by simp)
        simp only [List.map_cons, List.map_nil] at e1 e2
        rw [e1, e2]
      have ha : findToc a (some name :: names) =
          if Path.extension (a ++ [.normal name]) = some tocExtension
          then .ok (a ++ [.normal name]) else findToc a names := rfl
      have hb : findToc b (some name :: names) =
          if Path.extension (b ++ [.normal name]) = some tocExtension
          then .ok (b ++ [.normal name]) else findToc b names := rfl
      rw [ha, hb]
      by_cases he : Path.extension (b ++ [.normal name]) = some tocExtension
      · rw [if_pos he, if_pos (hx.trans he)]
        exact .inr ⟨name, rfl, rfl⟩
      · rw [if_neg he, if_neg (by rw [hx]; exact he)]
        exact ih

theorem keepEntry_same {env : Env} {a b : Path} (h : SameDir env.fs a b) {names : List Text}
    (hn : names ≠ []) :
    keepEntry env (a ++ names.map .normal) = keepEntry env (b ++ names.map .normal) := by
  unfold keepEntry
  rw [h.pathExists names hn]
  have key : ∀ p : Path, Path.endsWith (p ++ names.map Component.normal) [.normal recycleBin] =
      decide (names.getLast hn = recycleBin) := by
    intro p
    unfold Path.endsWith
    have hl := getLast?_names p hn
    rw [List.getLast?_eq_some_iff] at hl
    obtain ⟨q, hq⟩ := hl
    rw [hq, Bool.eq_iff_iff, List.isSuffixOf_iff_suffix, decide_eq_true_iff]
    constructor
    · rintro ⟨t, ht⟩
      have := (List.append_inj' ht rfl).2
      simpa using this.symm
    · intro h
      exact ⟨q, by rw [h]⟩
  rw [key a, key b]

theorem parseSectionFile_same {env : Env} {a b : Path} (h : SameDir env.fs a b) {names : List Text}
    (hn : names ≠ []) :
    parseSectionFile env (a ++ names.map .normal) = parseSectionFile env (b ++ names.map .normal) := by
  unfold parseSectionFile
  rw [h.read names hn, fileName_names a hn, fileName_names b hn]

/-- The notebook does not depend on which of two paths for its directory is used. -/
theorem parseNotebook_same (env : Env) (n : Nat) (a b : Path) (name : Text)
    (h : SameDir env.fs a b) :
    parseNotebook env n (a ++ [.normal name]) = parseNotebook env n (b ++ [.normal name]) := by
  induction n generalizing a b name with
  | zero => rfl
  | succ n ih =>
    have hentry : ∀ names : List Text, names ≠ [] →
        parseEntry (parseNotebook env n) env (a ++ names.map .normal) =
          parseEntry (parseNotebook env n) env (b ++ names.map .normal) := by
      intro names hn
      unfold parseEntry
      rw [h.isFile names hn, parseSectionFile_same h hn]
      split
      · rfl
      · congr 1
        unfold parseSectionGroup
        rw [fileName_names a hn, fileName_names b hn, h.readDir names hn]
        refine bind_congr' fun d _ => bind_congr' fun ns _ => ?_
        rcases findToc_same (a ++ names.map .normal) (b ++ names.map .normal) ns with
          ⟨e, h1, h2⟩ | ⟨toc, h1, h2⟩
        · rw [h1, h2]
        · rw [h1, h2]
          show (parseNotebook env n _ >>= _) = (parseNotebook env n _ >>= _)
          rw [ih _ _ toc (sameDir_below h hn)]
    unfold parseNotebook
    have hr := h.read [name] (by simp)
    simp only [List.map_cons, List.map_nil] at hr
    rw [hr, parent_name, parent_name]
    refine bind_congr' fun data _ => bind_congr' fun store _ => ?_
    split
    · rfl
    · show (parseToc env.fuel store.dataRoot >>= _) = (parseToc env.fuel store.dataRoot >>= _)
      refine bind_congr' fun r _ => ?_
      obtain ⟨entries, color⟩ := r
      simp only
      rcases resolveAll_same h env.sanitise entries with ⟨e, h1, h2⟩ | ⟨lists, hl, h1, h2⟩
      · rw [h1, h2]
      · rw [h1, h2]
        show ((((lists.map fun names => a ++ names.map .normal)).filter (keepEntry env)).mapM
            (parseEntry (parseNotebook env n) env) >>= _) =
          (((lists.map fun names => b ++ names.map .normal).filter (keepEntry env)).mapM
            (parseEntry (parseNotebook env n) env) >>= _)
        congr 1
        rw [List.filter_map, List.filter_map, List.mapM_map, List.mapM_map]
        have hf : lists.filter (keepEntry env ∘ fun names => a ++ names.map .normal) =
            lists.filter (keepEntry env ∘ fun names => b ++ names.map .normal) :=
          List.filter_congr fun names hm => keepEntry_same h (hl names hm)
        rw [hf]
        exact mapM_congr fun names hm => hentry names (hl names (List.mem_filter.1 hm).1)

end OneNote
