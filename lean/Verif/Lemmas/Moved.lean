/-
Parsing a copy of a notebook.
-/
import Verif.Lemmas.SameDir
import Verif.Lemmas.Entries
import Verif.Spec.Moved

namespace OneNote.Moved

open Spec

/-- In both listings the same table of contents is found, or there is the same error. -/
def SameToc (l l' : List (Option Text)) : Prop :=
  ∀ d d' : Path, (∃ e, findToc d l = .error e ∧ findToc d' l' = .error e) ∨
    ∃ toc, findToc d l = .ok (d ++ [.normal toc]) ∧ findToc d' l' = .ok (d' ++ [.normal toc])

/-- The directories lead to the same tables of contents. -/
def SameTocs (fs fs' : FileSystem) (a a' : Path) : Prop :=
  ∀ names : List Text, names ≠ [] →
    (fs.readDir (a ++ names.map .normal) = none ∧ fs'.readDir (a' ++ names.map .normal) = none) ∨
    ∃ l l', fs.readDir (a ++ names.map .normal) = some l ∧
      fs'.readDir (a' ++ names.map .normal) = some l' ∧ SameToc l l'

theorem sameTocs_of_order {fs fs' : FileSystem} {a a' : Path} (h : SameOrder fs fs' a a') :
    SameTocs fs fs' a a' := by
  intro names hn
  rw [← h names hn]
  cases fs.readDir (a ++ names.map .normal) with
  | none => exact .inl ⟨rfl, rfl⟩
  | some l => exact .inr ⟨l, l, rfl, rfl, fun d d' => findToc_same d d' l⟩

theorem sameToc_of_one {l l' : List (Option Text)} (h : ∀ x, x ∈ l ↔ x ∈ l') (hn : none ∉ l)
    (ht : ∀ t t', some t ∈ l → some t' ∈ l → TocName t → TocName t' → t = t') : SameToc l l' := by
  intro d d'
  rcases listing_cases l with ⟨before, toc, after, rfl, hb, hto⟩ | ⟨before, after, rfl, hb⟩ | hb
  · refine .inr ⟨toc, findToc_first hb hto, ?_⟩
    rcases listing_cases l' with ⟨before', toc', after', rfl, hb', hto'⟩ | ⟨before', after', rfl, hb'⟩ | hb'
    · have := ht toc toc' (by simp) ((h _).2 (by simp)) hto hto'
      subst this
      exact findToc_first hb' hto
    · exact absurd ((h none).2 (by simp)) hn
    · obtain ⟨name, he, hx⟩ := hb' (some toc) ((h _).1 (by simp))
      cases he
      exact absurd hto hx
  · exact absurd (by simp) hn
  · refine .inl ⟨_, findToc_missing hb, findToc_missing fun x hx => hb x ((h x).2 hx)⟩

theorem sameTocs_of_one {fs fs' : FileSystem} {a a' k k' : Path} (h : Copied fs fs' a a' k k')
    (ho : OneToc fs a) : SameTocs fs fs' a a' := by
  intro names hn
  have hl := h.readDir names hn
  cases e : fs.readDir (a ++ names.map .normal) with
  | none =>
    cases e' : fs'.readDir (a' ++ names.map .normal) with
    | none => exact .inl ⟨rfl, rfl⟩
    | some l' => rw [e, e'] at hl; exact hl.elim
  | some l =>
    cases e' : fs'.readDir (a' ++ names.map .normal) with
    | none => rw [e, e'] at hl; exact hl.elim
    | some l' =>
      rw [e, e'] at hl
      obtain ⟨h1, h2⟩ := ho names l hn e
      exact .inr ⟨l, l', rfl, rfl, sameToc_of_one hl h1 h2⟩

theorem startsWith_iff {c k : Path} : c.startsWith k = true ↔ ∃ rest, c = k ++ rest := by
  unfold Path.startsWith
  rw [List.isPrefixOf_iff_prefix]
  exact ⟨fun ⟨r, hr⟩ => ⟨r, hr.symm⟩, fun ⟨r, hr⟩ => ⟨r, hr.symm⟩⟩

variable {fs fs' : FileSystem} {a a' k k' : Path}

/-- A path that exists is checked in the same way, and leads to a place inside when it is accepted. -/
theorem checkInside_moved (h : Copied fs fs' a a' k k') {names : List Text} (hn : names ≠ []) :
    (checkInside fs a (a ++ names.map .normal) = .error .invalidPath ∧
      checkInside fs' a' (a' ++ names.map .normal) = .error .invalidPath) ∨
    (checkInside fs a (a ++ names.map .normal) = .ok () ∧
      checkInside fs' a' (a' ++ names.map .normal) = .ok () ∧
      (fs.pathExists (a ++ names.map .normal) = true →
        ∃ r, fs.canonicalize (a ++ names.map .normal) = some (k ++ r))) := by
  unfold checkInside
  rw [h.location, h.location', ← h.pathExists names hn]
  cases hx : fs.pathExists (a ++ names.map .normal) with
  | false => exact .inr ⟨rfl, rfl, fun h => (nomatch h)⟩
  | true =>
    by_cases hr : ∃ r, fs.canonicalize (a ++ names.map .normal) = some (k ++ r)
    · obtain ⟨r, hr⟩ := hr
      have hr' := (h.resolved names r hn).1 hr
      rw [hr, hr']
      refine .inr ⟨?_, ?_, fun _ => ⟨r, rfl⟩⟩
      · exact if_pos (startsWith_iff.2 ⟨r, rfl⟩)
      · exact if_pos (startsWith_iff.2 ⟨r, rfl⟩)
    · have hr' : ¬ ∃ r, fs'.canonicalize (a' ++ names.map .normal) = some (k' ++ r) :=
        fun ⟨r, e⟩ => hr ⟨r, (h.resolved names r hn).2 e⟩
      have key : ∀ (f : FileSystem) (p q : Path),
          (¬ ∃ r, f.canonicalize p = some (q ++ r)) →
          ((do
            let candidateCanon ← orErr .invalidPath (f.canonicalize p)
            if candidateCanon.startsWith q then pure () else .error .invalidPath : Res Unit)
            = .error .invalidPath) := by
        intro f p q hne
        cases e : f.canonicalize p with
        | none => rfl
        | some c =>
          refine if_neg fun hs => hne ?_
          obtain ⟨r, rfl⟩ := startsWith_iff.1 hs
          exact ⟨r, e⟩
      exact .inl ⟨key fs _ k hr, key fs' _ k' hr'⟩

/-- The names are accepted in both places or in none. -/
def Resolves (fs fs' : FileSystem) (a a' k : Path) (names : List Text) (x y : Res Path) : Prop :=
  names ≠ [] ∧ x = .ok (a ++ names.map .normal) ∧ y = .ok (a' ++ names.map .normal) ∧
    (fs.pathExists (a ++ names.map .normal) = true →
      ∃ r, fs.canonicalize (a ++ names.map .normal) = some (k ++ r))

theorem resolve_moved (h : Copied fs fs' a a' k k') (sanitise : Text → Text) (entry : Text) :
    (∃ e, resolveEntryPath fs sanitise a entry = .error e ∧
      resolveEntryPath fs' sanitise a' entry = .error e) ∨
    ∃ names, Resolves fs fs' a a' k names (resolveEntryPath fs sanitise a entry)
      (resolveEntryPath fs' sanitise a' entry) := by
  unfold resolveEntryPath
  split
  · exact .inl ⟨_, rfl, rfl⟩
  · cases hp : (componentsOf entry).mapM (resolveComponent sanitise) with
    | error e => exact .inl ⟨e, rfl, rfl⟩
    | ok parts =>
      obtain ⟨names, hns, _⟩ := componentsOf_accepted hp
      show (∃ e, (if (parts.filterMap fun x => x).isEmpty then _ else
          checkInside fs a (a.join (parts.filterMap fun x => x)) >>= fun _ =>
            pure (a.join (parts.filterMap fun x => x))) = _ ∧
        (if (parts.filterMap fun x => x).isEmpty then _ else
          checkInside fs' a' (a'.join (parts.filterMap fun x => x)) >>= fun _ =>
            pure (a'.join (parts.filterMap fun x => x))) = _) ∨
        ∃ names, Resolves fs fs' a a' k names (if (parts.filterMap fun x => x).isEmpty then _ else
          checkInside fs a (a.join (parts.filterMap fun x => x)) >>= fun _ =>
            pure (a.join (parts.filterMap fun x => x)))
         (if (parts.filterMap fun x => x).isEmpty then _ else
          checkInside fs' a' (a'.join (parts.filterMap fun x => x)) >>= fun _ =>
            pure (a'.join (parts.filterMap fun x => x)))
      rw [hns]
      cases names with
      | nil => exact .inl ⟨_, rfl, rfl⟩
      | cons n ns =>
        rw [if_neg (by simp), if_neg (by simp)]
        unfold Path.join
        rcases checkInside_moved h (names := n :: ns) (by simp) with ⟨h1, h2⟩ | ⟨h1, h2, h3⟩
        · rw [h1, h2]
          exact .inl ⟨_, rfl, rfl⟩
        · rw [h1, h2]
          exact .inr ⟨n :: ns, by simp, rfl, rfl, h3⟩

theorem resolveAll_moved (h : Copied fs fs' a a' k k') (sanitise : Text → Text)
    (entries : List Text) :
    (∃ e, entries.mapM (resolveEntryPath fs sanitise a) = .error e ∧
      entries.mapM (resolveEntryPath fs' sanitise a') = .error e) ∨
    ∃ lists : List (List Text), (∀ names ∈ lists, names ≠ [] ∧
        (fs.pathExists (a ++ names.map .normal) = true →
          ∃ r, fs.canonicalize (a ++ names.map .normal) = some (k ++ r))) ∧
      entries.mapM (resolveEntryPath fs sanitise a) =
        .ok (lists.map fun names => a ++ names.map .normal) ∧
      entries.mapM (resolveEntryPath fs' sanitise a') =
        .ok (lists.map fun names => a' ++ names.map .normal) := by
  induction entries with
  | nil => exact .inr ⟨[], by simp, rfl, rfl⟩
  | cons entry entries ih =>
    rw [List.mapM_cons, List.mapM_cons]
    rcases resolve_moved h sanitise entry with ⟨e, h1, h2⟩ | ⟨names, hn, h1, h2, hr⟩
    · rw [h1, h2]; exact .inl ⟨e, rfl, rfl⟩
    · rcases ih with ⟨e, h3, h4⟩ | ⟨lists, hl, h3, h4⟩
      · rw [h1, h2, h3, h4]; exact .inl ⟨e, rfl, rfl⟩
      · rw [h1, h2, h3, h4]
        refine .inr ⟨names :: lists, fun x hx => ?_, rfl, rfl⟩
        rcases List.mem_cons.1 hx with rfl | hx
        · exact ⟨hn, hr⟩
        · exact hl x hx

/-- A directory inside of the copied one is copied, too. -/
theorem copied_below (h : Copied fs fs' a a' k k') {names : List Text} (hn : names ≠ []) {r : Path}
    (hr : fs.canonicalize (a ++ names.map .normal) = some (k ++ r)) :
    Copied fs fs' (a ++ names.map .normal) (a' ++ names.map .normal) (k ++ r) (k' ++ r) := by
  have hne : ∀ more : List Text, names ++ more ≠ [] := by simp [hn]
  refine ⟨hr, (h.resolved names r hn).1 hr, fun more rest _ => ?_, fun more _ => ?_, fun more _ => ?_,
    fun more _ => ?_, fun more _ => ?_⟩
  all_goals rw [List.append_assoc a, List.append_assoc a', ← List.map_append]
  · rw [List.append_assoc k, List.append_assoc k']
    exact h.resolved _ _ (hne more)
  · exact h.pathExists _ (hne more)
  · exact h.isFile _ (hne more)
  · exact h.read _ (hne more)
  · exact h.readDir _ (hne more)

theorem sameTocs_below (h : SameTocs fs fs' a a') {names : List Text} (hn : names ≠ []) :
    SameTocs fs fs' (a ++ names.map .normal) (a' ++ names.map .normal) := by
  intro more _
  rw [List.append_assoc, List.append_assoc, ← List.map_append]
  exact h _ (by simp [hn])

theorem keepEntry_moved {env env' : Env} (h : Copied env.fs env'.fs a a' k k') {names : List Text}
    (hn : names ≠ []) :
    keepEntry env (a ++ names.map .normal) = keepEntry env' (a' ++ names.map .normal) := by
  unfold keepEntry
  rw [h.pathExists names hn]
  have key : ∀ p : Path, Path.endsWith (p ++ names.map Component.normal) [.normal recycleBin] =
      decide (names.getLast hn = recycleBin) := by
    intro p
    rw [endsWith_single, getLast?_names p hn]
    simp
  rw [key a, key a']

theorem sectionFile_moved {env env' : Env} (h : Copied env.fs env'.fs a a' k k')
    (hord : env.ord = env'.ord) (hfuel : env.fuel = env'.fuel) {names : List Text} (hn : names ≠ []) :
    parseSectionFile env (a ++ names.map .normal) = parseSectionFile env' (a' ++ names.map .normal) := by
  unfold parseSectionFile
  rw [h.read names hn, fileName_names a hn, fileName_names a' hn, hord, hfuel]

/-- A copy of a notebook is read like the notebook. -/
theorem notebook_moved {env env' : Env} (hsan : env.sanitise = env'.sanitise)
    (hord : env.ord = env'.ord) (hfuel : env.fuel = env'.fuel) (n : Nat) {a a' k k' : Path}
    (h : Copied env.fs env'.fs a a' k k') (ht : SameTocs env.fs env'.fs a a') (name : Text) :
    parseNotebook env n (a ++ [.normal name]) = parseNotebook env' n (a' ++ [.normal name]) := by
  induction n generalizing a a' k k' name with
  | zero => rfl
  | succ n ih =>
    have hentry : ∀ names : List Text, names ≠ [] →
        (∃ r, env.fs.canonicalize (a ++ names.map .normal) = some (k ++ r)) →
        parseEntry (parseNotebook env n) env (a ++ names.map .normal) =
          parseEntry (parseNotebook env' n) env' (a' ++ names.map .normal) := by
      rintro names hn ⟨r, hr⟩
      unfold parseEntry
      rw [h.isFile names hn, sectionFile_moved h hord hfuel hn]
      split
      · rfl
      · congr 1
        unfold parseSectionGroup
        rw [fileName_names a hn, fileName_names a' hn]
        refine bind_congr' fun d _ => ?_
        rcases ht names hn with ⟨e1, e2⟩ | ⟨l, l', e1, e2, hl⟩
        · rw [e1, e2]
          rfl
        · rw [e1, e2]
          show (findToc _ l >>= _) = (findToc _ l' >>= _)
          rcases hl (a ++ names.map .normal) (a' ++ names.map .normal) with ⟨e, h1, h2⟩ | ⟨toc, h1, h2⟩
          · rw [h1, h2]
            rfl
          · rw [h1, h2]
            show (parseNotebook env n _ >>= _) = (parseNotebook env' n _ >>= _)
            rw [ih (copied_below h hn hr) (sameTocs_below ht hn) toc]
    unfold parseNotebook
    have hr := h.read [name] (by simp)
    simp only [List.map_cons, List.map_nil] at hr
    rw [hr, parent_name, parent_name, hord, hfuel, hsan]
    refine bind_congr' fun data _ => bind_congr' fun store _ => ?_
    split
    · rfl
    · show (parseToc env'.fuel store.dataRoot >>= _) = (parseToc env'.fuel store.dataRoot >>= _)
      refine bind_congr' fun r _ => ?_
      obtain ⟨entries, color⟩ := r
      simp only
      rcases resolveAll_moved h env'.sanitise entries with ⟨e, h1, h2⟩ | ⟨lists, hl, h1, h2⟩
      · rw [h1, h2]
        rfl
      · rw [h1, h2]
        show ((((lists.map fun names => a ++ names.map .normal)).filter (keepEntry env)).mapM
            (parseEntry (parseNotebook env n) env) >>= _) =
          (((lists.map fun names => a' ++ names.map .normal).filter (keepEntry env')).mapM
            (parseEntry (parseNotebook env' n) env') >>= _)
        congr 1
        rw [List.filter_map, List.filter_map, List.mapM_map, List.mapM_map]
        have hf : lists.filter (keepEntry env ∘ fun names => a ++ names.map .normal) =
            lists.filter (keepEntry env' ∘ fun names => a' ++ names.map .normal) :=
          List.filter_congr fun names hm => keepEntry_moved h (hl names hm).1
        rw [← hf]
        refine mapM_congr fun names hm => ?_
        obtain ⟨hm1, hm2⟩ := List.mem_filter.1 hm
        refine hentry names (hl names hm1).1 ((hl names hm1).2 ?_)
        unfold keepEntry at hm2
        simp only [Function.comp_apply, Bool.and_eq_true] at hm2
        exact hm2.1

end OneNote.Moved
