/-
Notebooks from the bytes of their files.
-/
import Verif.Lemmas.Whole
import Verif.Lemmas.Toc
import Verif.Lemmas.Fuel
import Verif.Props.C32
import Verif.Props.C35
import Verif.Props.C47
import Verif.Props.C33

namespace OneNote

open Spec Spec.StoreContents Spec.Document Spec.Toc

/-! ### Paths of entries -/

theorem pieces_split (s : Text) : Pieces s (splitSlash s) := by
  generalize hn : s.length = n
  induction n using Nat.strongRecOn generalizing s with
  | ind n ih =>
    by_cases h : '/' ∈ s
    · obtain ⟨a, b, rfl, ha⟩ := List.eq_append_cons_of_mem h
      rw [splitSlash_slash, splitSlash_piece a ha]
      exact .slash ha (ih b.length (by rw [← hn]; simp; omega) b rfl)
    · rw [splitSlash_piece s h]
      exact .last h

theorem pieces_unique {s : Text} {ps : List Text} (h : Pieces s ps) : ps = splitSlash s := by
  induction h with
  | last h => rw [splitSlash_piece _ h]
  | slash h _ ih => rw [splitSlash_slash, splitSlash_piece _ h, ih]; rfl

/-- The components of a relative name are its pieces. -/
theorem resolve_pieces {sanitise : Text → Text} {ps : List Text} {parts : List (Option Component)} :
    (ps.filterMap pieceOf).mapM (resolveComponent sanitise) = .ok parts ↔
      ['.', '.'] ∉ ps ∧ (∀ n ∈ ps, n ≠ [] → n ≠ ['.'] → sanitise n = n) ∧
      parts = (ps.filter fun n => decide (n ≠ [] ∧ n ≠ ['.'])).map (fun n => some (.normal n)) := by
  induction ps generalizing parts with
  | nil =>
    constructor
    · intro h
      cases h
      exact ⟨List.not_mem_nil, fun n hn => absurd hn List.not_mem_nil, rfl⟩
    · rintro ⟨-, -, rfl⟩
      rfl
  | cons p ps ih =>
    by_cases h1 : p = []
    · subst h1
      rw [List.filterMap_cons_none (show pieceOf [] = none from rfl), ih]
      simp
    by_cases h2 : p = ['.']
    · subst h2
      rw [List.filterMap_cons_none (show pieceOf ['.'] = none from rfl), ih]
      simp
    by_cases h3 : p = ['.', '.']
    · subst h3
      rw [List.filterMap_cons_some (show pieceOf ['.', '.'] = some .parentDir from rfl), mapM_cons_ok]
      constructor
      · rintro ⟨_, _, h, -⟩
        cases h
      · rintro ⟨h, -⟩
        exact absurd (List.mem_cons_self ..) h
    · have hp : pieceOf p = some (.normal p) := by
        unfold pieceOf
        rw [if_neg h1, if_neg h2, if_neg h3]
      have hf : (p :: ps).filter (fun n => decide (n ≠ [] ∧ n ≠ ['.'])) =
          p :: ps.filter fun n => decide (n ≠ [] ∧ n ≠ ['.']) :=
        List.filter_cons_of_pos (by simp [h1, h2])
      rw [List.filterMap_cons_some hp, mapM_cons_ok, hf, List.map_cons]
      have hr : ∀ x, resolveComponent sanitise (.normal p) = .ok x ↔
          sanitise p = p ∧ x = some (.normal p) := by
        intro x
        unfold resolveComponent
        by_cases h : sanitise p = p <;> simp [h, eq_comm]
      constructor
      · rintro ⟨x, xs, hx, hxs, rfl⟩
        obtain ⟨hs, rfl⟩ := (hr x).1 hx
        obtain ⟨a, b, rfl⟩ := ih.1 hxs
        refine ⟨?_, ?_, rfl⟩
        · rw [List.mem_cons, not_or]
          exact ⟨fun h => h3 h.symm, a⟩
        · intro n hn
          rcases List.mem_cons.1 hn with rfl | hn
          · exact fun _ _ => hs
          · exact b n hn
      · rintro ⟨a, b, rfl⟩
        rw [List.mem_cons, not_or] at a
        exact ⟨_, _, (hr _).2 ⟨b p (List.mem_cons_self ..) h1 h2, rfl⟩,
          ih.2 ⟨a.2, fun n hn => b n (List.mem_cons_of_mem _ hn), rfl⟩, rfl⟩

theorem checkInside_iff {fs : FileSystem} {base p : Path} :
    checkInside fs base p = .ok () ↔ (fs.pathExists p = true → Inside fs base p) := by
  refine ⟨checkInside_ok, fun h => ?_⟩
  unfold checkInside
  split
  · rename_i he
    obtain ⟨b, c, rest, hb, hc, hr⟩ := h he
    rw [hb, hc]
    show (if Path.startsWith c b = true then _ else _) = _
    rw [if_pos]
    · rfl
    · unfold Path.startsWith
      rw [hr, List.isPrefixOf_iff_prefix]
      exact ⟨rest, rfl⟩
  · rfl

/-- Which names lead to which paths. -/
theorem entryPath_iff {fs : FileSystem} {sanitise : Text → Text} {base : Path} {name : Text}
    {p : Path} : resolveEntryPath fs sanitise base name = .ok p ↔ EntryPath fs sanitise base name p := by
  have habs : isAbsolute name = true ↔ name.head? = some '/' := by simp [isAbsolute]
  have hcomp : name.head? ≠ some '/' → ∀ parts : List (Option Component),
      ((componentsOf name).mapM (resolveComponent sanitise) = .ok parts →
        ['.', '.'] ∉ splitSlash name ∧
        (∀ n ∈ splitSlash name, n ≠ [] → n ≠ ['.'] → sanitise n = n) ∧
        parts.filterMap (fun x => x) =
          ((splitSlash name).filter fun n => decide (n ≠ [] ∧ n ≠ ['.'])).map .normal) := by
    intro ha parts h
    unfold componentsOf at h
    simp only at h
    rw [if_neg (fun h => ha (habs.1 h))] at h
    split at h
    · obtain ⟨x, xs, hx, hxs, rfl⟩ := mapM_cons_ok.1 h
      cases hx
      obtain ⟨a, b, rfl⟩ := resolve_pieces.1 hxs
      exact ⟨a, b, by simp [List.filterMap_map, Function.comp_def]⟩
    · obtain ⟨a, b, rfl⟩ := resolve_pieces.1 h
      exact ⟨a, b, by simp [List.filterMap_map, Function.comp_def]⟩
  have hcomp' : name.head? ≠ some '/' → ['.', '.'] ∉ splitSlash name →
      (∀ n ∈ splitSlash name, n ≠ [] → n ≠ ['.'] → sanitise n = n) →
      ∃ parts : List (Option Component),
        (componentsOf name).mapM (resolveComponent sanitise) = .ok parts := by
    intro ha h1 h2
    have := (resolve_pieces (sanitise := sanitise)).2 ⟨h1, h2, rfl⟩
    unfold componentsOf
    simp only
    rw [if_neg (fun h => ha (habs.1 h))]
    split
    · exact ⟨_, mapM_cons_ok.2 ⟨none, _, rfl, this, rfl⟩⟩
    · exact ⟨_, this⟩
  have hne : ∀ l : List Text, (l.filter fun n => decide (n ≠ [] ∧ n ≠ ['.'])).map Component.normal ≠ [] ↔
      ∃ n ∈ l, n ≠ [] ∧ n ≠ ['.'] := by
    intro l
    rw [ne_eq, List.map_eq_nil_iff, List.filter_eq_nil_iff]
    simp
  constructor
  · intro h
    unfold resolveEntryPath at h
    split at h
    · cases h
    · rename_i ha
      have ha : name.head? ≠ some '/' := fun h => ha (habs.2 h)
      obtain ⟨parts, hp, h⟩ := Res.bind_ok h
      simp only at h
      split at h
      · cases h
      · rename_i hs
        obtain ⟨u, hc, h⟩ := Res.bind_ok h
        cases h
        obtain ⟨a, b, e⟩ := hcomp ha parts hp
        rw [e] at hs hc ⊢
        refine ⟨_, pieces_split name, ha, a, (hne _).1 fun h => hs (by rw [h]; rfl), b, rfl, ?_⟩
        exact checkInside_iff.1 hc
  · rintro ⟨pieces, hp, ha, h1, h2, h3, rfl, hi⟩
    cases pieces_unique hp
    obtain ⟨parts, hparts⟩ := hcomp' ha h1 h3
    obtain ⟨-, -, e⟩ := hcomp ha parts hparts
    unfold resolveEntryPath
    rw [if_neg (fun h => ha (habs.1 h)), hparts]
    show (if (parts.filterMap fun x => x).isEmpty then _ else _) = _
    rw [e, if_neg]
    · show (checkInside fs base (base ++ _) >>= fun _ => pure (base ++ _)) = _
      rw [checkInside_iff.2 hi]
      rfl
    · intro h
      exact (hne _).2 h2 (List.isEmpty_iff.1 h)

/-! ### Files -/

theorem parent_iff {path base : Path} :
    Path.parent path = some base ↔ ∃ last, last ≠ .rootDir ∧ path = base ++ [last] := by
  unfold Path.parent
  constructor
  · intro h
    split at h
    · cases h
    · cases h
    · rename_i c hc hl
      cases h
      obtain ⟨ys, rfl⟩ := List.getLast?_eq_some_iff.1 hl
      exact ⟨c, fun h => hc h, by simp⟩
  · rintro ⟨last, hl, rfl⟩
    rw [List.getLast?_append]
    cases last <;> first | exact absurd rfl hl | simp

theorem toc_is {fuel : Nat} {space : ObjectSpace} {names : List Text} {color : Option Color}
    (h : parseToc fuel space = .ok (names, color)) : TocIs space names color := by
  unfold parseToc at h
  obtain ⟨root, hr, h⟩ := Res.bind_ok h
  obtain ⟨e, he, h⟩ := Res.bind_ok h
  cases h
  obtain ⟨o, t, ho, ht, hc⟩ := parseTocEntry_color he
  exact ⟨root, e.entries, sortByKey e.entries, o, t, orErr_ok.1 hr, parseTocEntry_tree space fuel root e he,
    sortByKey_spec _, tocNames_spec _, ho, ht, hc⟩

theorem is_toc {space : ObjectSpace} {names : List Text} {color : Option Color}
    (h : TocIs space names color) : ∃ fuel, ∀ more, fuel ≤ more →
      parseToc more space = .ok (names, color) := by
  obtain ⟨root, entries, sorted, o, t, hr, htree, hs, hn, ho, ht, rfl⟩ := h
  obtain ⟨fuel, color, hf⟩ := C33_complete space root entries sorted names hr htree hs hn
  obtain ⟨root', -, -, o', t', hr', -, -, -, ho', ht', rfl⟩ := toc_is (hf 0)
  rw [hr] at hr'
  cases hr'
  have e : o = o' := Option.some.inj (ho.symm.trans ho')
  subst e
  have e := TocContainer.parse_iff.2 ht
  rw [TocContainer.parse_iff.2 ht'] at e
  cases e
  refine ⟨fuel, fun more hm => ?_⟩
  have := hf (more - fuel)
  rwa [show fuel + (more - fuel) = more by omega] at this

theorem sectionFile_ok {env : Env} {path : Path} {s : Section} :
    parseSectionFile env path = .ok s ↔ ∃ data name, env.fs.read path = some data ∧
      path.getLast? = some (.normal name) ∧ parseSectionBuffer env.fuel env.ord data name = .ok s := by
  unfold parseSectionFile parseSectionBuffer
  simp only [Res.bind_ok_iff, orErr_ok]
  constructor
  · rintro ⟨data, hd, store, hs, h⟩
    split at h
    · cases h
    · rename_i hc
      obtain ⟨name, hn, h⟩ := Res.bind_ok_iff.1 h
      exact ⟨data, name, hd, fileName_some.1 (orErr_ok.1 hn), store, hs, by rw [if_neg hc]; exact h⟩
  · rintro ⟨data, name, hd, hn, store, hs, h⟩
    refine ⟨data, hd, store, hs, ?_⟩
    split at h
    · cases h
    · rename_i hc
      rw [if_neg hc]
      exact Res.bind_ok_iff.2 ⟨name, orErr_ok.2 (fileName_some.2 hn), h⟩

theorem sectionAt_sound {env : Env} {path : Path} {s : Section}
    (h : parseSectionFile env path = .ok s) : SectionAt env.fs path s := by
  obtain ⟨data, name, hd, hn, h⟩ := sectionFile_ok.1 h
  exact ⟨data, name, hd, hn, C47_section_sound _ _ _ _ _ h⟩

theorem plainPart_read {fs : FileSystem} {path : Path} {data : Bytes} :
    (plainPart fs).read path = some data ↔ fs.read path = some data ∧ PlainFile data := by
  unfold plainPart
  simp only [Option.filter_eq_some_iff, decide_eq_true_eq]

theorem plainPart_eq {fs : FileSystem} (h : PlainFiles fs) : plainPart fs = fs := by
  have : (fun path => (plainPart fs).read path) = fs.read := by
    funext path
    cases hr : fs.read path with
    | none =>
      cases hp : (plainPart fs).read path with
      | none => rfl
      | some d => rw [(plainPart_read.1 hp).1] at hr; cases hr
    | some d => exact plainPart_read.2 ⟨hr, h path d hr⟩
  exact congrArg (fun r => { fs with read := r }) this

theorem sectionAt_complete {fs : FileSystem} {sanitise : Text → Text} {path : Path} {s : Section}
    (h : SectionAt (plainPart fs) path s) : ∃ fuel, ∀ more, fuel ≤ more → ∀ ord,
      parseSectionFile ⟨fs, sanitise, ord, more⟩ path = .ok s := by
  obtain ⟨data, name, hd, hn, h⟩ := h
  obtain ⟨hd, hp⟩ := plainPart_read.1 hd
  obtain ⟨fuel, hf⟩ := C47_section_complete data name s hp h
  refine ⟨fuel, fun more hm ord => sectionFile_ok.2 ⟨data, name, hd, hn, ?_⟩⟩
  exact refines_ok (refines_buffer hm ord data name) (hf ord)

theorem notebook_sound {env : Env} {n : Nat} {path : Path} {nb : Notebook}
    (h : parseNotebook env n path = .ok nb) : NotebookIs env.fs env.sanitise path nb := by
  induction n generalizing path nb with
  | zero => cases h
  | succ n ih =>
    obtain ⟨base, names, color, paths, ⟨⟨data, store, hd, hs, hsch, ht⟩, hpar⟩, hp, rfl, he⟩ :=
      (C35_entries env n path nb).1 h
    obtain ⟨last, hl, rfl⟩ := parent_iff.1 hpar
    refine .mk hl hd ⟨store, readStore_sound hs, hsch, toc_is ht⟩
      (each_mono hp fun _ _ _ h => entryPath_iff.1 h) (each_mono he fun p e _ h => ?_)
    cases h with
    | file s hf hs => exact .file hf (sectionAt_sound hs)
    | directory name toc before after nb' hf hl hr hb ht hn =>
      obtain ⟨dir, rfl⟩ := List.getLast?_eq_some_iff.1 hl
      exact .directory hf hr hb ht (ih hn)

theorem notebook_read {fs : FileSystem} {sanitise : Text → Text}
    {path : Path} {nb : Notebook} (h : NotebookIs (plainPart fs) sanitise path nb) :
    ∃ n, ∀ m, n ≤ m → ∀ a, n ≤ a → ∀ ord, parseNotebook ⟨fs, sanitise, ord, a⟩ m path = .ok nb := by
  refine NotebookIs.rec (fs := plainPart fs) (sanitise := sanitise)
    (motive_1 := fun path nb _ => ∃ n, ∀ m, n ≤ m → ∀ a, n ≤ a → ∀ ord,
      parseNotebook ⟨fs, sanitise, ord, a⟩ m path = .ok nb)
    (motive_2 := fun path e _ => ∃ n, ∀ m, n ≤ m → ∀ a, n ≤ a → ∀ ord,
      EntryAt fs (fun p s => parseSectionFile ⟨fs, sanitise, ord, a⟩ p = .ok s)
        (fun p nb => parseNotebook ⟨fs, sanitise, ord, a⟩ m p = .ok nb) path e)
    (motive_3 := fun paths es _ => ∃ n, ∀ m, n ≤ m → ∀ a, n ≤ a → ∀ ord,
      Each (EntryAt fs (fun p s => parseSectionFile ⟨fs, sanitise, ord, a⟩ p = .ok s)
        (fun p nb => parseNotebook ⟨fs, sanitise, ord, a⟩ m p = .ok nb)) paths es)
    ?_ ?_ ?_ ?_ ?_ h
  · intro base last data names color paths entries hl hd ⟨store, hst, hsch, htoc⟩ hp _ ⟨n, ih⟩
    obtain ⟨hd, hplain⟩ := plainPart_read.1 hd
    obtain ⟨k, hk⟩ := is_toc htoc
    refine ⟨n + k + 1, fun m hm a ha ord => ?_⟩
    obtain ⟨m, rfl⟩ : ∃ j, m = j + 1 := ⟨m - 1, by omega⟩
    obtain ⟨store', hs', e⟩ := readStore_complete hplain hst ord
    refine (C35_entries ⟨fs, sanitise, ord, a⟩ m _ _).2 ⟨base, names, color, paths,
      ⟨⟨data, store', hd, hs', ?_, ?_⟩, parent_iff.2 ⟨last, hl, rfl⟩⟩,
      each_mono hp fun _ _ _ h => (entryPath_iff (fs := fs)).2 h, rfl, ih m (by omega) a (by omega) ord⟩
    · rw [← e.schema, hsch]
      rfl
    · rw [← toc_same e.dataRoot]
      exact hk a (by omega)
  · intro p s hf hs
    obtain ⟨fuel, h⟩ := sectionAt_complete (sanitise := sanitise) hs
    exact ⟨fuel, fun m _ a ha ord => .file s hf (h a ha ord)⟩
  · intro dir name toc before after nb hf hr hb ht _ ⟨n, ih⟩
    exact ⟨n, fun m hm a ha ord => .directory name toc before after nb hf
      (List.getLast?_eq_some_iff.2 ⟨dir, rfl⟩) hr hb ht (ih m hm a ha ord)⟩
  · exact ⟨0, fun _ _ _ _ _ => .nil⟩
  · intro p e ps es _ _ ⟨n, h1⟩ ⟨n', h2⟩
    exact ⟨n + n', fun m hm a ha ord => .cons (h1 m (by omega) a (by omega) ord)
      (h2 m (by omega) a (by omega) ord)⟩

theorem notebook_complete {fs : FileSystem} {sanitise : Text → Text} (hplain : PlainFiles fs)
    {path : Path} {nb : Notebook} (h : NotebookIs fs sanitise path nb) :
    ∃ n, ∀ m, n ≤ m → ∀ a, n ≤ a → ∀ ord, parseNotebook ⟨fs, sanitise, ord, a⟩ m path = .ok nb :=
  notebook_read ((plainPart_eq hplain).symm ▸ h)

end OneNote
