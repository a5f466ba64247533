/-
C91: A notebook shows no more sections than it has files. FALSE of the code: a table of contents may
lead to the same directory more than once, by a repeated name or by a symbolic link, and each time all
that is in it is read and shown again.
-/
import Verif.Lemmas.Once
import Verif.Lemmas.Terminates
import Verif.Spec.SampleFile
import Verif.Props.C32

namespace OneNote

open Spec

/-- **What holds**: if every table of contents lists ordinary file names, each once, and no two paths
lead to the same place, then there are at most as many sections as files in the directory of the
notebook. -/
theorem C91_partial (env : Env) (n : Nat) (path base : Path) (nb : Notebook)
    (h : parseNotebook env n path = .ok nb) (hb : Path.parent path = some base)
    (hl : ListsOnce env) (hn : NoLinks env.fs base) (places : List Path)
    (hf : FilesAt env.fs base places) : sectionsOf nb.entries ≤ places.length := by
  obtain ⟨es, ho, he⟩ := opens_of_parse env n path nb h
  rw [← he, Once.sections_of]
  exact Once.places_length (Once.opens_apart hl hb ho) hn hf

/-! ### Directories that are entered twice -/

namespace C91

private def tocName : Text := ['t', '.', 'o', 'n', 'e', 't', 'o', 'c', '2']

/-- The directory itself, and those in it by way of the names `a` and `b`, up to a limit. -/
private def isDir (a b : Text) (limit : Nat) : Path → Bool
  | .rootDir :: w => decide (w.length ≤ limit) && w.all fun c => c == .normal a || c == .normal b
  | _ => false

private def isFile (a b : Text) (limit : Nat) (p : Path) : Bool :=
  isDir a b limit p.dropLast && (p.getLast? == some (.normal ['s']) || p.getLast? == some (.normal tocName))

/-- Each directory has a table of contents, which lists `a`, `s` and `b`, and a section `s`. If `links`
is true, `a` and `b` are links to the directory they are in. -/
private def disk (a b : Text) (links : Bool) (limit : Nat) : FileSystem where
  pathExists p := isDir a b limit p || isFile a b limit p
  isFile := isFile a b limit
  canonicalize p :=
    if isDir a b limit p then some (if links then [.rootDir] else p)
    else if isFile a b limit p then
      some (if links then .rootDir :: p.getLast?.toList else p)
    else none
  readDir p := if isDir a b limit p then some [some tocName] else none
  read p :=
    if isFile a b limit p then
      if p.getLast? == some (.normal ['s']) then some (emptySectionFile none)
      else some (tocFile [(1, a), (2, ['s']), (3, b)])
    else none

private def world (a b : Text) (links : Bool) (limit : Nat) : Env :=
  ⟨disk a b links limit, id, Order.id, 2⟩

/-- What the table of contents lists. -/
private def Lists (a b : Text) : Prop :=
  ((readStore Order.id (tocFile [(1, a), (2, ['s']), (3, b)])).toOption.bind fun st =>
    if st.schema = tocSchema then (parseToc 2 st.dataRoot).toOption else none) = some ([a, ['s'], b], none)

private theorem lists_gg : Lists ['g'] ['g'] := by unfold Lists; decide +kernel
private theorem lists_gh : Lists ['g'] ['h'] := by unfold Lists; decide +kernel

private theorem section_read : ((readStore Order.id (emptySectionFile none)).toOption.bind fun st =>
    if st.schema = sectionSchema then (parseSectionStore 2 st ['s']).toOption.map fun _ => () else none) =
      some () := by
  decide +kernel

variable {a b : Text} {links : Bool} {limit : Nat}

private theorem dir_concat {w : List Component} {n : Text} (h : n = a ∨ n = b)
    (hw : isDir a b limit (.rootDir :: w) = true) (hl : w.length < limit) :
    isDir a b limit (.rootDir :: (w ++ [.normal n])) = true := by
  unfold isDir at hw ⊢
  simp only [Bool.and_eq_true, decide_eq_true_eq, List.all_append, List.length_append, List.length_cons,
    List.length_nil, List.all_cons, List.all_nil, Bool.and_true] at hw ⊢
  refine ⟨by omega, hw.2, ?_⟩
  rcases h with rfl | rfl <;> simp

private theorem dir_full {w : List Component} {c : Component} (hl : w.length = limit) :
    isDir a b limit (.rootDir :: (w ++ [c])) = false := by
  have : ¬ w.length + 1 ≤ limit := by omega
  unfold isDir
  simp [this]

private theorem file_concat {w : List Component} {n : Text} (h : n = ['s'] ∨ n = tocName)
    (hw : isDir a b limit (.rootDir :: w) = true) :
    isFile a b limit (.rootDir :: (w ++ [.normal n])) = true := by
  unfold isFile
  rw [show Component.rootDir :: (w ++ [Component.normal n]) = (.rootDir :: w) ++ [.normal n] from rfl,
    List.dropLast_concat, List.getLast?_concat, hw]
  rcases h with rfl | rfl <;> decide

private theorem not_file {w : List Component} {n : Text} (h : n ≠ ['s'] ∧ n ≠ tocName) :
    isFile a b limit (.rootDir :: (w ++ [.normal n])) = false := by
  unfold isFile
  rw [show Component.rootDir :: (w ++ [Component.normal n]) = (.rootDir :: w) ++ [.normal n] from rfl,
    List.getLast?_concat]
  simp [h.1, h.2]

private theorem contents (hl : Lists a b) {w : List Component}
    (hw : isDir a b limit (.rootDir :: w) = true) :
    Contents (world a b links limit) (.rootDir :: (w ++ [.normal tocName])) (.rootDir :: w)
      [a, ['s'], b] none := by
  obtain ⟨st, h1, h2⟩ := Option.bind_eq_some_iff.1 hl
  split at h2
  · next hs =>
    refine ⟨⟨_, st, ?_, toOption_some h1, hs, toOption_some h2⟩, ?_⟩
    · show (disk a b links limit).read _ = _
      unfold disk
      dsimp only
      rw [if_pos (file_concat (.inr rfl) hw), if_neg]
      rw [show Component.rootDir :: (w ++ [Component.normal tocName]) =
        (.rootDir :: w) ++ [.normal tocName] from rfl, List.getLast?_concat]
      decide
    · rw [show Component.rootDir :: (w ++ [Component.normal tocName]) =
        (.rootDir :: w) ++ [.normal tocName] from rfl]
      unfold Path.parent
      rw [List.getLast?_concat, List.dropLast_concat]
  · cases h2

private theorem section_there {w : List Component} (hw : isDir a b limit (.rootDir :: w) = true) :
    ∃ s, parseSectionFile (world a b links limit) (.rootDir :: (w ++ [.normal ['s']])) = .ok s := by
  obtain ⟨st, h1, h2⟩ := Option.bind_eq_some_iff.1 section_read
  split at h2
  · next hs =>
    obtain ⟨s, h3, -⟩ := Option.map_eq_some_iff.1 h2
    refine ⟨s, ?_⟩
    have e : Component.rootDir :: (w ++ [Component.normal ['s']]) = (.rootDir :: w) ++ [.normal ['s']] := rfl
    have hr : (world a b links limit).fs.read (.rootDir :: (w ++ [.normal ['s']])) =
        some (emptySectionFile none) := by
      show (disk a b links limit).read _ = _
      unfold disk
      dsimp only
      rw [if_pos (file_concat (.inl rfl) hw), e, List.getLast?_concat, if_pos (by decide)]
    have hn : Path.fileName (.rootDir :: (w ++ [.normal ['s']])) = some ['s'] := by
      unfold Path.fileName
      rw [e, List.getLast?_concat]
    refine Res.bind_ok_iff.2 ⟨_, by rw [hr]; rfl, Res.bind_ok_iff.2 ⟨st, toOption_some h1, ?_⟩⟩
    rw [if_neg (not_not_intro hs)]
    exact Res.bind_ok_iff.2 ⟨_, by rw [hn]; rfl, toOption_some h3⟩
  · cases h2

private theorem resolved {w : List Component} {n : Text} (hn : FileName n)
    (hw : isDir a b limit (.rootDir :: w) = true) :
    resolveEntryPath (world a b links limit).fs (world a b links limit).sanitise (.rootDir :: w) n =
      .ok (.rootDir :: (w ++ [.normal n])) := by
  have e : Component.rootDir :: (w ++ [Component.normal n]) = (.rootDir :: w) ++ [.normal n] := rfl
  rw [e]
  refine C32_accepted _ _ _ _ hn rfl fun hx => ?_
  rw [← e] at hx ⊢
  have hc : (disk a b links limit).canonicalize (.rootDir :: w) =
      some (if links then [.rootDir] else .rootDir :: w) := by
    unfold disk
    dsimp only
    rw [if_pos hw]
  have hx : (isDir a b limit (.rootDir :: (w ++ [.normal n])) ||
    isFile a b limit (.rootDir :: (w ++ [.normal n]))) = true := hx
  refine ⟨_, _, if links then
      (if isDir a b limit (.rootDir :: (w ++ [.normal n])) then [] else [.normal n]) else [.normal n],
    hc, rfl.trans (?_ : (disk a b links limit).canonicalize _ = _), rfl⟩
  unfold disk
  dsimp only
  split
  · cases links <;> rfl
  · next hd =>
    rw [if_pos (by rw [Bool.or_eq_true] at hx; exact hx.resolve_left hd)]
    rw [e, List.getLast?_concat]
    cases links <;> rfl

private theorem name_of (n : Text) (h : n = ['g'] ∨ n = ['h'] ∨ n = ['s']) : FileName n ∧
    n ≠ tocName ∧ ∀ d : Path, decide ((d ++ [Component.normal n]).getLast? ≠
      some (.normal "OneNote_RecycleBin".toList)) = true := by
  refine ⟨?_, ?_, fun d => ?_⟩
  · rcases h with rfl | rfl | rfl <;> (unfold FileName; decide)
  · rcases h with rfl | rfl | rfl <;> decide
  · rw [List.getLast?_concat]
    rcases h with rfl | rfl | rfl <;> decide

private theorem kept_cons {fs : FileSystem} {w : List Component} {n : Text} {ps : List Path}
    (h : n = ['g'] ∨ n = ['h'] ∨ n = ['s']) (hx : fs.pathExists (.rootDir :: (w ++ [.normal n])) = true) :
    Kept fs ((.rootDir :: (w ++ [.normal n])) :: ps) = (.rootDir :: (w ++ [.normal n])) :: Kept fs ps := by
  unfold Kept
  rw [List.filter_cons, if_pos]
  rw [hx, Bool.true_and]
  exact (name_of n h).2.2 (.rootDir :: w)

private theorem kept_skip {fs : FileSystem} {p : Path} {ps : List Path} (hx : fs.pathExists p = false) :
    Kept fs (p :: ps) = Kept fs ps := by
  unfold Kept
  rw [List.filter_cons, if_neg]
  rw [hx, Bool.false_and]
  exact Bool.false_ne_true

private theorem listed (ha : a = ['g'] ∨ a = ['h']) (hb : b = ['g'] ∨ b = ['h']) (hl : Lists a b) (k : Nat) :
    ∀ w, isDir a b limit (.rootDir :: w) = true → w.length + k = limit →
      ∃ es, Opens (world a b links limit) (.rootDir :: (w ++ [.normal tocName])) es none ∧
        sectionsOf (Located.entries es) = 2 ^ (k + 1) - 1 := by
  have fa := name_of a (ha.elim .inl fun h => .inr (.inl h))
  have fb := name_of b (hb.elim .inl fun h => .inr (.inl h))
  have fs := name_of ['s'] (.inr (.inr rfl))
  have na : a ≠ ['s'] := by rcases ha with rfl | rfl <;> decide
  have nb : b ≠ ['s'] := by rcases hb with rfl | rfl <;> decide
  induction k with
  | zero =>
    intro w hw hk
    obtain ⟨s, hs⟩ := section_there (links := links) hw
    refine ⟨[.file (.rootDir :: (w ++ [.normal ['s']])) s], .mk (contents hl hw)
      (.cons (resolved fa.1 hw) (.cons (resolved fs.1 hw) (.cons (resolved fb.1 hw) .nil))) ?_, rfl⟩
    have xs : (world a b links limit).fs.pathExists (.rootDir :: (w ++ [.normal ['s']])) = true := by
      show (_ || _) = true
      rw [file_concat (.inl rfl) hw, Bool.or_true]
    have xa : (world a b links limit).fs.pathExists (.rootDir :: (w ++ [.normal a])) = false := by
      show (_ || _) = false
      rw [dir_full hk, not_file ⟨na, fa.2.1⟩]
      rfl
    have xb : (world a b links limit).fs.pathExists (.rootDir :: (w ++ [.normal b])) = false := by
      show (_ || _) = false
      rw [dir_full hk, not_file ⟨nb, fb.2.1⟩]
      rfl
    rw [kept_skip xa, kept_cons (.inr (.inr rfl)) xs, kept_skip xb]
    exact .cons (.file (file_concat (.inl rfl) hw) hs) .nil
  | succ k ih =>
    intro w hw hk
    obtain ⟨s, hs⟩ := section_there (links := links) hw
    obtain ⟨es1, o1, c1⟩ := ih (w ++ [.normal a]) (dir_concat (.inl rfl) hw (by omega)) (by simp; omega)
    obtain ⟨es2, o2, c2⟩ := ih (w ++ [.normal b]) (dir_concat (.inr rfl) hw (by omega)) (by simp; omega)
    refine ⟨[.directory (.rootDir :: (w ++ [.normal a])) a es1, .file (.rootDir :: (w ++ [.normal ['s']])) s,
      .directory (.rootDir :: (w ++ [.normal b])) b es2], .mk (contents hl hw)
      (.cons (resolved fa.1 hw) (.cons (resolved fs.1 hw) (.cons (resolved fb.1 hw) .nil))) ?_, ?_⟩
    · have xs : (world a b links limit).fs.pathExists (.rootDir :: (w ++ [.normal ['s']])) = true := by
        show (_ || _) = true
        rw [file_concat (.inl rfl) hw, Bool.or_true]
      have da := dir_concat (.inl rfl) hw (by omega : w.length < limit)
      have db := dir_concat (.inr rfl) hw (by omega : w.length < limit)
      have xa : (world a b links limit).fs.pathExists (.rootDir :: (w ++ [.normal a])) = true := by
        show (_ || _) = true
        rw [da, Bool.true_or]
      have xb : (world a b links limit).fs.pathExists (.rootDir :: (w ++ [.normal b])) = true := by
        show (_ || _) = true
        rw [db, Bool.true_or]
      rw [kept_cons (ha.elim .inl fun h => .inr (.inl h)) xa, kept_cons (.inr (.inr rfl)) xs,
        kept_cons (hb.elim .inl fun h => .inr (.inl h)) xb]
      have entered : ∀ {n : Text} {es : List Located}, n ≠ ['s'] → n ≠ tocName →
          isDir a b limit (.rootDir :: (w ++ [.normal n])) = true →
          Opens (world a b links limit) (.rootDir :: (w ++ [.normal n] ++ [.normal tocName])) es none →
          OpensEntry (world a b links limit) (.rootDir :: (w ++ [.normal n]))
            (.directory (.rootDir :: (w ++ [.normal n])) n es) := by
        intro n es h1 h2 hd ho
        refine .directory (toc := tocName) (before := []) (after := []) (not_file ⟨h1, h2⟩) ?_ ?_
          (fun x hx => by cases hx) ⟨['t'], by simp, by decide⟩ ho
        · rw [show Component.rootDir :: (w ++ [Component.normal n]) = (.rootDir :: w) ++ [.normal n] from rfl,
            List.getLast?_concat]
        · exact if_pos hd
      exact .cons (entered na fa.2.1 da o1) (.cons (.file (file_concat (.inl rfl) hw) hs)
        (.cons (entered nb fb.2.1 db o2) .nil))
    · simp only [Located.entries, Located.entry, sectionsOf, sectionsIn, c1, c2]
      have : 0 < 2 ^ (k + 1) := Nat.two_pow_pos _
      rw [Nat.pow_succ 2 (k + 1)]
      omega

private theorem shown (ha : a = ['g'] ∨ a = ['h']) (hb : b = ['g'] ∨ b = ['h']) (hl : Lists a b) :
    ∃ k nb, parseNotebook (world a b links limit) k [.rootDir, .normal tocName] = .ok nb ∧
      sectionsOf nb.entries = 2 ^ (limit + 1) - 1 := by
  obtain ⟨es, ho, hc⟩ := listed (links := links) (limit := limit) ha hb hl limit [] (by simp [isDir])
    (by simp)
  obtain ⟨n, hn⟩ := parse_of_opens ho
  exact ⟨n, _, hn n (Nat.le_refl n), hc⟩

/-- Where the files are. -/
private theorem file_is {p : Path} (h : isFile a b limit p = true) : ∃ (w : List Component) (n : Text),
    p = .rootDir :: (w ++ [.normal n]) ∧ (n = ['s'] ∨ n = tocName) ∧ w.length ≤ limit ∧
      ∀ c ∈ w, c = .normal a ∨ c = .normal b := by
  unfold isFile at h
  rw [Bool.and_eq_true] at h
  obtain ⟨h1, h2⟩ := h
  obtain ⟨n, hn, e⟩ : ∃ n, (n = ['s'] ∨ n = tocName) ∧ p.getLast? = some (.normal n) := by
    rcases Bool.or_eq_true _ _ ▸ h2 with h | h
    · exact ⟨_, .inl rfl, by simpa using h⟩
    · exact ⟨_, .inr rfl, by simpa using h⟩
  cases hd : p.dropLast with
  | nil => rw [hd] at h1; cases h1
  | cons c w =>
    rw [hd] at h1
    cases c with
    | rootDir =>
      unfold isDir at h1
      simp only [Bool.and_eq_true, decide_eq_true_eq, List.all_eq_true, Bool.or_eq_true, beq_iff_eq] at h1
      refine ⟨w, n, ?_, hn, h1⟩
      have hne : p ≠ [] := by rintro rfl; cases e
      rw [List.getLast?_eq_some_getLast hne] at e
      have hp := (List.dropLast_concat_getLast hne).symm
      rw [hd, Option.some.inj e] at hp
      exact hp
    | _ => cases h1

private theorem canonical {p q : Path} (h : (disk a b false limit).canonicalize p = some q) : q = p := by
  unfold disk at h
  dsimp only at h
  split at h
  · cases h; rfl
  · split at h
    · cases h; rfl
    · cases h

private theorem canonical_file {p : Path} (h : isFile a b limit p = true) :
    (disk a b false limit).canonicalize p = some p := by
  unfold disk
  dsimp only
  rw [if_pos h]
  split <;> rfl

private theorem canonical_link {w : List Component} {n : Text}
    (hd : isDir a b limit (.rootDir :: (w ++ [.normal n])) = false)
    (h : isFile a b limit (.rootDir :: (w ++ [.normal n])) = true) :
    (disk a b true limit).canonicalize (.rootDir :: (w ++ [.normal n])) = some [.rootDir, .normal n] := by
  unfold disk
  dsimp only
  rw [if_neg (by rw [hd]; exact Bool.false_ne_true), if_pos h,
    show Component.rootDir :: (w ++ [Component.normal n]) = (.rootDir :: w) ++ [.normal n] from rfl,
    List.getLast?_concat]
  rfl

private theorem read_file {p : Path} {data : Bytes} (h : (disk a b links limit).read p = some data) :
    isFile a b limit p = true := by
  unfold disk at h
  dsimp only at h
  split at h
  · assumption
  · cases h

private theorem names_are (hl : Lists a b) {p base : Path} {names : List Text} {color : Option Color}
    (h : Contents (world a b links limit) p base names color) : names = [a, ['s'], b] := by
  obtain ⟨⟨data, store, h1, h2, h3, h4⟩, -⟩ := h
  have h1 : (disk a b links limit).read p = some data := h1
  unfold disk at h1
  dsimp only at h1
  split at h1
  · split at h1
    · cases h1
      obtain ⟨st, g1, g2⟩ := Option.bind_eq_some_iff.1 section_read
      have h2 : readStore Order.id (emptySectionFile none) = .ok store := h2
      rw [toOption_some g1] at h2
      cases h2
      rw [h3, if_neg (by decide)] at g2
      cases g2
    · cases h1
      obtain ⟨st, g1, g2⟩ := Option.bind_eq_some_iff.1 hl
      have h2 : readStore Order.id (tocFile [(1, a), (2, ['s']), (3, b)]) = .ok store := h2
      rw [toOption_some g1] at h2
      cases h2
      rw [if_pos h3] at g2
      have h4 : parseToc 2 store.dataRoot = .ok (names, color) := h4
      rw [toOption_some g2] at h4
      cases h4
      rfl
  · cases h1

end C91

/-- **Refuted**: in a chain of `n + 1` directories, each with a table of contents and one section, every
table of contents lists the next directory twice. These `2 * (n + 1)` files are shown as
`2 ^ (n + 1) - 1` sections. There are no links. -/
theorem C91_refuted (n : Nat) : ∃ (env : Env) (path base : Path) (k : Nat) (nb : Notebook)
    (places : List Path), parseNotebook env k path = .ok nb ∧ Path.parent path = some base ∧
    NoLinks env.fs base ∧ FilesAt env.fs base places ∧ places.length = 2 * (n + 1) ∧
    sectionsOf nb.entries = 2 ^ (n + 1) - 1 := by
  obtain ⟨k, nb, h, hc⟩ := C91.shown (links := false) (limit := n) (.inl rfl) (.inl rfl) C91.lists_gg
  refine ⟨_, _, [.rootDir], k, nb, 
    ((List.range (n + 1)).map fun i => .rootDir :: (List.replicate i (.normal ['g']) ++ [.normal ['s']])) ++
    ((List.range (n + 1)).map fun i =>
      .rootDir :: (List.replicate i (.normal ['g']) ++ [.normal C91.tocName])),
    h, rfl, fun p q r _ _ h1 h2 => ?_, fun p data _ hr => ?_, ?_, hc⟩
  · exact (C91.canonical h1).symm.trans (C91.canonical h2)
  · have hf := C91.read_file hr
    obtain ⟨w, m, rfl, hm, hw, hg⟩ := C91.file_is hf
    have e : w = List.replicate w.length (.normal ['g']) :=
      List.eq_replicate_of_mem fun c hc => (hg c hc).elim id id
    refine ⟨_, ?_, C91.canonical_file hf⟩
    rw [e]
    have hi : w.length ∈ List.range (n + 1) := List.mem_range.2 (by omega)
    rcases hm with rfl | rfl
    · exact List.mem_append_left _ (List.mem_map.2 ⟨_, hi, rfl⟩)
    · exact List.mem_append_right _ (List.mem_map.2 ⟨_, hi, rfl⟩)
  · simp only [List.length_append, List.length_map, List.length_range]
    omega

/-- **Refuted**, also if every table of contents lists ordinary names, each once: a directory with a table
of contents and one section, and two links in it that lead back to the directory. If a path may go
through `n` links, these two files are shown as `2 ^ (n + 1) - 1` sections. -/
theorem C91_links_refuted (n : Nat) : ∃ (env : Env) (path base : Path) (k : Nat) (nb : Notebook)
    (places : List Path), parseNotebook env k path = .ok nb ∧ Path.parent path = some base ∧
    ListsOnce env ∧ FilesAt env.fs base places ∧ places.length = 2 ∧
    sectionsOf nb.entries = 2 ^ (n + 1) - 1 := by
  obtain ⟨k, nb, h, hc⟩ := C91.shown (links := true) (limit := n) (.inl rfl) (.inr rfl) C91.lists_gh
  refine ⟨_, _, [.rootDir], k, nb, [[.rootDir, .normal ['s']], [.rootDir, .normal C91.tocName]],
    h, rfl, fun p base names color hx => ?_, fun p data _ hr => ?_, rfl, hc⟩
  · rw [C91.names_are C91.lists_gh hx]
    exact ⟨by decide, by unfold FileName; decide⟩
  · have hf := C91.read_file hr
    obtain ⟨w, m, rfl, hm, hw, hg⟩ := C91.file_is hf
    refine ⟨[.rootDir, .normal m], by rcases hm with rfl | rfl <;> simp, ?_⟩
    refine C91.canonical_link ?_ hf
    rcases hm with rfl | rfl <;> simp [C91.isDir, C91.tocName]

/-- A directory with two section groups: six files, of which three are sections. -/
example : ∃ (env : Env) (path base : Path) (k : Nat) (nb : Notebook) (places : List Path),
    parseNotebook env k path = .ok nb ∧ Path.parent path = some base ∧ ListsOnce env ∧
    NoLinks env.fs base ∧ FilesAt env.fs base places ∧ sectionsOf nb.entries = 3 ∧ places.length = 6 := by
  obtain ⟨k, nb, h, hc⟩ := C91.shown (links := false) (limit := 1) (.inl rfl) (.inr rfl) C91.lists_gh
  refine ⟨_, _, [.rootDir], k, nb, [[], [.normal ['g']], [.normal ['h']]].flatMap fun w =>
      [.rootDir :: (w ++ [.normal ['s']]), .rootDir :: (w ++ [.normal C91.tocName])],
    h, rfl, fun p base names color hx => ?_, fun p q r _ _ h1 h2 => ?_, fun p data _ hr => ?_, hc, rfl⟩
  · rw [C91.names_are C91.lists_gh hx]
    exact ⟨by decide, by unfold FileName; decide⟩
  · exact (C91.canonical h1).symm.trans (C91.canonical h2)
  · have hf := C91.read_file hr
    obtain ⟨w, m, rfl, hm, hw, hg⟩ := C91.file_is hf
    refine ⟨_, List.mem_flatMap.2 ⟨w, ?_, ?_⟩, C91.canonical_file hf⟩
    · match w with
      | [] => exact .head _
      | [c] => rcases hg c (.head _) with rfl | rfl <;> simp
      | _ :: _ :: _ => simp at hw
    · rcases hm with rfl | rfl <;> simp

#print axioms C91_partial
#print axioms C91_refuted
#print axioms C91_links_refuted

end OneNote
