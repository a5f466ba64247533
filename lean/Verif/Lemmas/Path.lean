/-
Paths of notebook entries.
-/
import Verif.Model.Notebook
import Verif.Lemmas.MapM
import Verif.Spec.Path

namespace OneNote

open Spec

/-! ### Pieces of a path -/

theorem splitSlash_ne_nil (s : Text) : splitSlash s ≠ [] := by
  cases s with
  | nil => simp [splitSlash]
  | cons c s =>
    unfold splitSlash
    split
    · simp
    · split <;> simp

theorem splitSlash_slash (a t : Text) : splitSlash (a ++ '/' :: t) = splitSlash a ++ splitSlash t := by
  induction a with
  | nil => simp [splitSlash]
  | cons c a ih =>
    rw [List.cons_append, splitSlash, ih]
    conv => rhs; rw [splitSlash]
    split
    · rfl
    · cases h : splitSlash a with
      | nil => exact absurd h (splitSlash_ne_nil a)
      | cons p ps => rfl

theorem splitSlash_piece (p : Text) (h : '/' ∉ p) : splitSlash p = [p] := by
  induction p with
  | nil => rfl
  | cons c p ih =>
    rw [List.mem_cons, not_or] at h
    unfold splitSlash
    rw [if_neg (Ne.symm h.1), ih h.2]

theorem mem_splitSlash {s p : Text} (h : p ∈ splitSlash s) : '/' ∉ p := by
  induction s generalizing p with
  | nil =>
    simp [splitSlash] at h
    simp [h]
  | cons c s ih =>
    unfold splitSlash at h
    split at h
    · rcases List.mem_cons.1 h with rfl | h
      · simp
      · exact ih h
    · rename_i hc
      split at h
      · rename_i hs
        exact absurd hs (splitSlash_ne_nil s)
      · rename_i q qs hs
        rcases List.mem_cons.1 h with rfl | h
        · rw [List.mem_cons, not_or]
          exact ⟨Ne.symm hc, ih (by rw [hs]; exact List.mem_cons_self ..)⟩
        · exact ih (by rw [hs]; exact List.mem_cons_of_mem _ h)

theorem piece_mem {p s : Text} (hp : '/' ∉ p) (h : Piece p s) : p ∈ splitSlash s := by
  obtain ⟨a, b, rfl, ha, hb⟩ := h
  have key : p ∈ splitSlash (p ++ b) := by
    rcases hb with rfl | ⟨b', rfl⟩
    · rw [List.append_nil, splitSlash_piece p hp]
      exact List.mem_cons_self ..
    · rw [splitSlash_slash, splitSlash_piece p hp]
      exact List.mem_cons_self ..
  rcases ha with rfl | ⟨a', rfl⟩
  · exact key
  · rw [List.append_assoc, List.singleton_append, splitSlash_slash]
    exact List.mem_append.2 (.inr key)

theorem splitSlash_shape (s : Text) : ∀ p ps, splitSlash s = p :: ps →
    (∃ b, s = p ++ b ∧ (b = [] ∨ ∃ b', b = '/' :: b')) ∧
    ∀ q ∈ ps, ∃ a b, s = (a ++ ['/']) ++ (q ++ b) ∧ (b = [] ∨ ∃ b', b = '/' :: b') := by
  induction s with
  | nil =>
    intro p ps h
    cases h
    exact ⟨⟨[], rfl, .inl rfl⟩, fun q hq => absurd hq List.not_mem_nil⟩
  | cons c s ih =>
    intro p ps h
    cases hs : splitSlash s with
    | nil => exact absurd hs (splitSlash_ne_nil s)
    | cons p' ps' =>
      obtain ⟨⟨b, hb, he⟩, hq⟩ := ih p' ps' hs
      have hq' : ∀ q ∈ ps', ∃ a b, c :: s = (a ++ ['/']) ++ (q ++ b) ∧
          (b = [] ∨ ∃ b', b = '/' :: b') := by
        intro q hm
        obtain ⟨a, b, h, he⟩ := hq q hm
        exact ⟨c :: a, b, by rw [h]; rfl, he⟩
      rw [splitSlash, hs] at h
      split at h
      · rename_i hc
        cases h
        refine ⟨⟨c :: s, rfl, .inr ⟨s, by rw [hc]⟩⟩, fun q hm => ?_⟩
        rcases List.mem_cons.1 hm with rfl | hm
        · exact ⟨[], b, by rw [hc, ← hb]; rfl, he⟩
        · exact hq' q hm
      · cases h
        exact ⟨⟨b, by rw [List.cons_append, ← hb], he⟩, hq'⟩

theorem mem_piece {p s : Text} (h : p ∈ splitSlash s) : Piece p s := by
  cases hs : splitSlash s with
  | nil => exact absurd hs (splitSlash_ne_nil s)
  | cons q qs =>
    obtain ⟨⟨b, hb, he⟩, hq⟩ := splitSlash_shape s q qs hs
    rw [hs] at h
    rcases List.mem_cons.1 h with rfl | h
    · exact ⟨[], b, hb, .inl rfl, he⟩
    · obtain ⟨a, b, hb, he⟩ := hq p h
      exact ⟨_, b, hb, .inr ⟨a, rfl⟩, he⟩

/-! ### The components that are accepted -/

theorem pieceOf_normal {p n : Text} (h : pieceOf p = some (.normal n)) :
    n = p ∧ p ≠ [] ∧ p ≠ ['.'] ∧ p ≠ ['.', '.'] := by
  unfold pieceOf at h
  split at h
  · cases h
  · split at h
    · cases h
    · split at h
      · cases h
      · cases h
        exact ⟨rfl, by assumption, by assumption, by assumption⟩

/-- What `resolveComponent` accepts: current directories and file names. -/
theorem componentsOf_accepted {sanitise : Text → Text} {entry : Text} {parts : List (Option Component)}
    (h : (componentsOf entry).mapM (resolveComponent sanitise) = .ok parts) :
    ∃ names : List Text, (parts.filterMap fun x => x) = names.map .normal ∧
      ∀ n ∈ names, FileName n ∧ sanitise n = n := by
  have key : ∀ (cs : List Component) (parts : List (Option Component)),
      (∀ n, Component.normal n ∈ cs → FileName n) → cs.mapM (resolveComponent sanitise) = .ok parts →
      ∃ names : List Text, (parts.filterMap fun x => x) = names.map .normal ∧
        ∀ n ∈ names, FileName n ∧ sanitise n = n := by
    intro cs parts hn h
    rw [mapM_each] at h
    induction h with
    | nil => exact ⟨[], rfl, fun n hn => absurd hn (List.not_mem_nil)⟩
    | @cons c part cs parts hc _ ih =>
      obtain ⟨names, he, hok⟩ := ih fun n h => hn n (List.mem_cons_of_mem _ h)
      cases c with
      | rootDir => cases hc
      | parentDir => cases hc
      | curDir => cases hc; exact ⟨names, he, hok⟩
      | normal n =>
        have hc' : (if sanitise n ≠ n then Except.error Err.invalidPath
          else Except.ok (some (Component.normal n))) = Except.ok part := hc
        split at hc'
        · cases hc'
        · rename_i hs
          cases hc'
          refine ⟨n :: names, by simp [he], fun m hm => ?_⟩
          rcases List.mem_cons.1 hm with rfl | hm
          · exact ⟨hn m (List.mem_cons_self ..), Classical.not_not.1 hs⟩
          · exact hok m hm
  refine key _ _ (fun n hn => ?_) h
  have hbody : ∀ n, Component.normal n ∈ (splitSlash entry).filterMap pieceOf → FileName n := by
    intro n hn
    obtain ⟨p, hp, hpn⟩ := List.mem_filterMap.1 hn
    obtain ⟨rfl, h1, h2, h3⟩ := pieceOf_normal hpn
    exact ⟨h1, mem_splitSlash hp, h2, h3⟩
  unfold componentsOf at hn
  simp only at hn
  split at hn
  · rcases List.mem_cons.1 hn with hn | hn
    · cases hn
    · exact hbody n hn
  · split at hn
    · rcases List.mem_cons.1 hn with hn | hn
      · cases hn
      · exact hbody n hn
    · exact hbody n hn

/-- The part of `resolveEntryPath` that does not look at the file system. -/
theorem resolveEntryPath_eq (sanitise : Text → Text) (base : Path) (entry : Text) :
    (∀ fs, resolveEntryPath fs sanitise base entry = .error .invalidPath) ∨
    ∃ names : List Text, names ≠ [] ∧ (∀ n ∈ names, FileName n ∧ sanitise n = n) ∧
      ∀ fs, resolveEntryPath fs sanitise base entry =
        (checkInside fs base (base ++ names.map .normal) >>= fun _ =>
          pure (base ++ names.map .normal)) := by
  by_cases ha : isAbsolute entry
  · left; intro fs; unfold resolveEntryPath; rw [if_pos ha]
  cases hm : (componentsOf entry).mapM (resolveComponent sanitise) with
  | error e =>
    left
    intro fs
    unfold resolveEntryPath
    rw [if_neg ha, hm]
    obtain ⟨_, c, _, _, _, _, hc⟩ := mapM_error.1 hm
    show Except.error e = _
    unfold resolveComponent at hc
    split at hc
    · split at hc
      · cases hc; rfl
      · cases hc
    · cases hc
    · cases hc; rfl
    · cases hc; rfl
  | ok parts =>
    obtain ⟨names, he, hok⟩ := componentsOf_accepted hm
    by_cases hn : names = []
    · left
      intro fs
      unfold resolveEntryPath
      rw [if_neg ha, hm]
      show (if (parts.filterMap fun x => x).isEmpty then _ else _) = _
      rw [he, hn]
      rfl
    · right
      refine ⟨names, hn, hok, fun fs => ?_⟩
      unfold resolveEntryPath
      rw [if_neg ha, hm]
      show (if (parts.filterMap fun x => x).isEmpty then _ else _) = _
      rw [he, if_neg (by simpa using hn)]
      rfl

theorem checkInside_ok {fs : FileSystem} {base p : Path} (h : checkInside fs base p = .ok ()) :
    fs.pathExists p = true → Inside fs base p := by
  intro he
  unfold checkInside at h
  rw [if_pos he] at h
  obtain ⟨b, hb, h⟩ := Res.bind_ok h
  obtain ⟨c, hc, h⟩ := Res.bind_ok h
  split at h
  · rename_i hs
    obtain ⟨rest, hr⟩ := List.isPrefixOf_iff_prefix.1 hs
    exact ⟨b, c, rest, orErr_some hb, orErr_some hc, hr.symm⟩
  · cases h

theorem checkInside_error {fs : FileSystem} {base p : Path} {e : Err}
    (h : checkInside fs base p = .error e) : e = .invalidPath := by
  unfold checkInside at h
  split at h
  · cases hb : fs.canonicalize base with
    | none => rw [hb] at h; cases h; rfl
    | some b =>
      rw [hb] at h
      cases hc : fs.canonicalize p with
      | none => rw [hc] at h; cases h; rfl
      | some c =>
        rw [hc] at h
        change (if c.startsWith b then pure () else Except.error Err.invalidPath) = Except.error e at h
        split at h
        · cases h
        · cases h; rfl
  · cases h

theorem resolveEntryPath_error {fs : FileSystem} {sanitise : Text → Text} {base : Path}
    {entry : Text} {e : Err} (h : resolveEntryPath fs sanitise base entry = .error e) :
    e = .invalidPath := by
  rcases resolveEntryPath_eq sanitise base entry with h' | ⟨names, _, _, h'⟩
  · rw [h' fs] at h; cases h; rfl
  · rw [h' fs] at h
    cases hc : checkInside fs base (base ++ names.map .normal) with
    | error e' => rw [hc] at h; cases h; exact checkInside_error hc
    | ok u => rw [hc] at h; cases h

theorem resolveEntryPath_ok {fs : FileSystem} {sanitise : Text → Text} {base : Path}
    {entry : Text} {p : Path} (h : resolveEntryPath fs sanitise base entry = .ok p) :
    (∃ names : List Text, names ≠ [] ∧ (∀ n ∈ names, FileName n ∧ sanitise n = n) ∧
      p = base ++ names.map .normal) ∧ (fs.pathExists p = true → Inside fs base p) := by
  rcases resolveEntryPath_eq sanitise base entry with h' | ⟨names, hn, hok, h'⟩
  · rw [h' fs] at h; cases h
  · rw [h' fs] at h
    obtain ⟨_, hc, h⟩ := Res.bind_ok h
    cases h
    exact ⟨⟨names, hn, hok, rfl⟩, checkInside_ok hc⟩

/-! ### Below and inside -/

theorem below_trans {a b c : Path} (h : Below a b) (h' : Below b c) : Below a c := by
  obtain ⟨n, hn, hok, rfl⟩ := h
  obtain ⟨m, _, hok', rfl⟩ := h'
  refine ⟨n ++ m, by simp [hn], fun x hx => ?_, by simp⟩
  rcases List.mem_append.1 hx with h | h
  · exact hok x h
  · exact hok' x h

theorem inside_trans {fs : FileSystem} {a b c : Path} (h : Inside fs a b) (h' : Inside fs b c) :
    Inside fs a c := by
  obtain ⟨x, y, r, hx, hy, rfl⟩ := h
  obtain ⟨y', z, r', hy', hz, rfl⟩ := h'
  rw [hy] at hy'
  cases hy'
  exact ⟨x, _, r ++ r', hx, hz, by simp⟩

/-! ### The table of contents of a directory -/

theorem span_loop (p : Char → Bool) (l acc : List Char) :
    List.span.loop p l acc = (acc.reverse ++ l.takeWhile p, l.dropWhile p) := by
  induction l generalizing acc with
  | nil => simp [List.span.loop]
  | cons c l ih => cases hp : p c <;> simp [hp, List.span.loop, ih]

theorem span_eq (p : Char → Bool) (l : List Char) : l.span p = (l.takeWhile p, l.dropWhile p) := by
  rw [List.span, span_loop]
  simp

theorem span_append (p : Char → Bool) (a b : List Char) (ha : ∀ c ∈ a, p c = true)
    (hb : ∀ c, b.head? = some c → p c = false) : (a ++ b).span p = (a, b) := by
  rw [span_eq, Prod.mk.injEq]
  constructor
  · rw [List.takeWhile_append_of_pos ha]
    cases b with
    | nil => simp
    | cons c b => simp [hb c rfl]
  · rw [List.dropWhile_append_of_pos ha]
    cases b with
    | nil => simp
    | cons c b => simp [hb c rfl]

theorem span_true (p : Char → Bool) (l : List Char) :
    l = (l.span p).1 ++ (l.span p).2 ∧ (∀ c ∈ (l.span p).1, p c = true) ∧
      (∀ c, (l.span p).2.head? = some c → p c = false) := by
  rw [span_eq]
  refine ⟨by simp, fun c hc => ?_, fun c hc => ?_⟩
  · have := List.all_takeWhile (l := l) (p := p)
    exact (List.all_eq_true.1 this) c hc
  · have := List.head?_dropWhile_not p l
    simp only at hc
    rw [hc] at this
    simpa using this

/-- The extension of a name without further dots after it. -/
theorem extensionOf_iff (name ext : Text) (hd : '.' ∉ ext) :
    Path.extensionOf name = some ext ↔ ∃ stem, stem ≠ [] ∧ name = stem ++ '.' :: ext := by
  unfold Path.extensionOf
  constructor
  · intro h
    obtain ⟨h1, h2, h3⟩ := span_true (fun c => decide (c ≠ '.')) name.reverse
    generalize hs : name.reverse.span (fun c => decide (c ≠ '.')) = r at h h1 h2 h3
    obtain ⟨after, before⟩ := r
    simp only at h h1 h2 h3
    match before, h with
    | d :: e :: rest, h =>
      cases h
      have hdot : d = '.' := by
        have := h3 d rfl
        simpa using this
      subst hdot
      refine ⟨(e :: rest).reverse, by simp, ?_⟩
      have := congrArg List.reverse h1
      rw [List.reverse_reverse] at this
      rw [this]
      simp
  · rintro ⟨stem, hne, rfl⟩
    have e : (stem ++ '.' :: ext).reverse = ext.reverse ++ '.' :: stem.reverse := by simp
    rw [e, span_append (fun c => decide (c ≠ '.')) ext.reverse ('.' :: stem.reverse)
      (fun c hc => by
        rw [List.mem_reverse] at hc
        have : c ≠ '.' := fun h => hd (h ▸ hc)
        simpa using this) (fun c hc => by cases hc; simp)]
    have : stem.reverse ≠ [] := by simpa using hne
    cases hs : stem.reverse with
    | nil => exact absurd hs this
    | cons c cs => simp

theorem fileName_join (dir : Path) (name : Text) :
    Path.fileName (dir.join [.normal name]) = some name := by
  unfold Path.fileName Path.join
  rw [List.getLast?_append]
  rfl

theorem parent_join (dir : Path) (name : Text) : Path.parent (dir ++ [.normal name]) = some dir := by
  unfold Path.parent
  rw [List.getLast?_append]
  simp

theorem tocExtension_iff (dir : Path) (name : Text) :
    Path.extension (dir.join [.normal name]) = some tocExtension ↔
      ∃ stem, stem ≠ [] ∧ name = stem ++ ".onetoc2".toList := by
  unfold Path.extension
  rw [fileName_join]
  exact extensionOf_iff name tocExtension (by decide)

/-! ### A notebook only depends on what is inside its directory -/

theorem findToc_ok {dir : Path} {names : List (Option Text)} {p : Path}
    (h : findToc dir names = .ok p) :
    ∃ stem, stem ≠ [] ∧ p = dir ++ [.normal (stem ++ ".onetoc2".toList)] ∧
      some (stem ++ ".onetoc2".toList) ∈ names := by
  induction names with
  | nil => cases h
  | cons name names ih =>
    cases name with
    | none => cases h
    | some name =>
      unfold findToc at h
      simp only at h
      split at h
      · rename_i hx
        cases h
        obtain ⟨stem, hs, rfl⟩ := (tocExtension_iff dir name).1 hx
        exact ⟨stem, hs, rfl, List.mem_cons_self ..⟩
      · obtain ⟨stem, hs, hp, hm⟩ := ih h
        exact ⟨stem, hs, hp, List.mem_cons_of_mem _ hm⟩

theorem checkInside_congr {base dir p : Path} {fs fs' : FileSystem} (h : SameInside base fs fs')
    (hd : dir = base ∨ Below base dir) (hp : Below base p) :
    checkInside fs dir p = checkInside fs' dir p := by
  unfold checkInside
  rw [h.pathExists p hp, h.canonicalize dir hd, h.canonicalize p (.inr hp)]

theorem parseSectionFile_congr (env : Env) (fs' : FileSystem) (p : Path)
    (h : env.fs.read p = fs'.read p) :
    parseSectionFile env p = parseSectionFile { env with fs := fs' } p := by
  unfold parseSectionFile
  rw [h]

theorem parseNotebook_congr (env : Env) (fs' : FileSystem) (base : Path)  (hs : SameInside base env.fs fs') (ht : SameTocs base env.fs fs') (n : Nat) :
    ∀ path dir, Path.parent path = some dir →
      (dir = base ∨ (Below base dir ∧ Inside env.fs base dir)) →
      env.fs.read path = fs'.read path →
      parseNotebook env n path = parseNotebook { env with fs := fs' } n path := by
  induction n with
  | zero => intros; rfl
  | succ n ih =>
    intro path dir hdir hd hread
    have below : ∀ p, Below dir p → Below base p := by
      intro p hp
      rcases hd with rfl | ⟨hd, _⟩
      · exact hp
      · exact below_trans hd hp
    have inside : ∀ p, Inside env.fs dir p → Inside env.fs base p := by
      intro p hp
      rcases hd with rfl | ⟨_, hd⟩
      · exact hp
      · exact inside_trans hd hp
    unfold parseNotebook
    rw [hread]
    refine bind_congr' fun data _ => bind_congr' fun store _ => ?_
    by_cases hsch : store.schema ≠ tocSchema
    · rw [if_pos hsch, if_pos hsch]
    rw [if_neg hsch, if_neg hsch, hdir]
    refine bind_congr' fun d hd' => ?_
    cases hd'
    refine bind_congr' fun (names, color) _ => ?_
    have hres : ∀ entry, resolveEntryPath env.fs env.sanitise dir entry =
        resolveEntryPath fs' env.sanitise dir entry := by
      intro entry
      rcases resolveEntryPath_eq env.sanitise dir entry with h | ⟨ns, hne, hok, h⟩
      · rw [h, h]
      · rw [h, h, checkInside_congr hs (hd.imp id And.left)
          (below _ ⟨ns, hne, fun x hx => (hok x hx).1, rfl⟩)]
    show (names.mapM (resolveEntryPath env.fs env.sanitise dir) >>= _) =
      (names.mapM (resolveEntryPath fs' env.sanitise dir) >>= _)
    rw [← mapM_congr fun x _ => hres x]
    refine bind_congr' fun paths hpaths => ?_
    have hpaths : ∀ p ∈ paths, Below dir p ∧ (env.fs.pathExists p = true → Inside env.fs dir p) := by
      intro p hp
      obtain ⟨x, _, hx⟩ := each_mem (mapM_each.1 hpaths) hp
      obtain ⟨⟨ns, hne, hok, rfl⟩, hin⟩ := resolveEntryPath_ok hx
      exact ⟨⟨ns, hne, fun x hx => (hok x hx).1, rfl⟩, hin⟩
    have hkeep : paths.filter (keepEntry env) = paths.filter (keepEntry { env with fs := fs' }) := by
      refine List.filter_congr fun p hp => ?_
      unfold keepEntry
      rw [hs.pathExists p (below p (hpaths p hp).1)]
    rw [← hkeep]
    have hent : ∀ p ∈ paths.filter (keepEntry env), parseEntry (parseNotebook env n) env p =
        parseEntry (parseNotebook { env with fs := fs' } n) { env with fs := fs' } p := by
      intro p hp
      obtain ⟨hp, hk⟩ := List.mem_filter.1 hp
      have hpe : env.fs.pathExists p = true := by
        unfold keepEntry at hk
        rw [Bool.and_eq_true] at hk
        exact hk.1
      have hpb := below p (hpaths p hp).1
      have hpi := inside p ((hpaths p hp).2 hpe)
      unfold parseEntry
      rw [← hs.isFile p hpb hpi, parseSectionFile_congr env fs' p (hs.read p hpb hpi)]
      split
      · rfl
      · congr 1
        unfold parseSectionGroup
        refine bind_congr' fun name _ => ?_
        rw [← hs.readDir p hpb hpi]
        refine bind_congr' fun listing hl => bind_congr' fun toc hf => ?_
        obtain ⟨stem, hst, rfl, hm⟩ := findToc_ok hf
        exact congrArg (· >>= _) (ih _ p (parent_join p _) (.inr ⟨hpb, hpi⟩)
          (ht _ ⟨p, stem, hst, rfl, hpb, hpi⟩))
    rw [mapM_congr hent]

end OneNote
