/-
C41: Assembling a document terminates.

False in general: the parsers follow the references of the file, and a file whose objects refer to
themselves makes them call each other without end (`C41_refuted`, `C41_toc_refuted`). True of every
file whose objects are not their own descendants.

The functions of the code have no bound on their nested calls. The model gives them a number of calls
`n`; `C41_more_calls` shows that this number does not influence the result as long as it is enough.
-/
import Verif.Lemmas.Terminates
import Verif.Spec.SampleFile
import Verif.Lemmas.AnyOrder
import Verif.Lemmas.Pruned
import Verif.Lemmas.Placed

namespace OneNote

open Spec

/-- A result with `m` nested calls is also the result with any larger number of calls. So a call of
the parser either ends, with a result that does not depend on the bound, or runs out of every number
of calls. -/
theorem C41_more_calls (ord : Order) (data : Bytes) (name : Text) (m n : Nat) (hmn : m ≤ n)
    (h : parseSectionBuffer m ord data name ≠ .error .fuel) :
    parseSectionBuffer n ord data name = parseSectionBuffer m ord data name :=
  ((refines_buffer hmn ord data name).resolve_left h).symm

/-- The same for notebooks. -/
theorem C41_more_calls_notebook (env : Env) (path : Path) (m n : Nat) (hmn : m ≤ n)
    (h : parseNotebook { env with fuel := m } m path ≠ .error .fuel) :
    parseNotebook { env with fuel := n } n path = parseNotebook { env with fuel := m } m path :=
  ((refines_notebook env hmn hmn path).resolve_left h).symm

/-- Building the section from the store terminates if no object that can be got to from the roots of a page
is its own descendant. One nested call more than the store has objects is enough. Missing from the full
statement: files with cycles. -/
theorem C41_section_partial (store : Store) (name : Text)
    (ha : ∀ cell space, store.objectSpace cell = some space → NoCycle space) :
    Terminates (fun n => parseSectionStore n store name) ∧
      ∀ n, (store.objectSpaces.map fun s => s.2.objects.length).sum < n →
        parseSectionStore n store name ≠ .error .fuel :=
  ⟨Pruned.terminates_section ha name, fun n hn => Pruned.section_noFuel ha name n hn⟩

/-- Parsing the bytes of a section terminates, if reading the store does (see `C23`) and no object that can
be got to from the roots is its own descendant. -/
theorem C41_buffer_partial (ord : Order) (data : Bytes) (name : Text)
    (hr : readStore ord data ≠ .error .fuel)
    (ha : ∀ store, readStore ord data = .ok store → NoCycleStore store) :
    Terminates fun n => parseSectionBuffer n ord data name := by
  refine Terminates.bind (Terminates.const hr) fun store hs => ?_
  obtain ⟨k, hs⟩ := hs
  have hs := hs k (Nat.le_refl k)
  by_cases hsch : store.schema ≠ sectionSchema
  · simp only [if_pos hsch]
    exact Terminates.const (by simp)
  · simp only [if_neg hsch]
    exact Pruned.terminates_section (ha store hs).2 name

/-- Parsing a notebook terminates if no object of its files that can be got to is its own descendant and
there is a limit on the length of the paths that can be opened (as `PATH_MAX` on Unix). The limit is needed
as a directory can contain a link to itself. -/
theorem C41_notebook_partial (env : Env) (path : Path) (limit : Nat)
    (hl : ∀ p : Path, limit < p.length → env.fs.read p = none)
    (hs : ∀ p data, env.fs.read p = some data → readStore env.ord data ≠ .error .fuel ∧
      ∀ store, readStore env.ord data = .ok store → NoCycleStore store) :
    Terminates fun n => parseNotebook { env with fuel := n } n path :=
  Pruned.terminates_notebook env limit hl hs (limit + 1) path (by omega)

/-- Conversely, a page is only ever shown if none of its parts contains itself: no object is stored for a
place on the page and for another one of the same kind inside it. -/
theorem C41_page_cycle (space : ObjectSpace) (n : Nat) (p : Page) (h : parsePage n space = .ok p)
    (pl more : Places.Place) (id : ExGuid) (hid : Places.StoredAt space pl id)
    (hin : Places.StoredAt space (more ++ pl) id) (hk : Places.SameSort pl (more ++ pl)) : more = [] :=
  Placed.no_cycle (page_iff.1 ⟨n, h⟩) hid hin hk

/-- So a file with a page of which a part contains itself is never shown, with any number of calls: parsing
it gives an error or does not end. -/
theorem C41_cycle_not_shown (n : Nat) (ord : Order) (data : Bytes) (name : Text) (store : Store)
    (hst : readStore ord data = .ok store) (cells : List (List CellId)) (hc : PageCells store.dataRoot cells)
    (i j : Nat) (c : CellId) (hj : (cells[i]? >>= fun cs => cs[j]?) = some c) (space : ObjectSpace)
    (hsp : store.objectSpace c = some space) (pl more : Places.Place) (id : ExGuid)
    (hid : Places.StoredAt space pl id) (hin : Places.StoredAt space (more ++ pl) id)
    (hk : Places.SameSort pl (more ++ pl)) (hm : more ≠ []) (s : Section) :
    parseSectionBuffer n ord data name ≠ .ok s := by
  intro h
  unfold parseSectionBuffer at h
  rw [bind_of_ok hst] at h
  split at h
  · cases h
  obtain ⟨p, hp⟩ := Placed.page_listed (section_iff.1 ⟨n, h⟩) hc hj hsp
  exact hm (Placed.no_cycle hp hid hin hk)

/-- A page with an outline of nested elements, two of which share a child. -/
private def nestedFile : Bytes :=
  sectionFile none [3001] [outlineW 3001 [3002, 3003], outlineElementW 3002 [3003, 3004] [] [],
    outlineElementW 3003 [3004] [] [], outlineElementW 3004 [] [] []]

private theorem nested_acyclic :
    readStore Order.id nestedFile ≠ .error .fuel ∧
      ∀ store, readStore Order.id nestedFile = .ok store → NoCycleStore store := by
  have h : (readStore Order.id nestedFile).toOption.map
      (rankedStore fun id => 10000 - id.value) = some true := by
    decide +kernel
  obtain ⟨store, hs, hr⟩ := Option.map_eq_some_iff.mp h
  rw [toOption_some hs]
  exact ⟨(by simp), fun s h => by cases h; exact Pruned.noCycleStore_of_acyclic (acyclicStore_of_rank hr)⟩

/-- A file with nested and shared objects meets the hypotheses of `C41_buffer_partial`. -/
example : Terminates fun n => parseSectionBuffer n Order.id nestedFile ['s'] :=
  C41_buffer_partial Order.id nestedFile ['s'] nested_acyclic.1 nested_acyclic.2

/-- Its elements are nested three deep, and three calls are enough for them. -/
example : ((parseSectionBuffer 2 Order.id nestedFile ['s']).toOption.isSome,
    (parseSectionBuffer 3 Order.id nestedFile ['s']).toOption.isSome) = (false, true) := by
  decide +kernel

/-- A page with an outline, and an element that is its own child and that nothing else refers to. -/
private def deletedCycle : Bytes :=
  sectionFile none [3001] [outlineW 3001 [], outlineElementW 3002 [3002] [] []]

/-- It meets the hypotheses too. -/
example : Terminates fun n => parseSectionBuffer n Order.id deletedCycle ['s'] := by
  have h : ((readStore Order.id deletedCycle).toOption.map fun store =>
      Pruned.rankedIn ([1000, 1001, 1002, 2001, 2002, 2003, 3001].map sx) (fun id => 10000 - id.value)
        store.dataRoot && store.objectSpaces.all fun s => Pruned.rankedIn
          ([1000, 1001, 1002, 2001, 2002, 2003, 3001].map sx) (fun id => 10000 - id.value) s.2) =
      some true := by
    decide +kernel
  obtain ⟨store, hs, hr⟩ := Option.map_eq_some_iff.mp h
  have hs := toOption_some hs
  exact C41_buffer_partial Order.id deletedCycle ['s'] (by rw [hs]; simp) fun s h => by
    rw [hs] at h; cases h; exact Pruned.noCycleStore_of hr

/-- A notebook directory with a table of contents and one section. -/
private def nestedEnv : Env :=
  let toc : Path := [.normal ['d'], .normal ['t']]
  let file : Path := [.normal ['d'], .normal ['s']]
  { fs := { pathExists := fun p => p == file, isFile := fun p => p == file
            canonicalize := some, readDir := fun _ => none
            read := fun p => if p = toc then some (tocFile [(1, ['s'])])
              else if p = file then some nestedFile else none }
    sanitise := id, ord := Order.id, fuel := 0 }

private theorem nestedEnv_limit (p : Path) (h : 2 < p.length) : nestedEnv.fs.read p = none := by
  show (if p = _ then _ else if p = _ then _ else _) = _
  rw [if_neg (by rintro rfl; exact absurd h (by decide)),
    if_neg (by rintro rfl; exact absurd h (by decide))]

private theorem toc_acyclic :
    readStore Order.id (tocFile [(1, ['s'])]) ≠ .error .fuel ∧
      ∀ store, readStore Order.id (tocFile [(1, ['s'])]) = .ok store → NoCycleStore store := by
  have h : (readStore Order.id (tocFile [(1, ['s'])])).toOption.map
      (rankedStore fun id => 10000 - id.value) = some true := by
    decide +kernel
  obtain ⟨store, hs, hr⟩ := Option.map_eq_some_iff.mp h
  rw [toOption_some hs]
  exact ⟨(by simp), fun s h => by cases h; exact Pruned.noCycleStore_of_acyclic (acyclicStore_of_rank hr)⟩

/-- It meets the hypotheses of `C41_notebook_partial`, and it has an entry. -/
example : Terminates fun n =>
    parseNotebook { nestedEnv with fuel := n } n [.normal ['d'], .normal ['t']] := by
  refine C41_notebook_partial nestedEnv _ 2 nestedEnv_limit fun p data hd => ?_
  change (if p = _ then _ else if p = _ then _ else _) = _ at hd
  split at hd
  · cases hd; exact toc_acyclic
  · split at hd
    · cases hd; exact nested_acyclic
    · cases hd

example : ((parseNotebook { nestedEnv with fuel := 3 } 3
    [.normal ['d'], .normal ['t']]).toOption.map fun n => n.entries.length) = some 1 := by
  decide +kernel

/-- A page with an outline whose only element is its own child. -/
private def cyclicFile : Bytes :=
  sectionFile none [3001] [outlineW 3001 [3002], outlineElementW 3002 [3002] [] []]

private theorem cyclicFile_plain : PlainFile cyclicFile :=
  sectionFile_plain (by decide +kernel) (PlainSamples.package_unambiguous (by decide +kernel)
    (by decide +kernel) (by decide +kernel))

/-- Whether the first item of the first outline of a section is an element and its first child is
itself. -/
private def cyclicSection (store : Store) : Option Unit :=
  if store.schema ≠ sectionSchema then none else
  (firstItem store).bind fun p => selfChild p.1 p.2

/-- The property in full is false: there is a file of which the store can be read, and building the
section from it does not end, with any hash order. -/
theorem C41_refuted :
    ∃ data store, readStore Order.id data = .ok store ∧
      (∀ name, Diverges fun n => parseSectionStore n store name) ∧
      ∀ ord name, Diverges fun n => parseSectionBuffer n ord data name := by
  have h : (readStore Order.id cyclicFile).toOption.bind cyclicSection = some () := by
    decide +kernel
  obtain ⟨store, hs, h⟩ := Option.bind_eq_some_iff.mp h
  have hs := toOption_some hs
  unfold cyclicSection at h
  split at h
  · cases h
  rename_i hsch
  obtain ⟨⟨space, x⟩, hp, hx⟩ := Option.bind_eq_some_iff.mp h
  have key : ∀ name, Diverges fun n => parseSectionStore n store name := fun name n =>
    firstItem_diverges hp (selfChild_diverges hx n) name
  refine ⟨cyclicFile, store, hs, key, fun ord name n => ?_⟩
  show parseSectionBuffer n ord cyclicFile name = _
  rw [any_order cyclicFile_plain hs]
  unfold parseSectionBuffer
  rw [bind_of_ok hs, if_neg hsch]
  exact key name n

/-- The first item of the first outline of a page, if it is an element and its own first child, the pages
of the section, and the object space of the first page. -/
private def selfItem (store : Store) : Option (List (List CellId) × CellId × ObjectSpace × ExGuid) := do
  let top ← store.dataRoot.roots.get? .defaultContent
  let so ← store.dataRoot.getObject top
  let sn ← (SectionNode.parse so).toOption
  let series ← sn.pageSeries.head?
  let po ← store.dataRoot.getObject series
  let pn ← (PageSeriesNode.parse po).toOption
  let c ← pn.pageSpaces[0]?
  let space ← store.objectSpace c
  let root ← space.roots.get? .defaultContent
  let k ← space.getObject root
  let page ← (PageManifestNode.parse k).toOption
  let o ← space.getObject page
  let n ← (PageNode.parse o).toOption
  let outline ← n.content[0]?
  let o' ← space.getObject outline
  let n' ← (OutlineNode.parse o').toOption
  let item ← n'.children[0]?
  let o'' ← space.getObject item
  let n'' ← (OutlineElementNode.parse o'').toOption
  let child ← n''.children[0]?
  if child = item ∧ sn.pageSeries = [series] then some ([pn.pageSpaces], c, space, item) else none

private theorem selfItem_spec {store : Store} {cells : List (List CellId)} {c : CellId}
    {space : ObjectSpace} {id : ExGuid} (h : selfItem store = some (cells, c, space, id)) :
    PageCells store.dataRoot cells ∧ (cells[0]? >>= fun cs => cs[0]?) = some c ∧
      store.objectSpace c = some space ∧ Places.StoredAt space [.item 0, .page 0] id ∧
      Places.StoredAt space [.item 0, .item 0, .page 0] id := by
  unfold selfItem at h
  obtain ⟨top, h1, h⟩ := Option.bind_eq_some_iff.1 h
  obtain ⟨so, h2, h⟩ := Option.bind_eq_some_iff.1 h
  obtain ⟨sn, h3, h⟩ := Option.bind_eq_some_iff.1 h
  obtain ⟨series, h4, h⟩ := Option.bind_eq_some_iff.1 h
  obtain ⟨po, h5, h⟩ := Option.bind_eq_some_iff.1 h
  obtain ⟨pn, h6, h⟩ := Option.bind_eq_some_iff.1 h
  obtain ⟨c', h7, h⟩ := Option.bind_eq_some_iff.1 h
  obtain ⟨space', h8, h⟩ := Option.bind_eq_some_iff.1 h
  obtain ⟨root, h9, h⟩ := Option.bind_eq_some_iff.1 h
  obtain ⟨k, h10, h⟩ := Option.bind_eq_some_iff.1 h
  obtain ⟨page, h11, h⟩ := Option.bind_eq_some_iff.1 h
  obtain ⟨o, h12, h⟩ := Option.bind_eq_some_iff.1 h
  obtain ⟨n, h13, h⟩ := Option.bind_eq_some_iff.1 h
  obtain ⟨outline, h14, h⟩ := Option.bind_eq_some_iff.1 h
  obtain ⟨o', h15, h⟩ := Option.bind_eq_some_iff.1 h
  obtain ⟨n', h16, h⟩ := Option.bind_eq_some_iff.1 h
  obtain ⟨item, h17, h⟩ := Option.bind_eq_some_iff.1 h
  obtain ⟨o'', h18, h⟩ := Option.bind_eq_some_iff.1 h
  obtain ⟨n'', h19, h⟩ := Option.bind_eq_some_iff.1 h
  obtain ⟨child, h20, h⟩ := Option.bind_eq_some_iff.1 h
  split at h
  · rename_i he
    obtain ⟨rfl, hs⟩ := he
    cases h
    have hi : Places.StoredAt space [.item 0, .page 0] id :=
      .pageItem (.page h9 h10 (PageManifestNode.parse_iff.1 (toOption_some h11)) h12
        (PageNode.parse_iff.1 (toOption_some h13)) h14) h15 (OutlineNode.parse_iff.1 (toOption_some h16)) h17
    refine ⟨⟨top, so, sn, h1, h2, SectionNode.parse_iff.1 (toOption_some h3), ?_⟩, h7, h8, hi,
      .childItem hi ⟨0, .inl rfl⟩ h18 (OutlineElementNode.parse_iff.1 (toOption_some h19)) h20⟩
    rw [hs]
    exact .cons ⟨po, pn, h5, PageSeriesNode.parse_iff.1 (toOption_some h6), rfl⟩ .nil
  · cases h

/-- The file meets the hypotheses of `C41_cycle_not_shown`. -/
example (n : Nat) (name : Text) (s : Section) : parseSectionBuffer n Order.id cyclicFile name ≠ .ok s := by
  have h : ((readStore Order.id cyclicFile).toOption.bind selfItem).isSome = true := by decide +kernel
  obtain ⟨⟨cells, c, space, id⟩, h⟩ := Option.isSome_iff_exists.1 h
  obtain ⟨store, hs, h⟩ := Option.bind_eq_some_iff.1 h
  obtain ⟨h1, h2, h3, h4, h5⟩ := selfItem_spec h
  exact C41_cycle_not_shown n Order.id cyclicFile name store (toOption_some hs) cells h1 0 0 c h2 space h3
    [.item 0, .page 0] [.item 0] id h4 h5 trivial (List.cons_ne_nil _ _) s

/-- A table of contents whose only folder contains itself. -/
private def cyclicToc : Bytes :=
  storeFile tocGuid [.root contentRole (sx 1000)]
    [objectW 1000 .tocContainer [(.tocChildren, .objectIds 1)] [1000]]

private def selfToc (space : ObjectSpace) : Option Unit := do
  let id ← space.contentRoot
  let o ← (space.object id).toOption
  let d ← (TocContainer.parse o).toOption
  if d.filename.isSome then none else
  let x ← d.children.head?
  if x = id then some () else none

/-- The same for a table of contents. -/
theorem C41_toc_refuted :
    ∃ data store, readStore Order.id data = .ok store ∧
      Diverges fun n => parseToc n store.dataRoot := by
  have h : ((readStore Order.id cyclicToc).toOption.bind fun s => selfToc s.dataRoot) = some () := by
    decide +kernel
  obtain ⟨store, hs, h⟩ := Option.bind_eq_some_iff.mp h
  refine ⟨cyclicToc, store, toOption_some hs, ?_⟩
  unfold selfToc at h
  obtain ⟨id, h1, h⟩ := Option.bind_eq_some_iff.mp h
  obtain ⟨o, h2, h⟩ := Option.bind_eq_some_iff.mp h
  obtain ⟨d, h3, h⟩ := Option.bind_eq_some_iff.mp h
  split at h
  · cases h
  rename_i hf
  obtain ⟨x, h4, h⟩ := Option.bind_eq_some_iff.mp h
  split at h
  · rename_i hx
    subst hx
    have hf : d.filename = none := by
      cases hd : d.filename with
      | none => rfl
      | some _ => rw [hd] at hf; exact absurd rfl hf
    have key : ∀ n, parseTocEntry store.dataRoot n x = .error .fuel := by
      intro n
      induction n with
      | zero => rfl
      | succ n ih =>
        unfold parseTocEntry
        rw [bind_of_ok (toOption_some h2), bind_of_ok (toOption_some h3), hf]
        show (d.children.mapM _ >>= _) = _
        rw [mapM_first h4 ih]
        rfl
    intro n
    show parseToc n _ = _
    unfold parseToc
    rw [h1]
    show (parseTocEntry store.dataRoot n x >>= _) = _
    rw [key]
    rfl
  · cases h

/-! ### A directory with a link to itself -/

private def linkToc : Bytes := tocFile [(1, ['g'])]

private def tocName : Component := .normal ['t', '.', 'o', 'n', 'e', 't', 'o', 'c', '2']

/-- The directory `d`, also got to by its link `g` to itself. -/
private def isLinkDir (p : Path) : Bool :=
  p.head? == some (.normal ['d']) && p.tail.all (· == .normal ['g'])

private def isLinkToc (p : Path) : Bool := p.getLast? == some tocName && isLinkDir p.dropLast

/-- A directory `d` with a table of contents and a link `g` to `d`. -/
private def linkFs (toc : Bytes) : FileSystem where
  pathExists p := isLinkDir p || isLinkToc p
  isFile p := isLinkToc p
  canonicalize p := if isLinkDir p || isLinkToc p then some (p.filter (· ≠ .normal ['g'])) else none
  readDir p := if isLinkDir p then some [some ['g'], some ['t', '.', 'o', 'n', 'e', 't', 'o', 'c', '2']] else none
  read p := if isLinkToc p then some toc else none

/-- The directory by way of `k` links. -/
private def linkDir (k : Nat) : Path := .normal ['d'] :: List.replicate k (.normal ['g'])

private theorem linkDir_is (k : Nat) : isLinkDir (linkDir k) = true := by
  unfold isLinkDir linkDir
  simp

private theorem linkDir_step (k : Nat) : linkDir k ++ [.normal ['g']] = linkDir (k + 1) := by
  unfold linkDir
  rw [List.replicate_succ']
  rfl

private theorem linkToc_is (k : Nat) : isLinkToc (linkDir k ++ [tocName]) = true := by
  unfold isLinkToc
  rw [List.getLast?_append, List.dropLast_concat, linkDir_is]
  rfl

private theorem linkDir_not_file (k : Nat) : isLinkToc (linkDir k) = false := by
  have h : (linkDir k).getLast? ≠ some tocName := by
    intro h
    have := List.mem_of_getLast? h
    unfold linkDir at this
    rcases List.mem_cons.1 this with h | h
    · exact absurd h (by decide)
    · exact absurd (List.eq_of_mem_replicate h) (by decide)
  unfold isLinkToc
  rw [beq_eq_false_iff_ne.2 h]
  rfl

private theorem linkDir_canon (k : Nat) : (linkDir k).filter (· ≠ .normal ['g']) = [.normal ['d']] := by
  unfold linkDir
  rw [List.filter_cons, if_pos (by decide), List.filter_replicate, if_neg (by decide)]

private theorem link_entry (toc : Bytes) (k : Nat) :
    resolveEntryPath (linkFs toc) id (linkDir k) ['g'] = .ok (linkDir (k + 1)) := by
  have hc : checkInside (linkFs toc) (linkDir k) (linkDir (k + 1)) = .ok () := by
    unfold checkInside
    have h1 : (linkFs toc).pathExists (linkDir (k + 1)) = true := by
      show (isLinkDir _ || _) = true
      rw [linkDir_is]; rfl
    have h2 : ∀ k, (linkFs toc).canonicalize (linkDir k) = some [.normal ['d']] := by
      intro k
      show (if (isLinkDir _ || _) = true then _ else _) = _
      rw [linkDir_is, linkDir_canon]; rfl
    rw [if_pos h1, h2, h2]
    decide
  unfold resolveEntryPath
  rw [if_neg (by decide), show (componentsOf ['g']).mapM (resolveComponent id) = .ok [some (.normal ['g'])] by
    decide +kernel]
  show (checkInside (linkFs toc) (linkDir k) (linkDir k ++ [.normal ['g']]) >>= fun _ => _) = _
  rw [linkDir_step, hc]
  show Except.ok (linkDir k ++ [.normal ['g']]) = _
  rw [linkDir_step]

private def linkEnv (toc : Bytes) : Env := ⟨(linkFs toc), id, Order.id, 0⟩

private theorem link_diverges {toc : Bytes} {store : Store} (hs : readStore Order.id toc = .ok store)
    (hsch : store.schema = tocSchema) {color : Option Color}
    (ht : parseToc 2 store.dataRoot = .ok ([['g']], color)) (m n k : Nat) :
    parseNotebook { linkEnv toc with fuel := m } n (linkDir k ++ [tocName]) = .error .fuel := by
  induction n generalizing k with
  | zero => rfl
  | succ n ih =>
    have hread : (linkFs toc).read (linkDir k ++ [tocName]) = some toc := by
      show (if isLinkToc _ = true then _ else _) = _
      rw [linkToc_is, if_pos rfl]
    have hparent : Path.parent (linkDir k ++ [tocName]) = some (linkDir k) := by
      unfold Path.parent
      rw [List.getLast?_append, List.dropLast_concat]
      rfl
    have hname : Path.fileName (linkDir (k + 1)) = some ['g'] := by
      rw [← linkDir_step]
      unfold Path.fileName
      rw [List.getLast?_append]
      rfl
    have hdir : (linkFs toc).readDir (linkDir (k + 1)) =
        some [some ['g'], some ['t', '.', 'o', 'n', 'e', 't', 'o', 'c', '2']] := by
      show (if isLinkDir _ = true then _ else _) = _
      rw [linkDir_is, if_pos rfl]
    have hfind : findToc (linkDir (k + 1)) [some ['g'], some ['t', '.', 'o', 'n', 'e', 't', 'o', 'c', '2']] =
        .ok (linkDir (k + 1) ++ [tocName]) := by
      have e : ∀ x : Text, Path.extension (Path.join (linkDir (k + 1)) [.normal x]) = Path.extensionOf x := by
        intro x
        unfold Path.extension Path.fileName Path.join
        rw [List.getLast?_append]
        rfl
      unfold findToc
      simp only [e]
      rw [if_neg (by decide)]
      unfold findToc
      simp only [e]
      rw [if_pos (by decide)]
      rfl
    have hentry : parseEntry (parseNotebook { linkEnv toc with fuel := m } n) { linkEnv toc with fuel := m }
        (linkDir (k + 1)) = .error .fuel := by
      unfold parseEntry
      rw [if_neg (by show ¬ isLinkToc _ = true; rw [linkDir_not_file]; simp)]
      unfold parseSectionGroup
      rw [hname]
      show SectionEntry.sectionGroup <$> (orErr .io ((linkFs toc).readDir (linkDir (k + 1))) >>= fun names =>
        findToc _ names >>= _) = _
      rw [hdir]
      show SectionEntry.sectionGroup <$> (findToc _ _ >>= _) = _
      rw [hfind]
      show SectionEntry.sectionGroup <$> (parseNotebook _ n _ >>= _) = _
      rw [ih]
      rfl
    have hkeep : keepEntry { linkEnv toc with fuel := m } (linkDir (k + 1)) = true := by
      unfold keepEntry
      have h1 : (linkFs toc).pathExists (linkDir (k + 1)) = true := by
        show (isLinkDir _ || _) = true
        rw [linkDir_is]; rfl
      have h2 : Path.endsWith (linkDir (k + 1)) [.normal recycleBin] = false := by
        rw [Bool.eq_false_iff]
        intro h
        obtain ⟨t, ht⟩ := List.isSuffixOf_iff_suffix.1 h
        rw [← linkDir_step] at ht
        have := List.append_inj_right' ht rfl
        exact absurd this (by decide)
      show ((linkFs toc).pathExists _ && !_) = true
      rw [h1, h2]; rfl
    unfold parseNotebook
    show (orErr .io ((linkFs toc).read _) >>= fun data => readStore Order.id data >>= _) = _
    rw [hread]
    show (readStore Order.id toc >>= _) = _
    rw [bind_of_ok hs, if_neg (not_not_intro hsch), hparent]
    show (parseToc m store.dataRoot >>= _) = _
    have hm : parseToc m store.dataRoot = .error .fuel ∨
        parseToc m store.dataRoot = .ok ([['g']], color) := by
      by_cases h2 : 2 ≤ m
      · rcases refines_toc store.dataRoot h2 with h | h
        · rw [ht] at h; cases h
        · exact .inr (h.symm.trans ht)
      · rcases refines_toc store.dataRoot (show m ≤ 2 by omega) with h | h
        · exact .inl h
        · exact .inr (h.trans ht)
    rcases hm with hm | hm
    · rw [hm]; rfl
    · rw [hm]
      show ([['g']].mapM (resolveEntryPath (linkFs toc) id (linkDir k)) >>= _) = _
      rw [List.mapM_cons, link_entry]
      show (([linkDir (k + 1)].filter (keepEntry { linkEnv toc with fuel := m })).mapM
        (parseEntry (parseNotebook { linkEnv toc with fuel := m } n) { linkEnv toc with fuel := m }) >>=
        fun entries => (pure ⟨entries, color⟩ : Res Notebook)) = _
      rw [List.filter_cons, if_pos hkeep, List.filter_nil, List.mapM_cons, hentry]
      rfl

private theorem read_link {toc : Bytes} {p : Path} {d : Bytes}
    (h : (linkFs toc).read p = some d) : isLinkToc p = true ∧ toc = d := by
  have key : ∀ (toc : Bytes) (b : Bool), (if b = true then some toc else none) = some d → b = true ∧ toc = d := by
    intro toc b h
    cases b
    · cases h
    · exact ⟨rfl, Option.some.inj h⟩
  exact key toc _ h

/-- The limit on the length of paths in `C41_notebook_partial` is needed: without one, a notebook does not
end that is a directory with a single file on the disk, without any cycle in it, a table of contents that
lists a link to the directory itself. The check that entries are inside of the directory does not find this.
Operating systems do have limits (Linux refuses paths with more than 40 links), so that there the parser ends
with the error of the operating system. -/
theorem C41_link_refuted : ∃ (env : Env) (path file : Path) (data : Bytes) (store : Store),
    (∀ p d, env.fs.read p = some d → env.fs.canonicalize p = some file ∧ d = data) ∧
    readStore env.ord data = .ok store ∧ NoCycleStore store ∧
    Diverges fun n => parseNotebook { env with fuel := n } n path := by
  have h : (readStore Order.id linkToc).toOption.bind (fun store =>
      if store.schema = tocSchema ∧ rankedStore (fun id => 10000 - id.value) store = true then
        (parseToc 2 store.dataRoot).toOption.map Prod.fst else none) = some [['g']] := by
    decide +kernel
  obtain ⟨store, hs, h⟩ := Option.bind_eq_some_iff.1 h
  have hs := toOption_some hs
  split at h
  · rename_i hc
    obtain ⟨⟨names, color⟩, ht, rfl⟩ := Option.map_eq_some_iff.1 h
    refine ⟨linkEnv linkToc, linkDir 0 ++ [tocName], [.normal ['d'], tocName], linkToc, store, fun p d hd => ?_, hs,
      Pruned.noCycleStore_of_acyclic (acyclicStore_of_rank hc.2), fun n =>
        link_diverges hs hc.1 (toOption_some ht) n n 0⟩
    obtain ⟨hp, rfl⟩ := read_link hd
    · refine ⟨?_, rfl⟩
      show (if (isLinkDir p || isLinkToc p) = true then _ else _) = _
      rw [hp, Bool.or_true, if_pos rfl]
      unfold isLinkToc isLinkDir at hp
      obtain ⟨h1, h2⟩ := Bool.and_eq_true_iff.1 hp
      obtain ⟨h2, h3⟩ := Bool.and_eq_true_iff.1 h2
      have h1 := eq_of_beq h1
      obtain ⟨ys, rfl⟩ := List.getLast?_eq_some_iff.1 h1
      rw [List.dropLast_concat] at h2 h3
      cases ys with
      | nil => cases h2
      | cons y ys =>
        cases Option.some.inj (eq_of_beq h2)
        have h3 : ∀ x ∈ ys, x = .normal ['g'] := fun x hx => eq_of_beq (List.all_eq_true.1 h3 x hx)
        rw [List.eq_replicate_of_mem h3]
        show some (List.filter _ (linkDir ys.length ++ [tocName])) = _
        rw [List.filter_append, linkDir_canon]
        rfl
  · cases h

end OneNote

#print axioms OneNote.C41_more_calls
#print axioms OneNote.C41_more_calls_notebook
#print axioms OneNote.C41_section_partial
#print axioms OneNote.C41_buffer_partial
#print axioms OneNote.C41_notebook_partial
#print axioms OneNote.C41_page_cycle
#print axioms OneNote.C41_cycle_not_shown
#print axioms OneNote.C41_refuted
#print axioms OneNote.C41_toc_refuted
#print axioms OneNote.C41_link_refuted
