/-
Saving a notebook that was read: which names it has, and how its files are called.
-/
import Verif.Spec.Resaved
import Verif.Lemmas.Folder
import Verif.Lemmas.BoundedDocument
import Verif.Lemmas.Copies

namespace OneNote.Resaved

open Spec Spec.Document Spec.Storable Spec.Writer Spec.Folder Spec.Toc Writer

/-! ### Names that are read -/

theorem unescaped_plain {s t : Text} (h : Value.Unescaped s t) (hs : nul ∉ s) : nul ∉ t := by
  induction h with
  | nil => exact hs
  | plus _ ih =>
    simp only [List.mem_cons, not_or] at hs ⊢
    exact ⟨by decide, ih hs.2.2⟩
  | comma _ ih =>
    simp only [List.mem_cons, not_or] at hs ⊢
    exact ⟨by decide, ih hs.2.2⟩
  | other _ _ ih =>
    simp only [List.mem_cons, not_or] at hs ⊢
    exact ⟨hs.1, ih hs.2⟩

/-- A name begins with `M` or `J` only if what is stored does. -/
theorem unescaped_head {s t r : Text} {c : Char} (hc : c = 'M' ∨ c = 'J') (h : Value.Unescaped s t)
    (ht : t = c :: r) : ∃ r', s = c :: r' := by
  cases h with
  | nil => cases ht
  | plus _ => obtain ⟨rfl, -⟩ := List.cons.inj ht; rcases hc with hc | hc <;> exact absurd hc (by decide)
  | comma _ => obtain ⟨rfl, -⟩ := List.cons.inj ht; rcases hc with hc | hc <;> exact absurd hc (by decide)
  | other _ _ => obtain ⟨rfl, -⟩ := List.cons.inj ht; exact ⟨_, rfl⟩

theorem unescaped_caret {s t : Text} (h : Value.Unescaped s t) : NoCaret t := by
  have key : ∀ {d : Char}, d = 'M' ∨ d = 'J' → ∀ a b, t ≠ a ++ '^' :: d :: b := by
    intro d hd
    induction h with
    | nil => intro a b e; cases a <;> cases e
    | plus _ ih =>
      intro a b e
      cases a with
      | nil => exact absurd (List.cons.inj e).1 (by decide)
      | cons x a => exact ih a b (List.cons.inj e).2
    | comma _ ih =>
      intro a b e
      cases a with
      | nil => exact absurd (List.cons.inj e).1 (by decide)
      | cons x a => exact ih a b (List.cons.inj e).2
    | other hn hu ih =>
      intro a b e
      cases a with
      | nil =>
        obtain ⟨rfl, e'⟩ := List.cons.inj e
        obtain ⟨r, rfl⟩ := unescaped_head hd hu e'
        rcases hd with rfl | rfl
        · exact hn ⟨rfl, r, .inl rfl⟩
        · exact hn ⟨rfl, r, .inr rfl⟩
      | cons x a => exact ih a b (List.cons.inj e).2
  exact fun a b => ⟨key (.inl rfl) a b, key (.inr rfl) a b⟩

theorem container_name {o : Object} {t : TocContainer} (h : Objects.IsTocContainer o t) {name : Text}
    (hn : t.filename = some name) : Plain name ∧ NoCaret name := by
  rcases h.filename with ⟨_, e⟩ | ⟨v, a, _, ⟨s, ⟨_, _, hp, _⟩, hu⟩, e⟩
  · rw [hn] at e; cases e
  · rw [hn] at e
    cases e
    exact ⟨unescaped_plain hu hp, unescaped_caret hu⟩

mutual

theorem tree_names {space : ObjectSpace} {id : ExGuid} {entries : List (Nat × Text)} :
    TocTree space id entries → ∀ e ∈ entries, Plain e.2 ∧ NoCaret e.2
  | .file _ hc hn _ => fun e he => by
    rw [List.mem_singleton.1 he]
    exact container_name hc hn
  | .folder _ _ _ h => trees_names h

theorem trees_names {space : ObjectSpace} {ids : List ExGuid} {entries : List (Nat × Text)} :
    TocTrees space ids entries → ∀ e ∈ entries, Plain e.2 ∧ NoCaret e.2
  | .nil => fun _ h => nomatch h
  | .cons h hs => fun e he => by
    rcases List.mem_append.1 he with he | he
    · exact tree_names h e he
    · exact trees_names hs e he

end

theorem repeats_mem {l out : List Text} (h : WithoutRepeats l out) : ∀ n ∈ out, n ∈ l := by
  induction h with
  | none => exact fun _ h => h
  | one a => exact fun _ h => h
  | again _ ih => exact fun n hn => List.mem_cons_of_mem _ (ih n hn)
  | other _ _ ih =>
    intro n hn
    rcases List.mem_cons.1 hn with rfl | hn
    · exact List.mem_cons_self
    · exact List.mem_cons_of_mem _ (ih n hn)

theorem toc_names {data : Bytes} {names : List Text} {color : Option Color} (h : TocFile data names color) :
    (∀ n ∈ names, Plain n ∧ NoCaret n) ∧ Opt ColorOk color := by
  obtain ⟨store, _, _, root, entries, sorted, o, t, _, ht, hs, hr, _, hc, rfl⟩ := h
  refine ⟨fun n hn => ?_, ?_⟩
  · obtain ⟨e, he, rfl⟩ := List.mem_map.1 (repeats_mem hr n hn)
    exact tree_names ht e (hs.same.mem_iff.1 he)
  · rcases hc.color with ⟨_, e⟩ | ⟨v, a, _, ⟨n, _, h1, h2, h3, h4⟩, e⟩
    · rw [e]; exact fun _ h => nomatch h
    · rw [e]
      intro x hx
      cases hx
      exact ⟨by omega, by omega, by omega, by omega⟩

/-! ### Pieces of names -/

theorem pieces_infix {name : Text} {ps : List Text} (h : Pieces name ps) :
    ∀ p ∈ ps, '/' ∉ p ∧ ∃ a b, name = a ++ p ++ b := by
  induction h with
  | last h =>
    intro p hp
    rw [List.mem_singleton.1 hp]
    exact ⟨h, [], [], by simp⟩
  | @slash q s ps h _ ih =>
    intro p hp
    rcases List.mem_cons.1 hp with rfl | hp
    · exact ⟨h, [], '/' :: s, by simp⟩
    · obtain ⟨h1, a, b, rfl⟩ := ih p hp
      exact ⟨h1, q ++ '/' :: a, b, by simp⟩

theorem piece_ok {name p : Text} (h : Plain name ∧ NoCaret name) (hp : ∃ a b, name = a ++ p ++ b) :
    Plain p ∧ ¬ LooksEscaped p := by
  obtain ⟨a, b, rfl⟩ := hp
  refine ⟨fun hn => h.1 (List.mem_append_left _ (List.mem_append_right _ hn)), ?_⟩
  rintro (⟨x, y, rfl⟩ | ⟨x, y, rfl⟩)
  · exact (h.2 (a ++ x) (y ++ b)).1 (by simp)
  · exact (h.2 (a ++ x) (y ++ b)).2 (by simp)

/-- The last name of the path of an entry. -/
theorem entry_name {fs : FileSystem} {sanitise : Text → Text} {base p : Path} {name n : Text}
    (hn : Plain name ∧ NoCaret name) (h : EntryPath fs sanitise base name p)
    (hl : p.getLast? = some (.normal n)) (hk : n ≠ "OneNote_RecycleBin".toList) : NameOk sanitise n := by
  obtain ⟨pieces, hp, _, hd, ⟨m, hm, hm1, hm2⟩, hs, rfl, _⟩ := h
  rw [List.getLast?_append] at hl
  have hne : (pieces.filter fun n => decide (n ≠ [] ∧ n ≠ ['.'])) ≠ [] := by
    intro e
    have : m ∈ pieces.filter fun n => decide (n ≠ [] ∧ n ≠ ['.']) :=
      List.mem_filter.2 ⟨hm, decide_eq_true (And.intro hm1 hm2)⟩
    rw [e] at this
    cases this
  obtain ⟨ini, x, e⟩ := List.eq_nil_or_concat _ |>.resolve_left hne
  rw [e, List.concat_eq_append, List.map_append, List.map_singleton, List.getLast?_concat, Option.some_or] at hl
  cases hl
  have hx : n ∈ pieces.filter fun n => decide (n ≠ [] ∧ n ≠ ['.']) := by
    rw [e, List.concat_eq_append]
    exact List.mem_append_right _ (List.mem_singleton.2 rfl)
  obtain ⟨h1, h2⟩ := List.mem_filter.1 hx
  obtain ⟨h3, h4⟩ := of_decide_eq_true h2
  obtain ⟨h5, h6⟩ := pieces_infix hp n h1
  obtain ⟨h7, h8⟩ := piece_ok hn h6
  exact ⟨⟨h3, h5, h4, fun e => hd (e ▸ h1)⟩, h7, h8, hk, hs n h1 h3 h4⟩

theorem kept_mem {fs : FileSystem} {paths : List Path} {p : Path} (h : p ∈ Kept fs paths) :
    p ∈ paths ∧ ∀ n, p.getLast? = some (.normal n) → n ≠ "OneNote_RecycleBin".toList := by
  obtain ⟨h1, h2⟩ := List.mem_filter.1 h
  refine ⟨h1, ?_⟩
  rintro n hn rfl
  rw [Bool.and_eq_true, hn] at h2
  exact of_decide_eq_true h2.2 rfl

theorem section_at {fs : FileSystem} {sanitise : Text → Text} {p : Path} {s : Section}
    (h : SectionAt fs p s) (hn : ∀ n, p.getLast? = some (.normal n) → NameOk sanitise n) : SectionOk s := by
  obtain ⟨data, name, _, hp, store, hf, _, hi⟩ := h
  obtain ⟨h1, h2⟩ := Bounded.store_fits hf
  exact Bounded.section_ok h1 h2 (hn name hp).plain hi

/-- The name of every path that is shown. -/
theorem paths_named {fs : FileSystem} {sanitise : Text → Text} {base : Path} {names : List Text}
    {paths : List Path} (hn : ∀ n ∈ names, Plain n ∧ NoCaret n)
    (hp : Each (EntryPath fs sanitise base) names paths) {p : Path} (h : p ∈ Kept fs paths) :
    ∀ n, p.getLast? = some (.normal n) → NameOk sanitise n := by
  obtain ⟨h1, h2⟩ := kept_mem h
  obtain ⟨name, hm, he⟩ := each_mem hp h1
  exact fun n hl => entry_name (hn name hm) he hl (h2 n hl)

theorem sections_ok {fs : FileSystem} {sanitise : Text → Text} {path : Path} {nb : Notebook}
    (h : NotebookIs fs sanitise path nb) {s : Section} (hs : Among s nb.entries) : SectionOk s := by
  generalize he : nb.entries = es at hs
  induction hs generalizing path nb with
  | entry hm =>
    cases h with
    | mk _ _ ht hp hes =>
      subst he
      obtain ⟨p, hk, hp'⟩ := each_mem hes hm
      cases hp' with
      | file _ h => exact section_at h (paths_named (toc_names ht).1 hp hk)
  | group hm _ ih =>
    cases h with
    | mk _ _ _ _ hes =>
      subst he
      obtain ⟨p, _, hp⟩ := each_mem hes hm
      cases hp with
      | directory _ _ _ _ h => exact ih h rfl

theorem groups_ok {fs : FileSystem} {sanitise : Text → Text} {path : Path} {nb : Notebook}
    (h : NotebookIs fs sanitise path nb) {g : SectionGroup} (hg : GroupAmong g nb.entries) :
    NameOk sanitise g.displayName := by
  generalize he : nb.entries = es at hg
  induction hg generalizing path nb with
  | entry hm =>
    cases h with
    | mk _ _ ht hp hes =>
      subst he
      obtain ⟨p, hk, hp'⟩ := each_mem hes hm
      cases hp' with
      | directory _ _ _ _ h => exact paths_named (toc_names ht).1 hp hk _ List.getLast?_concat
  | group hm _ ih =>
    cases h with
    | mk _ _ _ _ hes =>
      subst he
      obtain ⟨p, _, hp⟩ := each_mem hes hm
      cases hp with
      | directory _ _ _ _ h => exact ih h rfl

theorem notebook_ok {fs : FileSystem} {sanitise : Text → Text} {path : Path} {nb : Notebook}
    (h : NotebookIs fs sanitise path nb) : NotebookOk sanitise nb := by
  refine ⟨fun _ => sections_ok h, fun _ => groups_ok h, ?_⟩
  cases h with
  | mk _ _ ht _ _ => exact (toc_names ht).2

/-! ### The limits of a table of contents -/

theorem storedName_length (t : Text) : (storedName t).length ≤ 2 * t.length := by
  induction t with
  | nil => exact Nat.le_refl _
  | cons c t ih =>
    rw [storedName_cons]
    split
    · simp only [List.length_cons]; omega
    · split <;> (simp only [List.length_cons]; omega)

theorem units_length (us : List Nat) : (unitBytes us).length = 2 * us.length := by
  unfold unitBytes
  induction us with
  | nil => rfl
  | cons u us ih => rw [List.flatMap_cons, List.length_append, ih, leBytes_length, List.length_cons]; omega

theorem utf16_length (t : Text) : (utf16 t).length ≤ 4 * t.length := by
  unfold utf16
  rw [units_length]
  induction t with
  | nil => exact Nat.le_refl _
  | cons c t ih =>
    rw [List.flatMap_cons, List.length_append, List.length_cons]
    have : (utf16Units c).length ≤ 2 := by unfold utf16Units; split <;> simp
    omega

theorem leaf_short {name : Text} (i : Nat) (h : name.length < 2 ^ 28) :
    (node 0x00020001 none
      [(Word.folderChildFilename, .val (some (Scalar.text (storedName name)))),
       (Word.notebookElementOrderingId, .val (some (.u32 i)))]).Short := by
  have h1 := storedName_length name
  have h2 := utf16_length (storedName name)
  refine .mk (fun _ h => nomatch h) ?_ ?_ (show 0 < 2 ^ 24 by decide) (show 0 < 2 ^ 24 by decide)
    (fun _ h => nomatch h)
  · intro e he
    simp only [List.filterMap_cons, List.filterMap_nil, Field.entry, Option.map_some, List.mem_cons,
      List.not_mem_nil, or_false] at he
    rcases he with rfl | rfl
    · show (utf16 (storedName name)).length < 2 ^ 32
      omega
    · trivial
  · simp only [List.filterMap_cons, List.filterMap_nil, Field.entry, Option.map_some, propsBytes,
      List.flatMap_cons, List.flatMap_nil, Field.children, Field.cellIds, List.append_nil, List.length_nil,
      List.range_zero, List.map_nil, List.length_append, leBytes_length, streamHeader, Entry.bytes,
      Scalar.text, Scalar.val, Val.bytes, Amount.compactIds_length]
    omega

theorem entries_short {names : List Text} (i : Nat) (h : ∀ n ∈ names, n.length < 2 ^ 28) :
    ∀ t ∈ tocEntries i names, t.Short := by
  induction names generalizing i with
  | nil => exact fun _ h => nomatch h
  | cons name names ih =>
    obtain ⟨h1, h2⟩ := List.forall_mem_cons.1 h
    exact List.forall_mem_cons.2 ⟨leaf_short i h1, ih (i + 1) h2⟩

theorem entries_count (i : Nat) (names : List Text) :
    (tocEntries i names).length = names.length ∧ sizes (tocEntries i names) = names.length := by
  induction names generalizing i with
  | nil => exact ⟨rfl, rfl⟩
  | cons name names ih =>
    obtain ⟨h1, h2⟩ := ih (i + 1)
    rw [tocEntries, List.length_cons, h1, sizes, h2, List.length_cons]
    refine ⟨rfl, ?_⟩
    have : (node 0x00020001 none
      [(Word.folderChildFilename, .val (some (Scalar.text (storedName name)))),
       (Word.notebookElementOrderingId, .val (some (.u32 i)))]).size = 1 := rfl
    omega

theorem toc_within {names : List Text} (color : Option Color) (hl : names.length < 2 ^ 24)
    (h : ∀ n ∈ names, n.length < 2 ^ 28) : WithinLimits [tocTrees names color] := by
  obtain ⟨c1, c2⟩ := entries_count 0 names
  have e : ([(Word.tocChildren, Field.many (tocEntries 0 names)),
     (Word.sectionColor, .val (color.map Scalar.color))].flatMap fun f => f.2.children) =
      tocEntries 0 names := by simp [Field.children]
  refine ⟨fun p hp => ?_, ?_⟩
  · rw [List.mem_singleton.1 hp]
    refine ⟨?_, .mk (fun _ h => nomatch h) (fun _ h => nomatch h) (by decide) (by decide) (by decide)
      (fun _ h => nomatch h)⟩
    unfold tocTrees node
    rw [e]
    refine .mk (fun _ h => nomatch h) ?_ ?_ ?_ (by rw [c1]; exact hl) (entries_short 0 h)
    · intro x hx
      cases color with
      | none =>
        simp only [List.filterMap_cons, List.filterMap_nil, Field.entry, Option.map_some, Option.map_none,
          List.mem_cons, List.not_mem_nil, or_false] at hx
        subst hx
        show (tocEntries 0 names).length < 2 ^ 32
        omega
      | some c =>
        simp only [List.filterMap_cons, List.filterMap_nil, Field.entry, Option.map_some,
          List.mem_cons, List.not_mem_nil, or_false] at hx
        rcases hx with rfl | rfl
        · show (tocEntries 0 names).length < 2 ^ 32
          omega
        · trivial
    · cases color <;>
      · simp only [List.filterMap_cons, List.filterMap_nil, Field.entry, Option.map_some, Option.map_none,
          propsBytes, List.flatMap_cons, List.flatMap_nil, Field.cellIds, List.append_nil,
          List.length_nil, List.range_zero, List.map_nil, List.length_append, leBytes_length, streamHeader,
          Entry.bytes, Scalar.color, Scalar.val, Val.bytes, Amount.compactIds_length, List.length_map,
          List.length_range]
        omega
    · simp [Field.cellIds]
  · have h1 : (tocTrees names color).1.size = names.length + 1 := by
      unfold tocTrees node
      rw [e, Tree.size, c2]
    have h2 : (tocTrees names color).2.size = 1 := rfl
    rw [List.map_singleton, List.sum_singleton, h1, h2]
    omega

/-! ### Names for the files -/

theorem among_mono {s : Section} {g : SectionGroup} {es : List SectionEntry} (hg : .sectionGroup g ∈ es)
    (h : Among s g.entries) : Among s es := .group hg h

theorem group_name_mem {g : SectionGroup} {es : List SectionEntry} (h : .sectionGroup g ∈ es) :
    g.displayName ∈ groupNames es := by
  induction es with
  | nil => cases h
  | cons e es ih =>
    rcases List.mem_cons.1 h with rfl | h'
    · exact List.mem_cons_self
    · cases e with
      | «section» s => exact ih h'
      | sectionGroup g' => exact List.mem_cons_of_mem _ (ih h')

theorem length_saved (saved : List Saved) : (savedEntries saved).length = saved.length := by
  rw [OneNote.Folder.savedEntries_eq, List.length_map]

theorem groupNames_length (es : List SectionEntry) : (groupNames es).length ≤ es.length := by
  induction es with
  | nil => exact Nat.le_refl _
  | cons e es ih =>
    cases e with
    | «section» s => rw [groupNames, List.length_cons]; omega
    | sectionGroup g => rw [groupNames, List.length_cons, List.length_cons]; omega

/-- The entries under names that are not used otherwise. -/
theorem level {sanitise : Text → Text} (many : ManyNames sanitise) (reserved : List Text)
    (es : List SectionEntry) (hs : ∀ s, .section s ∈ es → SectionOk s ∧ SectionWithin s)
    (hg : ∀ g, .sectionGroup g ∈ es → (NameOk sanitise g.displayName ∧ g.displayName.length < 2 ^ 28) ∧
      ∃ toc saved, TocName toc ∧ EntriesOk sanitise toc saved none ∧ savedEntries saved = g.entries)
    (hr : ∀ n ∈ groupNames es, n ∈ reserved) (hd : (groupNames es).Nodup)
    (hl : reserved.length + es.length < 2 ^ 26) :
    ∃ saved, savedEntries saved = es ∧
      (∀ e ∈ saved, (NameOk sanitise e.name ∧ e.name.length < 2 ^ 28) ∧
        (e.name ∈ groupNames es ∨ e.name ∉ reserved)) ∧
      (saved.map (·.name)).Nodup ∧
      (∀ file s, .section file s ∈ saved → SectionOk s ∧ SectionWithin s) ∧
      (∀ name toc es, .group name toc es ∈ saved → TocName toc ∧ EntriesOk sanitise toc es none) := by
  induction es with
  | nil =>
    exact ⟨[], rfl, fun _ h => (nomatch h), .nil, fun _ _ h => (nomatch h), fun _ _ _ h => (nomatch h)⟩
  | cons e es ih =>
    cases e with
    | «section» s =>
      obtain ⟨saved, h1, h2, h3, h4, h5⟩ := ih (fun s h => hs s (List.mem_cons_of_mem _ h))
        (fun g h => hg g (List.mem_cons_of_mem _ h)) hr hd (by rw [List.length_cons] at hl; omega)
      obtain ⟨name, n1, n2, n3⟩ := many (reserved ++ saved.map (·.name)) (by
        rw [List.length_append, List.length_map, ← length_saved, h1]
        rw [List.length_cons] at hl
        omega)
      rw [List.mem_append, not_or] at n3
      refine ⟨.section name s :: saved, by rw [savedEntries, h1]; rfl, ?_, ?_, ?_, ?_⟩
      · exact List.forall_mem_cons.2 ⟨⟨⟨n1, n2⟩, .inr n3.1⟩, h2⟩
      · exact List.nodup_cons.2 ⟨n3.2, h3⟩
      · intro file s' h
        rcases List.mem_cons.1 h with h | h
        · obtain ⟨-, rfl⟩ := Saved.section.inj h
          exact hs _ List.mem_cons_self
        · exact h4 file s' h
      · intro n t es' h
        rcases List.mem_cons.1 h with h | h
        · cases h
        · exact h5 n t es' h
    | sectionGroup g =>
      obtain ⟨d1, d2⟩ := List.nodup_cons.1 hd
      obtain ⟨saved, h1, h2, h3, h4, h5⟩ := ih (fun s h => hs s (List.mem_cons_of_mem _ h))
        (fun g h => hg g (List.mem_cons_of_mem _ h)) (fun n h => hr n (List.mem_cons_of_mem _ h)) d2
        (by rw [List.length_cons] at hl; omega)
      obtain ⟨⟨n1, n2⟩, toc, inner, t1, t2, t3⟩ := hg g List.mem_cons_self
      refine ⟨.group g.displayName toc inner :: saved, by rw [savedEntries, h1, Saved.entry, t3]; cases g; rfl,
        ?_, ?_, ?_, ?_⟩
      · refine List.forall_mem_cons.2 ⟨⟨⟨n1, n2⟩, .inl List.mem_cons_self⟩, fun e he => ?_⟩
        obtain ⟨a, b⟩ := h2 e he
        exact ⟨a, b.imp (List.mem_cons_of_mem _) id⟩
      · refine List.nodup_cons.2 ⟨fun h => ?_, h3⟩
        obtain ⟨e, he, hn⟩ := List.mem_map.1 h
        have hn : e.name = g.displayName := hn
        rcases (h2 e he).2 with h | h
        · exact d1 (hn ▸ h)
        · exact h (hn ▸ hr _ List.mem_cons_self)
      · intro file s' h
        rcases List.mem_cons.1 h with h | h
        · cases h
        · exact h4 file s' h
      · intro n t es' h
        rcases List.mem_cons.1 h with h | h
        · obtain ⟨-, rfl, rfl⟩ := Saved.group.inj h
          exact ⟨t1, t2⟩
        · exact h5 n t es' h

/-- There is always another name for a table of contents. -/
theorem another_toc (used : List Text) : ∃ toc, TocName toc ∧ toc ∉ used := by
  refine ⟨List.replicate ((used.map List.length).sum + 1) 'a' ++ ".onetoc2".toList,
    ⟨_, by simp, rfl⟩, fun h => ?_⟩
  have key : ∀ l : List Text, ∀ t ∈ l, t.length ≤ (l.map List.length).sum := by
    intro l
    induction l with
    | nil => exact fun _ h => nomatch h
    | cons a l ih =>
      intro t ht
      rw [List.map_cons, List.sum_cons]
      rcases List.mem_cons.1 ht with rfl | ht
      · omega
      · have := ih t ht
        omega
  have := key used _ h
  rw [List.length_append, List.length_replicate] at this
  omega

theorem size_group {g : SectionGroup} {es : List SectionEntry} (h : .sectionGroup g ∈ es) :
    sizeOf g.entries < sizeOf es := by
  have h1 := List.sizeOf_lt_of_mem h
  cases g with
  | mk name entries =>
    have : sizeOf (SectionEntry.sectionGroup ⟨name, entries⟩) = 1 + (1 + sizeOf name + sizeOf entries) := by
      rw [SectionEntry.sectionGroup.sizeOf_spec, SectionGroup.mk.sizeOf_spec]
    show sizeOf entries < _
    omega

/-- Entries that can be stored can be saved. -/
theorem save {sanitise : Text → Text} (many : ManyNames sanitise) (es : List SectionEntry)
    (color : Option Color) (hc : Opt ColorOk color)
    (hs : ∀ s, Among s es → SectionOk s ∧ SectionWithin s)
    (hg : ∀ g, GroupAmong g es → NameOk sanitise g.displayName ∧ FitsDirectory g.entries ∧
      g.displayName.length < 2 ^ 28) (hf : FitsDirectory es) :
    ∃ toc saved, TocName toc ∧ EntriesOk sanitise toc saved color ∧ savedEntries saved = es := by
  obtain ⟨toc, ht, hn⟩ := another_toc (groupNames es)
  obtain ⟨saved, h1, h2, h3, h4, h5⟩ := level many (toc :: groupNames es) es
    (fun s h => hs s (.entry h))
    (fun g h => ⟨⟨(hg g (.entry h)).1, (hg g (.entry h)).2.2⟩,
      save many g.entries none (fun _ h => nomatch h) (fun s h' => hs s (.group h h'))
        (fun g' h' => hg g' (.group h h')) (hg g (.entry h)).2.1⟩)
    (fun n h => List.mem_cons_of_mem _ h) hf.different (by
      have := groupNames_length es
      have := hf.few
      rw [List.length_cons]
      omega)
  refine ⟨toc, saved, ht, .mk (fun e he => (h2 e he).1.1) (List.nodup_cons.2 ⟨fun h => ?_, h3⟩)
    (toc_within color ?_ fun n h => ?_) hc h4 (fun n t es h => (h5 n t es h).1)
    (fun n t es h => (h5 n t es h).2), h1⟩
  · obtain ⟨e, he, e'⟩ := List.mem_map.1 h
    have e' : e.name = toc := e'
    rcases (h2 e he).2 with h | h
    · exact hn (e' ▸ h)
    · exact h (e' ▸ List.mem_cons_self)
  · have := length_saved saved
    rw [h1] at this
    rw [List.length_map, ← this]
    exact hf.few
  · obtain ⟨e, he, rfl⟩ := List.mem_map.1 h
    exact (h2 e he).1.2
termination_by sizeOf es
decreasing_by exact size_group h

/-! ### Enough names -/

/-- The words of `a` and `b` of a given length. -/
def words : Nat → List Text
  | 0 => [[]]
  | k + 1 => (words k).map ('a' :: ·) ++ (words k).map ('b' :: ·)

theorem words_length (k : Nat) : (words k).length = 2 ^ k := by
  induction k with
  | zero => rfl
  | succ k ih => rw [words, List.length_append, List.length_map, List.length_map, ih, Nat.pow_succ]; omega

theorem nodup_cons {c : Char} {l : List Text} (h : l.Nodup) : (l.map (c :: ·)).Nodup := by
  refine List.pairwise_map.2 (h.imp ?_)
  intro a b hab e
  exact hab (List.cons.inj e).2

theorem words_nodup (k : Nat) : (words k).Nodup := by
  induction k with
  | zero => exact List.nodup_cons.2 ⟨fun h => (nomatch h), .nil⟩
  | succ k ih =>
    refine List.nodup_append.2 ⟨nodup_cons ih, nodup_cons ih, ?_⟩
    intro a ha b hb e
    obtain ⟨x, -, rfl⟩ := List.mem_map.1 ha
    obtain ⟨y, -, rfl⟩ := List.mem_map.1 hb
    exact absurd (List.cons.inj e).1 (by decide)

theorem words_mem {k : Nat} {t : Text} (h : t ∈ words k) : t.length = k ∧ ∀ c ∈ t, c = 'a' ∨ c = 'b' := by
  induction k generalizing t with
  | zero =>
    rw [List.mem_singleton.1 h]
    exact ⟨rfl, fun _ h => nomatch h⟩
  | succ k ih =>
    rcases List.mem_append.1 h with h | h
    all_goals
      obtain ⟨x, hx, rfl⟩ := List.mem_map.1 h
      obtain ⟨h1, h2⟩ := ih hx
      refine ⟨congrArg (· + 1) h1, List.forall_mem_cons.2 ⟨?_, h2⟩⟩
    · exact .inl rfl
    · exact .inr rfl

theorem letters_ok {sanitise : Text → Text} {t : Text} (hl : t.length = 26)
    (h : ∀ c ∈ t, c = 'a' ∨ c = 'b') (hs : sanitise t = t) : NameOk sanitise t := by
  have no : ∀ c : Char, c ≠ 'a' → c ≠ 'b' → c ∉ t := fun c h1 h2 hc => (h c hc).elim h1 h2
  refine ⟨⟨?_, no _ (by decide) (by decide), ?_, ?_⟩, no _ (by decide) (by decide), ?_, ?_, hs⟩
  · rintro rfl; cases hl
  · rintro rfl; cases hl
  · rintro rfl; cases hl
  · rintro (⟨x, y, e⟩ | ⟨x, y, e⟩)
    · exact no '^' (by decide) (by decide) (by rw [← e]; simp)
    · exact no '^' (by decide) (by decide) (by rw [← e]; simp)
  · intro e
    have := congrArg List.length e
    rw [hl] at this
    exact absurd this (by decide)

theorem many_names {sanitise : Text → Text}
    (h : ∀ t : Text, t.length = 26 → (∀ c ∈ t, c = 'a' ∨ c = 'b') → sanitise t = t) :
    ManyNames sanitise := by
  intro used hu
  refine Classical.byContradiction fun hn => ?_
  have := Copies.nodup_length (l := words 26) (l' := used) (words_nodup 26) fun t ht => by
    obtain ⟨h1, h2⟩ := words_mem ht
    refine Classical.byContradiction fun hm => hn ⟨t, letters_ok h1 h2 (h t h1 h2), ?_, hm⟩
    rw [h1]
    decide
  rw [words_length] at this
  omega

end OneNote.Resaved
