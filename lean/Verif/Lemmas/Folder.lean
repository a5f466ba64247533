/-
What is read from a notebook that is saved on a disk.
-/
import Verif.Spec.Folder
import Verif.Lemmas.WriteToc
import Verif.Lemmas.WholeNotebook
import Verif.Props.C69

namespace OneNote.Folder

open Spec Spec.Document Spec.Storable Spec.Writer Spec.Folder Writer

/-! ### Any disk with the files -/

theorem entryPath_of {fs : FileSystem} {sanitise : Text → Text} {dir : Path} {name : Text}
    (ok : NameOk sanitise name) (h : Inside fs dir (dir ++ [.normal name])) :
    EntryPath fs sanitise dir name (dir ++ [.normal name]) := by
  obtain ⟨h1, h2, h3, h4⟩ := ok.file
  refine ⟨[name], .last h2, fun e => h2 (List.mem_of_head? e), ?_, ⟨name, List.mem_singleton.2 rfl, h1, h3⟩,
    ?_, ?_, fun _ => h⟩
  · intro e
    exact h4 (List.mem_singleton.1 e).symm
  · intro n hn _ _
    rw [List.mem_singleton.1 hn]
    exact ok.sanitised
  · rw [List.filter_cons_of_pos (by simp [h1, h3])]
    rfl

theorem savedEntries_eq (es : List Saved) : savedEntries es = es.map (·.entry) := by
  induction es with
  | nil => rfl
  | cons e es ih => rw [savedEntries, ih]; rfl

/-- What all entries of a disk have. -/
theorem on_disk {fs : FileSystem} {dir : Path} {e : Saved} (h : OnDisk fs dir e) :
    fs.pathExists (dir ++ [.normal e.name]) = true ∧ Inside fs dir (dir ++ [.normal e.name]) := by
  cases h with
  | «section» h1 _ h2 _ => exact ⟨h1, h2⟩
  | group h1 _ h2 _ _ _ _ => exact ⟨h1, h2⟩

theorem notebook_is {fs : FileSystem} {sanitise : Text → Text} {entries : List Saved}
    {color : Option Color} {toc : Text} (ok : EntriesOk sanitise toc entries color) {dir : Path}
    (h : NotebookOnDisk fs dir toc entries color) :
    NotebookIs (plainPart fs) sanitise (dir ++ [.normal toc]) ⟨savedEntries entries, color⟩ := by
  induction ok generalizing dir with
  | @mk toc entries color hn hd hl hc hs ht hg ih =>
    have hnames : ∀ n ∈ entries.map (·.name), Plain n ∧ NoCaret n := by
      intro n hn'
      obtain ⟨e, he, rfl⟩ := List.mem_map.1 hn'
      exact ⟨(hn e he).plain, noCaret_of (hn e he).unescaped⟩
    obtain ⟨h1, h2⟩ := contents_written hnames (List.nodup_cons.1 hd).2 hc hl
    have hpaths : Each (EntryPath (plainPart fs) sanitise dir) (entries.map (·.name))
        (entries.map fun e => dir ++ [.normal e.name]) := by
      have : ∀ es : List Saved, (∀ e ∈ es, e ∈ entries) →
          Each (EntryPath (plainPart fs) sanitise dir) (es.map (·.name))
            (es.map fun e => dir ++ [.normal e.name]) := by
        intro es hes
        induction es with
        | nil => exact .nil
        | cons e es ih' =>
          have he := hes e List.mem_cons_self
          exact .cons (entryPath_of (hn e he) (on_disk (h.entries e he)).2)
            (ih' fun x hx => hes x (List.mem_cons_of_mem _ hx))
      exact this entries fun _ h => h
    refine .mk (paths := entries.map fun e => dir ++ [.normal e.name]) (by intro e; cases e)
      (plainPart_read.2 ⟨h.toc, h1⟩) h2 hpaths ?_
    rw [Kept, List.filter_eq_self.2, savedEntries_eq]
    · have : ∀ es : List Saved, (∀ e ∈ es, e ∈ entries) →
          Each (EntryIs (plainPart fs) sanitise) (es.map fun e => dir ++ [.normal e.name])
            (es.map (·.entry)) := by
        intro es hes
        induction es with
        | nil => exact .nil
        | cons e es ih' =>
          refine .cons ?_ (ih' fun x hx => hes x (List.mem_cons_of_mem _ hx))
          have he := hes e List.mem_cons_self
          have hd := h.entries e he
          cases hd with
          | @«section» _ file s e1 e2 e3 e4 =>
            obtain ⟨o1, o2⟩ := hs file s he
            obtain ⟨w1, w2⟩ := written_section o1 o2 file
            exact .file e2 ⟨_, file, plainPart_read.2 ⟨e4, w1⟩, List.getLast?_concat, w2⟩
          | @group _ name toc' es' before after e1 e2 e3 e4 e5 e6 e7 =>
            exact .directory (fs := plainPart fs) e2 e4 e5 (ht name toc' es' he) (ih name toc' es' he ⟨e6, e7⟩)
      exact this entries fun _ h => h
    · intro p hp
      obtain ⟨e, he, rfl⟩ := List.mem_map.1 hp
      have := (on_disk (h.entries e he)).1
      rw [Bool.and_eq_true, decide_eq_true_eq, List.getLast?_concat]
      refine ⟨this, fun e' => (hn e he).kept (Component.normal.inj (Option.some.inj e'))⟩

/-! ### A disk -/

/-- The path with these names. -/
def pathOf (names : List Text) : Path := .rootDir :: names.map .normal

theorem pathOf_append (names : List Text) (name : Text) :
    pathOf (names ++ [name]) = pathOf names ++ [.normal name] := by
  unfold pathOf
  rw [List.map_append]
  rfl

theorem namesOf_path (names : List Text) : namesOf (pathOf names) = some names := by
  unfold pathOf namesOf
  simp only
  induction names with
  | nil => rfl
  | cons n names ih =>
    rw [List.map_cons, List.mapM_cons, ih]
    rfl

theorem at_path (root : Item) (names : List Text) : root.at (pathOf names) = root.find names := by
  unfold Item.at
  rw [namesOf_path]
  rfl

theorem find_append (root : Item) (names : List Text) (name : Text) :
    root.find (names ++ [name]) = (root.find names).bind fun i => i.find [name] := by
  induction names generalizing root with
  | nil => cases root <;> rfl
  | cons n names ih =>
    cases root with
    | file d => rfl
    | dir items =>
      show (items.lookup n).bind _ = ((items.lookup n).bind _).bind _
      cases items.lookup n with
      | none => rfl
      | some i => exact ih i

theorem lookup_of_mem {items : List (Text × Item)} (hn : (items.map Prod.fst).Nodup) {name : Text} {i : Item}
    (h : (name, i) ∈ items) : items.lookup name = some i := by
  induction items with
  | nil => cases h
  | cons e items ih =>
    rw [List.map_cons, List.nodup_cons] at hn
    obtain ⟨k, v⟩ := e
    rw [List.lookup_cons]
    rcases List.mem_cons.1 h with h' | h'
    · cases h'
      simp
    · have : (name == k) = false := by
        rw [beq_eq_false_iff_ne]
        rintro rfl
        exact hn.1 (List.mem_map.2 ⟨_, h', rfl⟩)
      rw [this]
      exact ih hn.2 h'

theorem find_in {root : Item} {names : List Text} {items : List (Text × Item)} {name : Text} {i : Item}
    (h : root.find names = some (.dir items)) (hn : (items.map Prod.fst).Nodup) (hi : (name, i) ∈ items) :
    root.find (names ++ [name]) = some i := by
  rw [find_append, h]
  show (items.lookup name).bind _ = _
  rw [lookup_of_mem hn hi]
  cases i <;> rfl

theorem itemsOf_eq (es : List Saved) : itemsOf es = es.map fun e => (e.name, e.item) := by
  induction es with
  | nil => rfl
  | cons e es ih => rw [itemsOf, ih]; rfl

theorem items_nodup {toc : Text} {d : Bytes} {entries : List Saved}
    (h : (toc :: entries.map (·.name)).Nodup) :
    ((((toc, .file d) : Text × Item) :: itemsOf entries).map Prod.fst).Nodup := by
  rw [itemsOf_eq, List.map_cons, List.map_map]
  exact h

theorem inside_disk {root : Item} {names : List Text} {name : Text} {i j : Item}
    (h : root.find names = some i) (h' : root.find (names ++ [name]) = some j) :
    Inside (disk root) (pathOf names) (pathOf names ++ [.normal name]) := by
  refine ⟨pathOf names, pathOf names ++ [.normal name], [.normal name], ?_, ?_, rfl⟩
  · show (root.at _).map _ = _
    rw [at_path, h]
    rfl
  · show (root.at _).map _ = _
    rw [← pathOf_append, at_path, h']
    rfl

theorem saved_on_disk {sanitise : Text → Text} {root : Item} {toc : Text} {entries : List Saved}
    {color : Option Color} (ok : EntriesOk sanitise toc entries color) {names : List Text}
    (h : root.find names = some (notebookItem toc entries color)) :
    NotebookOnDisk (disk root) (pathOf names) toc entries color := by
  induction ok generalizing names with
  | @mk toc entries color hn hd hl hc hs ht hg ih =>
    have hnd := items_nodup (d := tocOf entries color) hd
    refine ⟨?_, fun e he => ?_⟩
    · show (match root.at _ with | some (.file data) => some data | _ => none) = _
      rw [← pathOf_append, at_path, find_in h hnd List.mem_cons_self]
    · have hf : root.find (names ++ [e.name]) = some e.item := by
        refine find_in h hnd (List.mem_cons_of_mem _ ?_)
        rw [itemsOf_eq]
        exact List.mem_map.2 ⟨e, he, rfl⟩
      have hi := inside_disk h hf
      have hex : (disk root).pathExists (pathOf names ++ [.normal e.name]) = true := by
        show (root.at _).isSome = true
        rw [← pathOf_append, at_path, hf]
        rfl
      cases e with
      | «section» file s =>
        refine .section hex ?_ hi ?_
        · show (match root.at _ with | some (.file _) => true | _ => false) = true
          rw [← pathOf_append, at_path, show root.find (names ++ [file]) = _ from hf]
          rfl
        · show (match root.at _ with | some (.file data) => some data | _ => none) = _
          rw [← pathOf_append, at_path, show root.find (names ++ [file]) = _ from hf]
          rfl
      | group name toc' es =>
        have hf : root.find (names ++ [name]) = some (notebookItem toc' es none) := hf
        have hsub := ih name toc' es he hf
        rw [pathOf_append] at hsub
        refine .group (before := []) (after := (itemsOf es).map fun e => some e.1) hex ?_ hi ?_
          (fun x hx => nomatch hx) hsub.toc hsub.entries
        · show (match root.at _ with | some (.file _) => true | _ => false) = false
          rw [← pathOf_append, at_path, hf]
          rfl
        · show (match root.at _ with | some (.dir items) => some (items.map fun e : Text × Item => some e.1) | _ => none) = _
          rw [← pathOf_append, at_path, hf]
          rfl

/-! ### Concrete names -/

def caretFree : Text → Bool
  | [] => true
  | c :: t => !(c == '^' && (t.head? == some 'M' || t.head? == some 'J')) && caretFree t

theorem caretFree_no {t : Text} (h : caretFree t = true) : NoCaret t := by
  induction t with
  | nil => exact fun a b => ⟨by cases a <;> simp, by cases a <;> simp⟩
  | cons c t ih =>
    rw [caretFree, Bool.and_eq_true] at h
    intro a b
    cases a with
    | nil =>
      constructor
      · intro e
        obtain ⟨rfl, rfl⟩ := List.cons.inj e
        exact absurd h.1 (by simp)
      · intro e
        obtain ⟨rfl, rfl⟩ := List.cons.inj e
        exact absurd h.1 (by simp)
    | cons d a =>
      exact ⟨fun e => (ih h.2 a b).1 (List.cons.inj e).2, fun e => (ih h.2 a b).2 (List.cons.inj e).2⟩

theorem caretFree_ok {t : Text} (h : caretFree t = true) : ¬ LooksEscaped t := by
  rintro (⟨a, b, e⟩ | ⟨a, b, e⟩)
  · exact (caretFree_no h a b).1 (by rw [← e]; simp)
  · exact (caretFree_no h a b).2 (by rw [← e]; simp)

theorem name_ok {name : Text} (h1 : FileName name) (h2 : Plain name) (h3 : caretFree name = true)
    (h4 : name ≠ "OneNote_RecycleBin".toList) : NameOk (fun n => n) name :=
  ⟨h1, h2, caretFree_ok h3, h4, rfl⟩

end OneNote.Folder
