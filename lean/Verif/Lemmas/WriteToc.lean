/-
What is read back from a table of contents written with `Spec.Writer.contentsFile`.
-/
import Verif.Spec.WriteToc
import Verif.Spec.Folder
import Verif.Lemmas.WriteLength
import Verif.Lemmas.WriteFits
import Verif.Lemmas.WriteSection

namespace OneNote.Writer

open Spec Spec.Document Spec.Storable Spec.Writer Spec.Folder Spec.Toc

/-- The text has neither `^M` nor `^J`. -/
def NoCaret (t : Text) : Prop := ∀ a b, t ≠ a ++ '^' :: 'M' :: b ∧ t ≠ a ++ '^' :: 'J' :: b

theorem noCaret_of {t : Text} (h : ¬ LooksEscaped t) : NoCaret t := by
  intro a b
  constructor
  · rintro rfl
    exact h (.inl ⟨a, b, by simp⟩)
  · rintro rfl
    exact h (.inr ⟨a, b, by simp⟩)

theorem storedName_cons (c : Char) (t : Text) : storedName (c :: t) =
    if c = '+' then '^' :: 'M' :: storedName t
    else if c = ',' then '^' :: 'J' :: storedName t
    else c :: storedName t := by
  unfold storedName
  rw [List.flatMap_cons]
  split
  · rfl
  · split <;> rfl

theorem unescape {t : Text} (h : NoCaret t) : Value.Unescaped (storedName t) t := by
  induction t with
  | nil => exact .nil
  | cons c t ih =>
    have ht : NoCaret t := fun a b => ⟨fun e => (h (c :: a) b).1 (by rw [e]; rfl),
      fun e => (h (c :: a) b).2 (by rw [e]; rfl)⟩
    rw [storedName_cons]
    split
    · subst c; exact .plus (ih ht)
    · split
      · subst c; exact .comma (ih ht)
      · refine .other ?_ (ih ht)
        rintro ⟨rfl, r, hr⟩
        cases t with
        | nil => rcases hr with hr | hr <;> cases hr
        | cons d t =>
          rw [storedName_cons] at hr
          split at hr
          · rcases hr with hr | hr <;> cases hr
          · split at hr
            · rcases hr with hr | hr <;> cases hr
            · rcases hr with hr | hr
              · obtain ⟨rfl, -⟩ := List.cons.inj hr
                exact (h [] t).1 rfl
              · obtain ⟨rfl, -⟩ := List.cons.inj hr
                exact (h [] t).2 rfl

theorem storedName_plain {t : Text} (h : Plain t) : Plain (storedName t) := by
  induction t with
  | nil => exact h
  | cons c t ih =>
    have h1 : nul ≠ c := fun e => h (by rw [e]; exact List.mem_cons_self)
    have h2 := ih fun e => h (List.mem_cons_of_mem _ e)
    unfold Plain at h2 ⊢
    rw [storedName_cons]
    split
    · simp only [List.mem_cons, not_or]
      exact ⟨by decide, by decide, h2⟩
    · split
      · simp only [List.mem_cons, not_or]
        exact ⟨by decide, by decide, h2⟩
      · simp only [List.mem_cons, not_or]
        exact ⟨h1, h2⟩

/-- The entries that are read back. -/
def numbered (i : Nat) : List Text → List (Nat × Text)
  | [] => []
  | name :: names => (i, name) :: numbered (i + 1) names

theorem numbered_names (i : Nat) (names : List Text) : (numbered i names).map Prod.snd = names := by
  induction names generalizing i with
  | nil => rfl
  | cons name names ih => rw [numbered, List.map_cons, ih]

theorem numbered_ge {i : Nat} {names : List Text} {e : Nat × Text} (h : e ∈ numbered i names) : i ≤ e.1 := by
  induction names generalizing i with
  | nil => cases h
  | cons name names ih =>
    rcases List.mem_cons.1 h with rfl | h
    · exact Nat.le_refl _
    · exact Nat.le_trans (Nat.le_succ _) (ih h)

theorem numbered_sorted (i : Nat) (names : List Text) : SortedByKey (numbered i names) (numbered i names) := by
  refine ⟨.refl _, ?_, fun _ => rfl⟩
  induction names generalizing i with
  | nil => exact .nil
  | cons name names ih =>
    exact .cons (fun e he => Nat.le_of_succ_le (numbered_ge he)) (ih (i + 1))

theorem without_repeats {names : List Text} (h : names.Nodup) : WithoutRepeats names names := by
  induction names with
  | nil => exact .none
  | cons a names ih =>
    cases names with
    | nil => exact .one a
    | cons b names =>
      rw [List.nodup_cons] at h
      exact .other (fun e => h.1 (by rw [e]; exact List.mem_cons_self)) (ih h.2)

theorem tocEntries_are {space : ObjectSpace} {names : List Text} {ids : List ExGuid} {i : Nat}
    (ok : ∀ n ∈ names, Plain n ∧ NoCaret n) (hi : i + names.length ≤ 2 ^ 32)
    (h : Each (Stored space) ids (tocEntries i names)) : TocTrees space ids (numbered i names) := by
  induction names generalizing ids i with
  | nil => cases h; exact .nil
  | cons name names ih =>
    rw [tocEntries] at h
    rw [List.length_cons] at hi
    cases h with
    | cons h hs =>
      obtain ⟨o, ho, h⟩ := node_written h (by words) (by simp)
      obtain ⟨h1, h2⟩ := ok name List.mem_cons_self
      refine .cons (a := [(i, name)]) (.file (t := ⟨[], some name, some i, none⟩) ho ?_ rfl rfl)
        (ih (fun n hn => ok n (List.mem_cons_of_mem _ hn)) (by omega) hs)
      exact
        { kind := h.kind
          children := .inl ⟨h.absent _ (by simp only [List.map_cons, List.map_nil]; decide), rfl⟩
          filename := .inr ⟨_, _, h.val _ (some _) (by field),
            ⟨_, reads_text (storedName_plain h1), unescape h2⟩, rfl⟩
          orderingId := .inr ⟨_, _, h.val _ (some _) (by field),
            reads_u32 (show i < 2 ^ 32 by omega), rfl⟩
          color := .inl ⟨h.absent _ (by simp only [List.map_cons, List.map_nil]; decide), rfl⟩ }

theorem toc_written {space : ObjectSpace} {names : List Text} {color : Option Color}
    (ok : ∀ n ∈ names, Plain n ∧ NoCaret n) (hn : names.Nodup) (hl : names.length ≤ 2 ^ 32)
    (hc : Opt ColorOk color) (h : SpaceHas space (tocTrees names color)) : TocIs space names color := by
  obtain ⟨root, info, hr, hs, -, -⟩ := h
  obtain ⟨o, ho, h⟩ := node_written hs (by words) (by simp)
  obtain ⟨ids, hids, hes⟩ := h.many Word.tocChildren _ (by field)
  have hnode : Objects.IsTocContainer o ⟨ids, none, none, color⟩ :=
    { kind := h.kind
      children := .inr hids
      filename := .inl ⟨h.absent _ (by simp only [List.map_cons, List.map_nil]; decide), rfl⟩
      orderingId := .inl ⟨h.absent _ (by simp only [List.map_cons, List.map_nil]; decide), rfl⟩
      color := opt (h.val _ _ (by field)) reads_color hc }
  exact ⟨root, _, _, o, _, hr, .folder ho hnode rfl (tocEntries_are ok (by omega) hes),
    numbered_sorted 0 names, by rw [numbered_names]; exact without_repeats hn, ho, hnode, rfl⟩

theorem tocEntries_fit {num : Nat} (i : Nat) (names : List Text) : ∀ t ∈ tocEntries i names, t.Fits num := by
  induction names generalizing i with
  | nil => intro t h; cases h
  | cons name names ih =>
    intro t h
    rcases List.mem_cons.1 h with rfl | h
    · fits []
    · exact ih _ t h

theorem tocTrees_fit {num : Nat} (names : List Text) (color : Option Color) :
    (tocTrees names color).1.Fits num ∧ (tocTrees names color).2.Fits num := by
  refine ⟨?_, dummy_fits⟩
  unfold tocTrees
  fits []
  exact tocEntries_fit 0 names

theorem tocEntries_size (i : Nat) (names : List Text) : names.length ≤ sizes (tocEntries i names) := by
  induction names generalizing i with
  | nil => exact Nat.zero_le _
  | cons name names ih =>
    have := ih (i + 1)
    rw [tocEntries, sizes, List.length_cons]
    have := Tree.size_pos (node 0x00020001 none
      [(Word.folderChildFilename, .val (some (Scalar.text (storedName name)))),
       (Word.notebookElementOrderingId, .val (some (.u32 i)))])
    omega

/-- The file has the table of contents. -/
theorem contents_written {names : List Text} {color : Option Color}
    (ok : ∀ n ∈ names, Plain n ∧ NoCaret n) (hn : names.Nodup) (hc : Opt ColorOk color)
    (hl : WithinLimits [tocTrees names color]) :
    PlainFile (contentsFile names color) ∧ TocFile (contentsFile names color) names color := by
  obtain ⟨h1, h2⟩ := limits_fit hl (fun k p hk => by
    cases k with
    | zero => cases hk; exact tocTrees_fit names color
    | succ k => simp at hk)
  have h2' := h2
  obtain ⟨h3, store, h4, h5, h6, -⟩ := tree_file (schema := tocGuid) h1 (by decide) (by omega)
  refine ⟨h3, store, h4, h5, toc_written ok hn ?_ hc h6⟩
  have := tocEntries_size 0 names
  rw [tocTrees, total, node, Tree.size] at h2
  have e : ([(Word.tocChildren, Field.many (tocEntries 0 names)),
     (Word.sectionColor, .val (color.map Scalar.color))].flatMap fun f => f.2.children) =
      tocEntries 0 names := by simp [Field.children]
  rw [e] at h2
  omega

theorem contents_small {names : List Text} {color : Option Color}
    (hl : (contentsFile names color).length < 2 ^ 28) : WithinLimits [tocTrees names color] :=
  limits_of_short (fun k p hk => by
    cases k with
    | zero => cases hk; exact tocTrees_fit names color
    | succ k => simp at hk) (Nat.lt_of_le_of_lt (file_elements _ _ _) hl)

end OneNote.Writer
