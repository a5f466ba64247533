/-
More nested calls only ever turn "out of fuel" into a result.
-/
import Verif.Lemmas.Visit

namespace OneNote

open Spec

variable {α β : Type}

/-- `r'` is `r`, or `r` ran out of fuel. -/
def Refines (r r' : Res α) : Prop := r = .error .fuel ∨ r = r'

theorem Refines.refl (r : Res α) : Refines r r := .inr rfl

theorem Refines.trans {r r' r'' : Res α} (h : Refines r r') (h' : Refines r' r'') :
    Refines r r'' := by
  rcases h with h | rfl
  · exact .inl h
  · exact h'

theorem Refines.bind {r r' : Res α} {f f' : α → Res β} (hr : Refines r r')
    (hf : ∀ a, Refines (f a) (f' a)) : Refines (r >>= f) (r' >>= f') := by
  rcases hr with rfl | rfl
  · exact .inl rfl
  · cases r with
    | error e => exact .inr rfl
    | ok a => exact hf a

theorem Refines.map {r r' : Res α} (f : α → β) (hr : Refines r r') : Refines (f <$> r) (f <$> r') := by
  rcases hr with rfl | rfl
  · exact .inl rfl
  · exact .inr rfl

theorem Refines.mapM {f f' : α → Res β} (hf : ∀ a, Refines (f a) (f' a)) (l : List α) :
    Refines (l.mapM f) (l.mapM f') := by
  induction l with
  | nil => exact .inr rfl
  | cons a l ih =>
    rw [List.mapM_cons, List.mapM_cons]
    exact Refines.bind (hf a) fun _ => Refines.bind ih fun _ => .inr rfl

theorem Refines.optM {f f' : α → Res β} (hf : ∀ a, Refines (f a) (f' a)) (x : Option α) :
    Refines (optM f x) (optM f' x) := by
  cases x with
  | none => exact .inr rfl
  | some a =>
    rcases hf a with h | h
    · left
      unfold OneNote.optM
      simp only
      rw [h]
    · right
      unfold OneNote.optM
      simp only
      rw [h]

/-- A recursive parser with more calls. -/
def Rec.Refines (r r' : Rec) : Prop :=
  (∀ id, OneNote.Refines (r.item id) (r'.item id)) ∧
    ∀ id, OneNote.Refines (r.element id) (r'.element id)

variable {r r' : Rec} {space : ObjectSpace}

theorem refines_cell (h : r.Refines r') (id : ExGuid) :
    Refines (parseCell r space id) (parseCell r' space id) :=
  Refines.bind (.refl _) fun _ => Refines.bind (.refl _) fun _ =>
    Refines.bind (Refines.mapM h.2 _) fun _ => .refl _

theorem refines_row (h : r.Refines r') (id : ExGuid) :
    Refines (parseRow r space id) (parseRow r' space id) :=
  Refines.bind (.refl _) fun _ => Refines.bind (.refl _) fun _ =>
    Refines.bind (Refines.mapM (refines_cell h) _) fun _ => .refl _

theorem refines_table (h : r.Refines r') (id : ExGuid) :
    Refines (parseTable r space id) (parseTable r' space id) :=
  Refines.bind (.refl _) fun _ => Refines.bind (.refl _) fun _ =>
    Refines.bind (Refines.mapM (refines_row h) _) fun _ => .refl _

theorem refines_content (h : r.Refines r') (id : ExGuid) :
    Refines (parseContent r space id) (parseContent r' space id) := by
  refine Refines.bind (.refl _) fun k => ?_
  split <;> first | exact .refl _ | exact Refines.map _ (refines_table h id)

theorem refines_group (h : r.Refines r') (id : ExGuid) :
    Refines (parseOutlineGroup r space id) (parseOutlineGroup r' space id) :=
  Refines.bind (.refl _) fun _ => Refines.bind (.refl _) fun _ =>
    Refines.bind (Refines.mapM h.1 _) fun _ => .refl _

theorem refines_element (h : r.Refines r') (id : ExGuid) :
    Refines (parseElementWith r space id) (parseElementWith r' space id) :=
  Refines.bind (.refl _) fun _ => Refines.bind (.refl _) fun _ =>
    Refines.bind (Refines.mapM h.1 _) fun _ =>
      Refines.bind (Refines.mapM (refines_content h) _) fun _ => .refl _

theorem refines_item (h : r.Refines r') (id : ExGuid) :
    Refines (parseItemWith r space id) (parseItemWith r' space id) := by
  refine Refines.bind (.refl _) fun k => ?_
  split
  · exact Refines.map _ (refines_group h id)
  · exact Refines.map _ (refines_element h id)
  · exact .refl _

theorem refines_rec (space : ObjectSpace) (n : Nat) :
    (recAt space n).Refines (recAt space (n + 1)) := by
  induction n with
  | zero => exact ⟨fun _ => .inl rfl, fun _ => .inl rfl⟩
  | succ n ih => exact ⟨refines_item ih, refines_element ih⟩

theorem refines_rec_le (space : ObjectSpace) {m n : Nat} (h : m ≤ n) :
    (recAt space m).Refines (recAt space n) := by
  induction h with
  | refl => exact ⟨fun _ => .refl _, fun _ => .refl _⟩
  | step _ ih =>
    exact ⟨fun id => (ih.1 id).trans ((refines_rec space _).1 id),
      fun id => (ih.2 id).trans ((refines_rec space _).2 id)⟩

theorem refines_outline {m n : Nat} (h : m ≤ n) (space : ObjectSpace) (id : ExGuid) :
    Refines (parseOutline m space id) (parseOutline n space id) :=
  Refines.bind (.refl _) fun _ => Refines.bind (.refl _) fun _ =>
    Refines.bind (Refines.mapM (refines_rec_le space h).1 _) fun _ => .refl _

theorem refines_pageContent {m n : Nat} (h : m ≤ n) (space : ObjectSpace) (id : ExGuid) :
    Refines (parsePageContent m space id) (parsePageContent n space id) := by
  refine Refines.bind (.refl _) fun k => ?_
  split <;> first | exact .refl _ | exact Refines.map _ (refines_outline h space id)

theorem refines_page {m n : Nat} (h : m ≤ n) (space : ObjectSpace) :
    Refines (parsePage m space) (parsePage n space) := by
  refine Refines.bind (.refl _) fun _ => Refines.bind (.refl _) fun _ =>
    Refines.bind (.refl _) fun _ => Refines.bind (Refines.optM (fun id => ?_) _) fun _ =>
      Refines.bind (Refines.mapM (refines_pageContent h space) _) fun _ => .refl _
  exact Refines.bind (.refl _) fun _ => Refines.bind (.refl _) fun _ =>
    Refines.bind (Refines.mapM (refines_outline h space) _) fun _ => .refl _

theorem refines_section {m n : Nat} (h : m ≤ n) (store : Store) (name : Text) :
    Refines (parseSectionStore m store name) (parseSectionStore n store name) := by
  refine Refines.bind (.refl _) fun _ => Refines.bind (.refl _) fun _ =>
    Refines.bind (Refines.mapM (fun id => ?_) _) fun _ => .refl _
  refine Refines.bind (.refl _) fun _ => Refines.bind (.refl _) fun _ =>
    Refines.bind (Refines.mapM (fun cell => ?_) _) fun _ => .refl _
  exact Refines.bind (.refl _) fun sp => refines_page h sp

theorem refines_buffer {m n : Nat} (h : m ≤ n) (ord : Order) (data : Bytes) (name : Text) :
    Refines (parseSectionBuffer m ord data name) (parseSectionBuffer n ord data name) := by
  refine Refines.bind (.refl _) fun store => ?_
  split
  · exact .refl _
  · exact refines_section h store name

/-! ### Tables of contents and notebooks -/

theorem refines_tocEntry (space : ObjectSpace) {m n : Nat} (h : m ≤ n) (id : ExGuid) :
    Refines (parseTocEntry space m id) (parseTocEntry space n id) := by
  induction m generalizing n id with
  | zero => exact .inl rfl
  | succ m ih =>
    cases n with
    | zero => omega
    | succ n =>
      refine Refines.bind (.refl _) fun _ => Refines.bind (.refl _) fun d => ?_
      split
      · exact .refl _
      · exact Refines.bind (Refines.mapM (fun b => ih (by omega) b) _) fun _ => .refl _

theorem refines_toc (space : ObjectSpace) {m n : Nat} (h : m ≤ n) :
    Refines (parseToc m space) (parseToc n space) :=
  Refines.bind (.refl _) fun id => Refines.bind (refines_tocEntry space h id) fun _ => .refl _

/-- The same surroundings with more nested calls. -/
def Env.more (env : Env) (fuel : Nat) : Env := { env with fuel := fuel }

theorem refines_sectionFile (env : Env) {m n : Nat} (h : m ≤ n) (path : Path) :
    Refines (parseSectionFile (env.more m) path) (parseSectionFile (env.more n) path) := by
  refine Refines.bind (.refl _) fun _ => Refines.bind (.refl _) fun store => ?_
  split
  · exact .refl _
  · exact Refines.bind (.refl _) fun name => refines_section h store name

theorem refines_notebook (env : Env) {a b m n : Nat} (hf : a ≤ b) (h : m ≤ n) (path : Path) :
    Refines (parseNotebook (env.more a) m path) (parseNotebook (env.more b) n path) := by
  induction m generalizing n path with
  | zero => exact .inl rfl
  | succ m ih =>
    cases n with
    | zero => omega
    | succ n =>
      refine Refines.bind (.refl _) fun _ => Refines.bind (.refl _) fun store => ?_
      split
      · exact .refl _
      · refine Refines.bind (.refl _) fun _ => Refines.bind (refines_toc _ hf) fun x => ?_
        refine Refines.bind (.refl _) fun _ =>
          Refines.bind (Refines.mapM (fun p => ?_) _) fun _ => .refl _
        unfold parseEntry
        show Refines (if env.fs.isFile p = true then _ else _) (if env.fs.isFile p = true then _ else _)
        split
        · exact Refines.map _ (refines_sectionFile env hf p)
        · refine Refines.map _ ?_
          refine Refines.bind (.refl _) fun _ => Refines.bind (.refl _) fun _ =>
            Refines.bind (.refl _) fun toc => Refines.bind (ih (by omega) toc) fun _ => .refl _

end OneNote
