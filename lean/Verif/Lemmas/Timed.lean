/-
Reading a notebook while the disk changes.
-/
import Verif.Model.Timed
import Verif.Lemmas.Path
import Verif.Spec.Timed

namespace OneNote

open Spec

variable {α β : Type}

theorem T.bind_eq_ok {p : T α} {f : α → T β} {t t' : Nat} {b : β} :
    (p >>= f) t = .ok (b, t') ↔ ∃ a t1, p t = .ok (a, t1) ∧ f a t1 = .ok (b, t') := by
  show T.bind' p f t = _ ↔ _
  unfold T.bind'
  constructor
  · intro h
    split at h
    · exact ⟨_, _, by assumption, h⟩
    · cases h
  · rintro ⟨a, t1, h1, h2⟩
    rw [h1]
    exact h2

theorem T.bind_ok {p : T α} {f : α → T β} {t t1 : Nat} {a : α} (h : p t = .ok (a, t1)) :
    (p >>= f) t = f a t1 := by
  show T.bind' p f t = _
  unfold T.bind'
  rw [h]

theorem T.bind_err {p : T α} {f : α → T β} {t : Nat} {e : Err} (h : p t = .error e) :
    (p >>= f) t = .error e := by
  show T.bind' p f t = _
  unfold T.bind'
  rw [h]

theorem Res.bind_of_ok {a : α} {f : α → Res β} : ((.ok a : Res α) >>= f) = f a := rfl

namespace Timed

/-! ### A disk that does not change -/

/-- The computation gives this result at any time. -/
def Same (p : T α) (r : Res α) : Prop := ∀ t, (p t).map Prod.fst = r

theorem Same.pure (a : α) : Same (pure a : T α) (.ok a) := fun _ => rfl

theorem Same.ofRes (r : Res α) : Same (T.ofRes r) r := by
  intro t
  cases r <;> rfl

theorem Same.bind {p : T α} {r : Res α} {f : α → T β} {g : α → Res β} (h : Same p r)
    (hf : ∀ a, Same (f a) (g a)) : Same (p >>= f) (r >>= g) := by
  intro t
  have := h t
  cases hp : p t with
  | error e =>
    rw [T.bind_err hp]
    rw [hp] at this
    rw [← this]
    rfl
  | ok v =>
    obtain ⟨a, t1⟩ := v
    rw [T.bind_ok hp]
    rw [hp] at this
    rw [← this]
    exact hf a t1

theorem Same.op {e : Timed} {fs : FileSystem} (h : ∀ t, e.world t = fs) {f : FileSystem → α}
    {k : α → T β} {r : Res β} (hk : Same (k (f fs)) r) : Same (T.op e f >>= k) r := by
  intro t
  rw [T.bind_ok (show T.op e f t = .ok (f (e.world t), t + 1) from rfl), h]
  exact hk _

theorem Same.mapAll {f : α → T β} {g : α → Res β} (h : ∀ a, Same (f a) (g a)) (l : List α) :
    Same (T.mapAll f l) (l.mapM g) := by
  induction l with
  | nil => exact .pure []
  | cons a l ih =>
    rw [List.mapM_cons]
    exact .bind (h a) fun b => .bind ih fun bs => .pure _

theorem checkInside_same (e : Timed) (fs : FileSystem) (h : ∀ t, e.world t = fs) (base p : Path) :
    Same (checkInside e base p) (OneNote.checkInside fs base p) := by
  refine .op h ?_
  unfold OneNote.checkInside
  split
  · refine .op h (.bind (.ofRes _) fun b => .op h (.bind (.ofRes _) fun c => ?_))
    split
    · exact .pure _
    · exact .ofRes _
  · exact .pure _

theorem resolve_eq (fs : FileSystem) (sanitise : Text → Text) (base : Path) (entry : Text) :
    OneNote.resolveEntryPath fs sanitise base entry =
      (candidate sanitise base entry >>= fun p => OneNote.checkInside fs base p >>= fun _ => .ok p) := by
  unfold OneNote.resolveEntryPath candidate
  split
  · rfl
  · generalize List.mapM (resolveComponent sanitise) (componentsOf entry) = x
    cases x with
    | error e => rfl
    | ok parts =>
      rw [Res.bind_of_ok, Res.bind_of_ok]
      dsimp only
      split <;> rfl

theorem resolve_same (e : Timed) (fs : FileSystem) (h : ∀ t, e.world t = fs) (base : Path)
    (entry : Text) :
    Same (resolveEntryPath e base entry) (OneNote.resolveEntryPath fs e.sanitise base entry) := by
  rw [resolve_eq]
  exact .bind (.ofRes _) fun p => .bind (checkInside_same e fs h base p) fun _ => .pure p

theorem section_same (e : Timed) (fs : FileSystem) (h : ∀ t, e.world t = fs) (path : Path) :
    Same (parseSectionFile e path) (OneNote.parseSectionFile ⟨fs, e.sanitise, e.ord, e.fuel⟩ path) :=
  .op h (.ofRes _)

theorem group_same (e : Timed) (fs : FileSystem) (h : ∀ t, e.world t = fs) {notebook : Path → T Notebook}
    {notebook' : Path → Res Notebook} (hn : ∀ p, Same (notebook p) (notebook' p)) (path : Path) :
    Same (parseSectionGroup notebook e path)
      (OneNote.parseSectionGroup notebook' ⟨fs, e.sanitise, e.ord, e.fuel⟩ path) :=
  .bind (.ofRes _) fun _ => .op h <| .bind (.ofRes _) fun _ => .bind (.ofRes _) fun _ =>
    .bind (hn _) fun _ => .pure _

theorem entry_same (e : Timed) (fs : FileSystem) (h : ∀ t, e.world t = fs) {notebook : Path → T Notebook}
    {notebook' : Path → Res Notebook} (hn : ∀ p, Same (notebook p) (notebook' p)) (path : Path) :
    Same (parseEntry notebook e path)
      (OneNote.parseEntry notebook' ⟨fs, e.sanitise, e.ord, e.fuel⟩ path) := by
  refine .op h ?_
  unfold OneNote.parseEntry
  dsimp only
  split
  · have := Same.bind (section_same e fs h path) fun s => Same.pure (SectionEntry.section s)
    cases hx : OneNote.parseSectionFile ⟨fs, e.sanitise, e.ord, e.fuel⟩ path <;> (rw [hx] at this; exact this)
  · have := Same.bind (group_same e fs h hn path) fun s => Same.pure (SectionEntry.sectionGroup s)
    cases hx : OneNote.parseSectionGroup notebook' ⟨fs, e.sanitise, e.ord, e.fuel⟩ path <;>
      (rw [hx] at this; exact this)

theorem entries_same (e : Timed) (fs : FileSystem) (h : ∀ t, e.world t = fs)
    {notebook : Path → T Notebook} {notebook' : Path → Res Notebook}
    (hn : ∀ p, Same (notebook p) (notebook' p)) (paths : List Path) :
    Same (parseEntries notebook e paths)
      ((paths.filter (keepEntry ⟨fs, e.sanitise, e.ord, e.fuel⟩)).mapM
        (OneNote.parseEntry notebook' ⟨fs, e.sanitise, e.ord, e.fuel⟩)) := by
  induction paths with
  | nil => exact .pure []
  | cons p ps ih =>
    unfold parseEntries
    refine .op h ?_
    have hk : (fs.pathExists p && !p.endsWith [.normal recycleBin]) =
        keepEntry ⟨fs, e.sanitise, e.ord, e.fuel⟩ p := rfl
    rw [hk]
    cases hq : keepEntry ⟨fs, e.sanitise, e.ord, e.fuel⟩ p with
    | true =>
      rw [if_pos rfl, List.filter_cons_of_pos hq, List.mapM_cons]
      exact .bind (entry_same e fs h hn p) fun _ => .bind ih fun _ => .pure _
    | false =>
      rw [if_neg (by simp), List.filter_cons_of_neg (by simp [hq])]
      exact ih

theorem notebook_same (e : Timed) (fs : FileSystem) (h : ∀ t, e.world t = fs) (n : Nat) (path : Path) :
    Same (parseNotebook e n path) (OneNote.parseNotebook ⟨fs, e.sanitise, e.ord, e.fuel⟩ n path) := by
  induction n generalizing path with
  | zero => exact .ofRes _
  | succ n ih =>
    have hq : OneNote.parseNotebook ⟨fs, e.sanitise, e.ord, e.fuel⟩ (n + 1) path =
        (contents e path (fs.read path) >>= fun c =>
          c.2.1.mapM (OneNote.resolveEntryPath fs e.sanitise c.1) >>= fun paths =>
          (paths.filter (keepEntry ⟨fs, e.sanitise, e.ord, e.fuel⟩)).mapM
            (OneNote.parseEntry (OneNote.parseNotebook ⟨fs, e.sanitise, e.ord, e.fuel⟩ n)
              ⟨fs, e.sanitise, e.ord, e.fuel⟩) >>= fun entries =>
          .ok { entries, color := c.2.2 }) := by
      unfold OneNote.parseNotebook contents
      dsimp only
      cases orErr .io (fs.read path) with
      | error x => rfl
      | ok data =>
        rw [Res.bind_of_ok, Res.bind_of_ok]
        cases readStore e.ord data with
        | error x => rfl
        | ok st =>
          rw [Res.bind_of_ok, Res.bind_of_ok]
          split
          · rfl
          · cases orErr .invalidPath path.parent with
            | error x => rfl
            | ok d =>
              rw [Res.bind_of_ok, Res.bind_of_ok]
              cases parseToc e.fuel st.dataRoot with
              | error x => rfl
              | ok c => rfl
    rw [hq]
    unfold parseNotebook
    exact .op h <| .bind (.ofRes _) fun c => .bind (.mapAll (resolve_same e fs h c.1) _) fun paths =>
        .bind (entries_same e fs h ih paths) fun _ => .pure _

/-! ### The time passes, and every section is read at one moment -/

/-- Operations come after those before. -/
def Forward (p : T α) : Prop := ∀ t a t', p t = .ok (a, t') → t ≤ t'

theorem Forward.pure (a : α) : Forward (pure a : T α) := by
  intro t b t' h
  cases h
  exact Nat.le_refl t

theorem Forward.ofRes (r : Res α) : Forward (T.ofRes r) := by
  intro t b t' h
  cases r with
  | error e => cases h
  | ok a => cases h; exact Nat.le_refl t

theorem Forward.op (e : Timed) (f : FileSystem → α) : Forward (T.op e f) := by
  intro t b t' h
  cases h
  exact Nat.le_succ t

theorem Forward.bind {p : T α} {f : α → T β} (hp : Forward p) (hf : ∀ a, Forward (f a)) :
    Forward (p >>= f) := by
  intro t b t' h
  obtain ⟨a, t1, h1, h2⟩ := T.bind_eq_ok.1 h
  exact Nat.le_trans (hp _ _ _ h1) (hf a _ _ _ h2)

theorem Forward.mapAll {f : α → T β} (h : ∀ a, Forward (f a)) (l : List α) :
    Forward (T.mapAll f l) := by
  induction l with
  | nil => exact .pure []
  | cons a l ih => exact .bind (h a) fun b => .bind ih fun bs => .pure _

theorem Forward.resolve (e : Timed) (base : Path) (entry : Text) :
    Forward (resolveEntryPath e base entry) := by
  refine .bind (.ofRes _) fun p => .bind (.bind (.op _ _) fun b => ?_) fun _ => .pure _
  split
  · refine .bind (.op _ _) fun _ => .bind (.ofRes _) fun _ => .bind (.op _ _) fun _ =>
      .bind (.ofRes _) fun _ => ?_
    split
    · exact .pure _
    · exact .ofRes _
  · exact .pure _

theorem readAt_mono {e : Timed} {t t' u u' : Nat} {s : Section} (h : ReadAt e t t' s) (h1 : u ≤ t)
    (h2 : t' ≤ u') : ReadAt e u u' s := by
  obtain ⟨τ, p, a, b, c⟩ := h
  exact ⟨τ, p, Nat.le_trans h1 a, Nat.lt_of_lt_of_le b h2, c⟩

theorem section_read {e : Timed} {p : Path} {t t' : Nat} {s : Section}
    (h : parseSectionFile e p t = .ok (s, t')) : ReadAt e t t' s ∧ t ≤ t' := by
  obtain ⟨d, t1, h1, h2⟩ := T.bind_eq_ok.1 h
  cases h1
  have : section' e p ((e.world t).read p) = .ok s ∧ t' = t + 1 := by
    cases hx : section' e p ((e.world t).read p) with
    | error x => rw [hx] at h2; cases h2
    | ok s' => rw [hx] at h2; cases h2; exact ⟨rfl, rfl⟩
  exact ⟨⟨t, p, Nat.le_refl t, by omega, this.1⟩, by omega⟩

/-- What is known of a notebook computed from time `t` to `t'`. -/
def Read (e : Timed) (t t' : Nat) (entries : List SectionEntry) : Prop :=
  t ≤ t' ∧ ∀ s, Among s entries → ReadAt e t t' s

theorem entry_read {e : Timed} {notebook : Path → T Notebook}
    (hn : ∀ p t nb t', notebook p t = .ok (nb, t') → Read e t t' nb.entries) {p : Path} {t t' : Nat}
    {x : SectionEntry} (h : parseEntry notebook e p t = .ok (x, t')) :
    t ≤ t' ∧ (∀ s, x = .section s → ReadAt e t t' s) ∧
      ∀ g, x = .sectionGroup g → ∀ s, Among s g.entries → ReadAt e t t' s := by
  obtain ⟨b, t1, h1, h2⟩ := T.bind_eq_ok.1 h
  cases h1
  split at h2
  · obtain ⟨s, t2, h3, h4⟩ := T.bind_eq_ok.1 h2
    cases h4
    obtain ⟨h5, h6⟩ := section_read h3
    refine ⟨by omega, fun s' e' => ?_, fun g e' => (nomatch e')⟩
    cases e'
    exact readAt_mono h5 (by omega) (by omega)
  · obtain ⟨g, t2, h3, h4⟩ := T.bind_eq_ok.1 h2
    cases h4
    obtain ⟨name, t3, h5, h6⟩ := T.bind_eq_ok.1 h3
    obtain ⟨names, t4, h7, h8⟩ := T.bind_eq_ok.1 h6
    obtain ⟨names', t5, h9, h10⟩ := T.bind_eq_ok.1 h8
    obtain ⟨toc, t6, h11, h12⟩ := T.bind_eq_ok.1 h10
    obtain ⟨nb, t7, h13, h14⟩ := T.bind_eq_ok.1 h12
    cases h14
    have a1 := Forward.ofRes _ _ _ _ h5
    have a2 := Forward.op _ _ _ _ _ h7
    have a3 := Forward.ofRes _ _ _ _ h9
    have a4 := Forward.ofRes _ _ _ _ h11
    obtain ⟨a5, a6⟩ := hn _ _ _ _ h13
    refine ⟨by omega, fun s e' => (nomatch e'), fun g e' s hs => ?_⟩
    cases e'
    exact readAt_mono (a6 s hs) (by omega) (Nat.le_refl _)

theorem entries_read {e : Timed} {notebook : Path → T Notebook}
    (hn : ∀ p t nb t', notebook p t = .ok (nb, t') → Read e t t' nb.entries) (ps : List Path) {t t' : Nat}
    {xs : List SectionEntry} (h : parseEntries notebook e ps t = .ok (xs, t')) : Read e t t' xs := by
  induction ps generalizing t t' xs with
  | nil =>
    cases h
    refine ⟨Nat.le_refl t, fun s hs => ?_⟩
    cases hs with
    | entry h => cases h
    | group h => cases h
  | cons p ps ih =>
    unfold parseEntries at h
    obtain ⟨b, t1, h1, h2⟩ := T.bind_eq_ok.1 h
    cases h1
    split at h2
    · obtain ⟨x, t2, h3, h4⟩ := T.bind_eq_ok.1 h2
      obtain ⟨ys, t3, h5, h6⟩ := T.bind_eq_ok.1 h4
      cases h6
      obtain ⟨a1, a2, a3⟩ := entry_read hn h3
      obtain ⟨a4, a5⟩ := ih h5
      refine ⟨by omega, fun s hs => ?_⟩
      cases hs with
      | entry h =>
        rcases List.mem_cons.1 h with h | h
        · exact readAt_mono (a2 s h.symm) (by omega) (by omega)
        · exact readAt_mono (a5 s (.entry h)) (by omega) (by omega)
      | group h hg =>
        rcases List.mem_cons.1 h with h | h
        · exact readAt_mono (a3 _ h.symm s hg) (by omega) (by omega)
        · exact readAt_mono (a5 s (.group h hg)) (by omega) (by omega)
    · obtain ⟨a1, a2⟩ := ih h2
      exact ⟨by omega, fun s hs => readAt_mono (a2 s hs) (by omega) (by omega)⟩

theorem notebook_read (e : Timed) (n : Nat) (path : Path) (t : Nat) (nb : Notebook) (t' : Nat)
    (h : parseNotebook e n path t = .ok (nb, t')) : Read e t t' nb.entries := by
  induction n generalizing path t nb t' with
  | zero => cases h
  | succ n ih =>
    unfold parseNotebook at h
    obtain ⟨d, t1, h1, h2⟩ := T.bind_eq_ok.1 h
    obtain ⟨c, t2, h3, h4⟩ := T.bind_eq_ok.1 h2
    obtain ⟨ps, t3, h5, h6⟩ := T.bind_eq_ok.1 h4
    obtain ⟨xs, t4, h7, h8⟩ := T.bind_eq_ok.1 h6
    cases h8
    have a1 := Forward.op _ _ _ _ _ h1
    have a2 := Forward.ofRes _ _ _ _ h3
    have a3 := Forward.mapAll (Forward.resolve e c.1) _ _ _ _ h5
    obtain ⟨a4, a5⟩ := entries_read ih ps h7
    exact ⟨by omega, fun s hs => readAt_mono (a5 s hs) (by omega) (Nat.le_refl _)⟩

/-! ### Nothing outside the directory matters while paths lead to the same places -/

theorem T.bind_congr {p q : T α} {f g : α → T β} {t : Nat} (h : p t = q t)
    (hf : ∀ a t1, p t = .ok (a, t1) → f a t1 = g a t1) : (p >>= f) t = (q >>= g) t := by
  cases hp : p t with
  | error e => rw [T.bind_err hp, T.bind_err (h ▸ hp)]
  | ok v =>
    obtain ⟨a, t1⟩ := v
    rw [T.bind_ok hp, T.bind_ok (h ▸ hp)]
    exact hf a t1 hp

theorem op_congr {e e' : Timed} {f : FileSystem → α} {t : Nat} (h : f (e.world t) = f (e'.world t)) :
    T.op e f t = T.op e' f t := by
  show Except.ok (_, _) = Except.ok (_, _)
  rw [h]

theorem mapAll_congr {f g : α → T β} (h : ∀ a t, f a t = g a t) (l : List α) (t : Nat) :
    T.mapAll f l t = T.mapAll g l t := by
  induction l generalizing t with
  | nil => rfl
  | cons a l ih =>
    exact T.bind_congr (h a t) fun b t1 _ => T.bind_congr (ih t1) fun bs t2 _ => rfl

theorem mapAll_mem {f : α → T β} {P : β → Prop} (h : ∀ a t b t', f a t = .ok (b, t') → P b)
    (l : List α) {t t' : Nat} {bs : List β} (hl : T.mapAll f l t = .ok (bs, t')) : ∀ b ∈ bs, P b := by
  induction l generalizing t t' bs with
  | nil =>
    cases hl
    intro b hb
    cases hb
  | cons a l ih =>
    obtain ⟨b, t1, h1, h2⟩ := T.bind_eq_ok.1 hl
    obtain ⟨bs', t2, h3, h4⟩ := T.bind_eq_ok.1 h2
    cases h4
    intro b' hb'
    rcases List.mem_cons.1 hb' with rfl | hb'
    · exact h a _ _ _ h1
    · exact ih h3 b' hb'

theorem candidate_below {sanitise : Text → Text} {base : Path} {entry : Text} {p : Path}
    (h : candidate sanitise base entry = .ok p) : Below base p := by
  have hr : OneNote.resolveEntryPath ⟨fun _ => false, fun _ => false, fun _ => none, fun _ => none,
      fun _ => none⟩ sanitise base entry = .ok p := by
    rw [resolve_eq, h]
    rfl
  obtain ⟨⟨names, hne, hok, rfl⟩, -⟩ := resolveEntryPath_ok hr
  exact ⟨names, hne, fun n hn => (hok n hn).1, rfl⟩

theorem inside_steady {w : Nat → FileSystem} (hw : Steady w) {base p : Path} (t : Nat) :
    Inside (w t) base p ↔ Inside (w 0) base p := by
  unfold Inside
  rw [hw.canonicalize t base, hw.canonicalize t p]

theorem checkInside_inside {e : Timed} (hw : Steady e.world) {base p : Path} {t t' : Nat}
    (h : checkInside e base p t = .ok ((), t')) (hp : (e.world 0).pathExists p = true) :
    Inside (e.world 0) base p := by
  unfold checkInside at h
  obtain ⟨b, t1, h1, h2⟩ := T.bind_eq_ok.1 h
  cases h1
  rw [if_pos (show (e.world t).pathExists p = true from by rw [hw.pathExists, hp])] at h2
  obtain ⟨b, t1, h1, h3⟩ := T.bind_eq_ok.1 h2
  cases h1
  obtain ⟨b, t1, h4, h5⟩ := T.bind_eq_ok.1 h3
  obtain ⟨c, t2, h6, h7⟩ := T.bind_eq_ok.1 h5
  cases h6
  obtain ⟨c, t3, h8, h9⟩ := T.bind_eq_ok.1 h7
  dsimp only at h4 h8
  rw [hw.canonicalize] at h4 h8
  cases hb : (e.world 0).canonicalize base with
  | none => rw [hb] at h4; cases h4
  | some b' =>
    rw [hb] at h4
    cases h4
    cases hc : (e.world 0).canonicalize p with
    | none => rw [hc] at h8; cases h8
    | some c' =>
      rw [hc] at h8
      cases h8
      split at h9
      · next hs =>
        obtain ⟨rest, hr⟩ := List.isPrefixOf_iff_prefix.1 hs
        exact ⟨b, c, rest, hb, hc, hr.symm⟩
      · cases h9

theorem resolve_inside {e : Timed} (hw : Steady e.world) {base : Path} {entry : Text} {t t' : Nat}
    {p : Path} (h : resolveEntryPath e base entry t = .ok (p, t')) :
    Below base p ∧ ((e.world 0).pathExists p = true → Inside (e.world 0) base p) := by
  obtain ⟨q, t1, h1, h2⟩ := T.bind_eq_ok.1 h
  obtain ⟨u, t2, h3, h4⟩ := T.bind_eq_ok.1 h2
  cases h4
  refine ⟨?_, checkInside_inside hw h3⟩
  cases hc : candidate e.sanitise base entry with
  | error x => rw [hc] at h1; cases h1
  | ok q =>
    rw [hc] at h1
    cases h1
    exact candidate_below hc

theorem checkInside_congr {e e' : Timed} {base dir p : Path}
    (hs : ∀ t, SameInside base (e.world t) (e'.world t)) (hd : dir = base ∨ Below base dir)
    (hp : Below base p) (t : Nat) : checkInside e dir p t = checkInside e' dir p t := by
  unfold checkInside
  refine T.bind_congr (op_congr ((hs t).pathExists p hp)) fun b t1 _ => ?_
  split
  · refine T.bind_congr (op_congr ((hs _).canonicalize dir hd)) fun _ _ _ => T.bind_congr rfl fun _ _ _ =>
      T.bind_congr (op_congr ((hs _).canonicalize p (.inr hp))) fun _ _ _ => rfl
  · rfl

theorem entries_congr {e e' : Timed} {n n' : Path → T Notebook} {ps : List Path}
    (hp : ∀ p ∈ ps, ∀ t, (e.world t).pathExists p = (e'.world t).pathExists p)
    (hq : ∀ p ∈ ps, (∃ t, (e.world t).pathExists p = true) → ∀ t, parseEntry n e p t = parseEntry n' e' p t)
    (t : Nat) : parseEntries n e ps t = parseEntries n' e' ps t := by
  induction ps generalizing t with
  | nil => rfl
  | cons p ps ih =>
    have ih := fun t => ih (fun q hq' => hp q (List.mem_cons_of_mem _ hq'))
      (fun q hq' => hq q (List.mem_cons_of_mem _ hq')) t
    unfold parseEntries
    refine T.bind_congr (op_congr (hp p List.mem_cons_self t)) fun b t1 h1 => ?_
    split
    · next hb =>
      rw [Bool.and_eq_true] at hb
      have hb : (e.world t).pathExists p = true := by
        cases h1
        exact hb.1
      exact T.bind_congr (hq p List.mem_cons_self ⟨t, hb⟩ t1) fun x t2 _ => T.bind_congr (ih t2)
        fun _ _ _ => rfl
    · exact ih t1

theorem notebook_congr {e e' : Timed} (he : e.sanitise = e'.sanitise ∧ e.ord = e'.ord ∧ e.fuel = e'.fuel)
    {base : Path} (hw : Steady e.world) (hs : ∀ t, SameInside base (e.world t) (e'.world t))
    (ht : ∀ t, SameTocs base (e.world t) (e'.world t)) (n : Nat) :
    ∀ path dir, Path.parent path = some dir →
      (dir = base ∨ (Below base dir ∧ Inside (e.world 0) base dir)) →
      (∀ t, (e.world t).read path = (e'.world t).read path) →
      ∀ t, parseNotebook e n path t = parseNotebook e' n path t := by
  induction n with
  | zero => intros; rfl
  | succ n ih =>
    intro path dir hdir hd hread t
    have below : ∀ p, Below dir p → Below base p := by
      intro p hp
      rcases hd with rfl | ⟨hd, _⟩
      · exact hp
      · exact below_trans hd hp
    have inside : ∀ p, Inside (e.world 0) dir p → Inside (e.world 0) base p := by
      intro p hp
      rcases hd with rfl | ⟨_, hd⟩
      · exact hp
      · exact inside_trans hd hp
    have hcon : ∀ d, contents e path d = contents e' path d := by
      intro d
      unfold contents
      rw [he.2.1, he.2.2]
    have hsec : ∀ p d, section' e p d = section' e' p d := by
      intro p d
      unfold section'
      rw [he.2.1, he.2.2]
    unfold parseNotebook
    refine T.bind_congr (op_congr (hread t)) fun d t1 _ => T.bind_congr (by rw [hcon d]) fun c t2 hc => ?_
    have hc1 : c.1 = dir := by
      cases hx : contents e path d with
      | error x => rw [hx] at hc; cases hc
      | ok c' =>
        rw [hx] at hc
        cases hc
        unfold contents at hx
        obtain ⟨data, -, hx⟩ := Res.bind_ok hx
        obtain ⟨st, -, hx⟩ := Res.bind_ok hx
        split at hx
        · cases hx
        · obtain ⟨b, hb, hx⟩ := Res.bind_ok hx
          obtain ⟨x, -, hx⟩ := Res.bind_ok hx
          cases hx
          rw [hdir] at hb
          cases hb
          rfl
    rw [hc1]
    refine T.bind_congr (mapAll_congr (fun entry t => ?_) _ _) fun ps t3 hps => ?_
    · unfold resolveEntryPath
      rw [he.1]
      refine T.bind_congr rfl fun p t1 hp => T.bind_congr ?_ fun _ _ _ => rfl
      refine checkInside_congr hs (hd.imp id And.left) (below p ?_) t1
      cases hx : candidate e'.sanitise dir entry with
      | error x => rw [hx] at hp; cases hp
      | ok q =>
        rw [hx] at hp
        cases hp
        exact candidate_below hx
    · have hps := mapAll_mem (P := fun p => Below dir p ∧ ((e.world 0).pathExists p = true →
        Inside (e.world 0) dir p)) (fun entry t p t' h => resolve_inside hw h) _ hps
      refine T.bind_congr (entries_congr (fun p hp t => (hs t).pathExists p (below p (hps p hp).1))
        (fun p hp hx t => ?_) t3) fun _ _ _ => rfl
      obtain ⟨τ, hx⟩ := hx
      rw [hw.pathExists] at hx
      have hpb := below p (hps p hp).1
      have hpi := inside p ((hps p hp).2 hx)
      have hpt := fun t => (inside_steady hw (base := base) (p := p) t).2 hpi
      unfold parseEntry
      refine T.bind_congr (op_congr ((hs t).isFile p hpb (hpt t))) fun b t1 _ => ?_
      split
      · refine T.bind_congr (T.bind_congr (op_congr ((hs t1).read p hpb (hpt t1))) fun d t2 _ => ?_)
          fun _ _ _ => rfl
        rw [hsec]
      · refine T.bind_congr ?_ fun _ _ _ => rfl
        unfold parseSectionGroup
        refine T.bind_congr rfl fun name t2 _ =>
          T.bind_congr (op_congr ((hs t2).readDir p hpb (hpt t2))) fun names t3 _ =>
          T.bind_congr rfl fun names t4 _ => T.bind_congr rfl fun toc t5 hf => T.bind_congr ?_ fun _ _ _ => rfl
        cases hx : findToc p names with
        | error x => rw [hx] at hf; cases hf
        | ok q =>
          rw [hx] at hf
          cases hf
          obtain ⟨stem, hst, rfl, hm⟩ := findToc_ok hx
          exact ih _ p (parent_join p _) (.inr ⟨hpb, hpi⟩)
            (fun t => ht t _ ⟨p, stem, hst, rfl, hpb, hpt t⟩) _

end Timed
end OneNote
