/-
Deleting files and directories of a notebook.
-/
import Verif.Lemmas.Whole
import Verif.Props.C35
import Verif.Spec.Located

namespace OneNote

open Spec

theorem entries_map (es : List Located) : Located.entries es = es.map Located.entry := by
  induction es with
  | nil => rfl
  | cons e es ih => rw [Located.entries, ih]; rfl

/-- Each entry of a parsed notebook has its place. -/
theorem opens_of_parse (env : Env) : ∀ (n : Nat) (path : Path) (nb : Notebook),
    parseNotebook env n path = .ok nb →
    ∃ es, Opens env path es nb.color ∧ Located.entries es = nb.entries := by
  intro n
  induction n with
  | zero => intro _ _ h; cases h
  | succ n ih =>
    intro path nb h
    obtain ⟨base, names, color, paths, hc, hp, hcol, he⟩ := (C35_entries env n path nb).1 h
    have : ∃ es, Each (OpensEntry env) (Kept env.fs paths) es ∧ Located.entries es = nb.entries := by
      clear hp hc h
      generalize Kept env.fs paths = ps at he
      generalize nb.entries = xs at he
      induction he with
      | nil => exact ⟨[], .nil, rfl⟩
      | @cons p e ps xs hx _ ih' =>
        obtain ⟨es, h1, h2⟩ := ih'
        cases hx with
        | file s hf hs =>
          exact ⟨.file p s :: es, .cons (.file hf hs) h1, by rw [Located.entries, h2]; rfl⟩
        | directory name toc before after nb' hf hl hr hb ht hn =>
          obtain ⟨es', h3, h4⟩ := ih _ _ hn
          exact ⟨.directory p name es' :: es, .cons (.directory hf hl hr hb ht h3) h1, by
            rw [Located.entries, h2, Located.entry, h4]⟩
    obtain ⟨es, h1, h2⟩ := this
    rw [hcol]
    exact ⟨es, .mk hc hp h1, h2⟩

mutual

/-- What the tables of contents lead to is what is parsed. -/
theorem parse_of_opens {env : Env} {path : Path} {es : List Located} {color : Option Color}
    (h : Opens env path es color) :
    ∃ n, ∀ m, n ≤ m → parseNotebook env m path = .ok ⟨Located.entries es, color⟩ := by
  match h with
  | .mk hc hp he =>
    obtain ⟨n, hn⟩ := parse_of_all he
    refine ⟨n + 1, fun m hm => ?_⟩
    obtain ⟨k, rfl⟩ : ∃ k, m = k + 1 := ⟨m - 1, by omega⟩
    exact (C35_entries env k path _).2 ⟨_, _, _, _, hc, hp, rfl, hn k (by omega)⟩

theorem parse_of_all {env : Env} {ps : List Path} {es : List Located}
    (h : Each (OpensEntry env) ps es) :
    ∃ n, ∀ m, n ≤ m → Each (EntryAt env.fs (fun p s => parseSectionFile env p = .ok s)
      (fun p nb => parseNotebook env m p = .ok nb)) ps (Located.entries es) := by
  match h with
  | .nil => exact ⟨0, fun _ _ => .nil⟩
  | .cons (b := .file _ _) hx hs =>
    obtain ⟨n, hn⟩ := parse_of_all hs
    cases hx with
    | file hf hp => exact ⟨n, fun m hm => .cons (.file _ hf hp) (hn m hm)⟩
  | .cons (b := .directory _ _ _) hx hs =>
    obtain ⟨n, hn⟩ := parse_of_all hs
    match hx with
    | .directory hf hl hr hb ht ho =>
      obtain ⟨k, hk⟩ := parse_of_opens ho
      exact ⟨n + k, fun m hm =>
        .cons (EntryAt.directory _ _ _ _ ⟨_, _⟩ hf hl hr hb ht (hk m (by omega))) (hn m (by omega))⟩

end

variable {gone : Path → Bool} {env : Env} {fs' : FileSystem}

theorem gone_parent (hd : Deleted gone env.fs fs') {dir : Path} {c : Component}
    (h : gone (dir ++ [c]) = false) : gone dir = false := by
  cases hg : gone dir with
  | false => rfl
  | true => rw [hd.whole dir c hg] at h; cases h

theorem contents_deleted (hd : Deleted gone env.fs fs') {path base : Path} {names : List Text}
    {color : Option Color} (hg : gone path = false) (h : Contents env path base names color) :
    Contents { env with fs := fs' } path base names color := by
  obtain ⟨⟨data, store, h1, h2, h3, h4⟩, h5⟩ := h
  exact ⟨⟨data, store, (hd.read _ hg).trans h1, h2, h3, h4⟩, h5⟩

theorem resolve_deleted (hd : Deleted gone env.fs fs') {base : Path} {name : Text} {p : Path}
    (hg : gone base = false) (h : resolveEntryPath env.fs env.sanitise base name = .ok p) :
    resolveEntryPath fs' env.sanitise base name = .ok p := by
  unfold resolveEntryPath at h ⊢
  split at h
  · cases h
  · rename_i ha
    rw [if_neg ha]
    obtain ⟨parts, hp, h⟩ := Res.bind_ok_iff.1 h
    refine Res.bind_ok_iff.2 ⟨parts, hp, ?_⟩
    dsimp only at h ⊢
    split at h
    · cases h
    · rename_i he
      rw [if_neg he]
      obtain ⟨u, hu, h⟩ := Res.bind_ok_iff.1 h
      refine Res.bind_ok_iff.2 ⟨u, ?_, h⟩
      generalize base.join _ = q at hu
      unfold checkInside at hu ⊢
      rw [hd.pathExists]
      cases hq : gone q with
      | true =>
        rw [Bool.not_true, Bool.and_false]
        rfl
      | false =>
        rw [Bool.not_false, Bool.and_true, hd.canonicalize _ hg, hd.canonicalize _ hq]
        exact hu

theorem kept_deleted (hd : Deleted gone env.fs fs') (paths : List Path) :
    Kept fs' paths = (Kept env.fs paths).filter fun p => !gone p := by
  unfold Kept
  rw [List.filter_filter]
  refine List.filter_congr fun p _ => ?_
  rw [hd.pathExists]
  generalize decide (p.getLast? ≠ some (.normal "OneNote_RecycleBin".toList)) = b
  cases env.fs.pathExists p <;> cases gone p <;> cases b <;> rfl

theorem base_kept (hd : Deleted gone env.fs fs') {path base : Path} {names : List Text}
    {color : Option Color} (hg : gone path = false) (h : Contents env path base names color) :
    gone base = false := by
  obtain ⟨c, rfl⟩ : ∃ c, path = base ++ [c] := by
    have := h.parent
    unfold Path.parent at this
    split at this
    · cases this
    · cases this
    · rename_i c _ hc
      cases this
      exact ⟨_, (List.dropLast_concat_getLast (l := path) (by
        intro e; rw [e] at hc; cases hc)).symm⟩
  exact gone_parent hd hg

theorem section_deleted (hd : Deleted gone env.fs fs') {p : Path} {s : Section}
    (hg : gone p = false) (h : parseSectionFile env p = .ok s) :
    parseSectionFile { env with fs := fs' } p = .ok s := by
  unfold parseSectionFile at h ⊢
  dsimp only
  rw [hd.read _ hg]
  exact h

theorem noToc_deleted {dir : Path} {before : List (Option Text)} (h : NoToc before) :
    NoToc (leftIn gone dir before) :=
  fun x hx => h x (List.mem_filter.1 hx).1

mutual

/-- After a deletion a notebook shows what is left. -/
theorem opens_deleted (hd : Deleted gone env.fs fs') {path : Path} {es : List Located}
    {color : Option Color} (h : Opens env path es color) (hg : gone path = false) :
    Opens { env with fs := fs' } path (Located.prune gone es) color := by
  match h with
  | .mk (paths := paths) hc hp he =>
    have hb := base_kept hd hg hc
    refine .mk (paths := paths) (contents_deleted hd hg hc)
      (each_mono hp fun _ _ _ h => resolve_deleted hd hb h) ?_
    show Each _ (Kept fs' paths) _
    rw [kept_deleted hd]
    exact all_deleted hd he

theorem all_deleted (hd : Deleted gone env.fs fs') {ps : List Path} {es : List Located}
    (h : Each (OpensEntry env) ps es) :
    Each (OpensEntry { env with fs := fs' }) (ps.filter fun p => !gone p) (Located.prune gone es) := by
  match h with
  | .nil => exact .nil
  | .cons (a := p) (b := .file _ s) hx hs =>
    have ih := all_deleted hd hs
    cases hx with
    | file hf hp =>
      rw [Located.prune, List.filter_cons]
      cases hg : gone p with
      | true =>
        show Each _ (if (!true) = true then _ else _) (if gone p = true then _ else _)
        rw [hg]
        exact ih
      | false =>
        show Each _ (if (!false) = true then _ else _) (if gone p = true then _ else _)
        rw [hg]
        exact .cons (.file ((hd.isFile _ hg).trans hf) (section_deleted hd hg hp)) ih
  | .cons (a := p) (b := .directory _ name es') hx hs =>
    have ih := all_deleted hd hs
    match hx with
    | .directory (after := after) hf hl hr hb ht ho =>
      rw [Located.prune, List.filter_cons]
      cases hg : gone p with
      | true =>
        show Each _ (if (!true) = true then _ else _) (if gone p = true then _ else _)
        rw [hg]
        exact ih
      | false =>
        have hk := hd.tocs _ _ ht hg
        have ho' := opens_deleted hd ho hk
        show Each _ (if (!false) = true then _ else _) (if gone p = true then _ else _)
        rw [hg]
        refine .cons (.directory (before := leftIn gone p _) (after := leftIn gone p after) ((hd.isFile _ hg).trans hf) hl ?_ (noToc_deleted hb) ht ho') ih
        show fs'.readDir p = _
        rw [hd.readDir _ hg, hr, Option.map_some]
        unfold leftIn
        rw [List.filter_append, List.filter_cons_of_pos]
        simp only [hk, Bool.not_false]

end

end OneNote
