/-
Replacing section files of a notebook.
-/
import Verif.Lemmas.Located
import Verif.Spec.Edited

namespace OneNote.Edited

open Spec

/-- A section file is not a table of contents. -/
theorem not_toc {env : Env} {p base : Path} {s : Section} {names : List Text} {color : Option Color}
    (h : parseSectionFile env p = .ok s) (hc : Contents env p base names color) : False := by
  obtain ⟨⟨data, store, h1, h2, h3, -⟩, -⟩ := hc
  unfold parseSectionFile at h
  rw [h1] at h
  obtain ⟨d, hd, h⟩ := Res.bind_ok_iff.1 h
  cases hd
  rw [h2] at h
  obtain ⟨st, hs, h⟩ := Res.bind_ok_iff.1 h
  cases hs
  rw [h3, if_pos (by decide)] at h
  cases h

theorem contents_same {env : Env} {files : Path → Option Bytes} {path base : Path} {names : List Text}
    {color : Option Color} (hr : files path = env.fs.read path)
    (h : Contents env path base names color) : Contents (withFiles env files) path base names color := by
  obtain ⟨⟨data, store, h1, h2, h3, h4⟩, h5⟩ := h
  exact ⟨⟨data, store, hr.trans h1, h2, h3, h4⟩, h5⟩

theorem contents_unique {env : Env} {path base base' : Path} {names names' : List Text}
    {color color' : Option Color} (h : Contents env path base names color)
    (h' : Contents env path base' names' color') : base = base' ∧ names = names' ∧ color = color' := by
  obtain ⟨⟨data, store, h1, h2, h3, h4⟩, h5⟩ := h
  obtain ⟨⟨data', store', h1', h2', h3', h4'⟩, h5'⟩ := h'
  rw [h1] at h1'
  cases h1'
  rw [h2] at h2'
  cases h2'
  rw [h4] at h4'
  cases h4'
  rw [h5] at h5'
  cases h5'
  exact ⟨rfl, rfl, rfl⟩

section
variable {env : Env} {files : Path → Option Bytes} {new : Path → Option Section}

theorem file_new (hr : Replaced env files new) {p : Path} {s : Section}
    (h : parseSectionFile env p = .ok s) :
    parseSectionFile (withFiles env files) p = .ok ((new p).getD s) := by
  cases hn : new p with
  | some s' => exact hr.new p s' hn
  | none =>
    unfold parseSectionFile withFiles at *
    dsimp only
    rw [hr.same p hn]
    exact h

mutual

theorem opens_new (hr : Replaced env files new) {path : Path} {es : List Located} {color : Option Color}
    (h : Opens env path es color) : Opens (withFiles env files) path (Located.revise new es) color := by
  match h with
  | .mk (paths := paths) hc hp he =>
    refine .mk (paths := paths) (contents_same (hr.same _ ?_) hc) hp (all_new hr he)
    cases hn : new path with
    | none => rfl
    | some s =>
      obtain ⟨s', hs⟩ := hr.old _ _ hn
      exact (not_toc hs hc).elim

theorem all_new (hr : Replaced env files new) {ps : List Path} {es : List Located}
    (h : Each (OpensEntry env) ps es) :
    Each (OpensEntry (withFiles env files)) ps (Located.revise new es) := by
  match h with
  | .nil => exact .nil
  | .cons (b := .file _ s) hx hs =>
    have ih := all_new hr hs
    cases hx with
    | file hf hp => exact .cons (.file hf (file_new hr hp)) ih
  | .cons (b := .directory _ name es') hx hs =>
    have ih := all_new hr hs
    match hx with
    | .directory hf hl hd hb ht ho => exact .cons (.directory hf hl hd hb ht (opens_new hr ho)) ih

end

end

/-! ### Damage -/

theorem paths_unique {f : Text → Path → Prop} (hf : ∀ x y y', f x y → f x y' → y = y') {names : List Text}
    {ps ps' : List Path} (h : Each f names ps) (h' : Each f names ps') : ps = ps' := by
  induction h generalizing ps' with
  | nil => cases h'; rfl
  | cons hr _ ih =>
    cases h' with
    | cons hr' hs' => rw [hf _ _ _ hr hr', ih hs']

theorem first_toc {before before' after after' : List (Option Text)} {toc toc' : Text}
    (h : before ++ some toc :: after = before' ++ some toc' :: after') (hb : NoToc before)
    (hb' : NoToc before') (ht : TocName toc) (ht' : TocName toc') : toc = toc' := by
  induction before generalizing before' with
  | nil =>
    cases before' with
    | nil => cases h; rfl
    | cons x before' =>
      cases h
      obtain ⟨t, ht2, hn⟩ := hb' _ (.head _)
      cases ht2
      exact absurd ht hn
  | cons x before ih =>
    cases before' with
    | nil =>
      cases h
      obtain ⟨t, ht2, hn⟩ := hb _ (.head _)
      cases ht2
      exact absurd ht' hn
    | cons y before' =>
      simp only [List.cons_append, List.cons.injEq] at h
      exact ih h.2 (fun x hx => hb x (.tail _ hx)) (fun x hx => hb' x (.tail _ hx))

section
variable {env : Env} {files : Path → Option Bytes} {p : Path} {s0 : Section}

mutual

/-- If the notebook is read, so is the section in each of its files. -/
theorem opens_file (hr : ∀ q, q ≠ p → files q = env.fs.read q) (hp : parseSectionFile env p = .ok s0)
    {path : Path} {es es' : List Located} {color color' : Option Color} (h : Opens env path es color)
    (h' : Opens (withFiles env files) path es' color') (hf : Located.HasFile p es) :
    ∃ s, parseSectionFile (withFiles env files) p = .ok s := by
  match h with
  | .mk (names := names) (paths := paths) hc hps he =>
    cases h' with
    | mk hc' hps' he' =>
      have hne : path ≠ p := fun e => not_toc hp (e ▸ hc)
      obtain ⟨rfl, rfl, rfl⟩ := contents_unique (contents_same (hr _ hne) hc) hc'
      have e := paths_unique (fun x y y' a b => Except.ok.inj (a.symm.trans b)) hps hps'
      subst e
      exact all_file hr hp he he' hf

theorem all_file (hr : ∀ q, q ≠ p → files q = env.fs.read q) (hp : parseSectionFile env p = .ok s0)
    {ps : List Path} {es es' : List Located} (h : Each (OpensEntry env) ps es)
    (h' : Each (OpensEntry (withFiles env files)) ps es') (hf : Located.HasFile p es) :
    ∃ s, parseSectionFile (withFiles env files) p = .ok s := by
  match h with
  | .nil => cases hf
  | .cons (b := .file _ s) hx hs =>
    cases h' with
    | cons hx' hs' =>
      cases hf with
      | later hf => exact all_file hr hp hs hs' hf
      | here =>
        cases hx with
        | file hi _ =>
          cases hx' with
          | file _ ho => exact ⟨_, ho⟩
          | directory hi' => exact absurd (hi.symm.trans hi') (by decide)
  | .cons (b := .directory _ name inner) hx hs =>
    cases h' with
    | cons hx' hs' =>
      cases hf with
      | later hf => exact all_file hr hp hs hs' hf
      | inside hf =>
        match hx with
        | .directory hi hl hd hb ht ho =>
          cases hx' with
          | file hi' _ => exact absurd (hi'.symm.trans hi) (by decide)
          | directory hi' hl' hd' hb' ht' ho' =>
            have e : some _ = some _ := hd.symm.trans hd'
            have e := first_toc (Option.some.inj e) hb hb' ht ht'
            subst e
            exact opens_file hr hp ho ho' hf

end

mutual

/-- The sections of a notebook have been read. -/
theorem hasFile_read {path : Path} {es : List Located} {color : Option Color}
    (h : Opens env path es color) (hf : Located.HasFile p es) :
    ∃ s, parseSectionFile env p = .ok s := by
  match h with
  | .mk _ _ he => exact hasFile_all he hf

theorem hasFile_all {ps : List Path} {es : List Located} (h : Each (OpensEntry env) ps es)
    (hf : Located.HasFile p es) : ∃ s, parseSectionFile env p = .ok s := by
  match h with
  | .nil => cases hf
  | .cons (b := .file _ s) hx hs =>
    cases hf with
    | later hf => exact hasFile_all hs hf
    | here =>
      cases hx with
      | file _ ho => exact ⟨_, ho⟩
  | .cons (b := .directory _ name inner) hx hs =>
    cases hf with
    | later hf => exact hasFile_all hs hf
    | inside hf =>
      match hx with
      | .directory _ _ _ _ _ ho => exact hasFile_read ho hf

end

mutual

/-- A section file that the notebook does not lead to may be anything. -/
theorem opens_other (hr : ∀ q, q ≠ p → files q = env.fs.read q) (hp : parseSectionFile env p = .ok s0)
    {path : Path} {es : List Located} {color : Option Color} (h : Opens env path es color)
    (hf : ¬ Located.HasFile p es) : Opens (withFiles env files) path es color := by
  match h with
  | .mk (paths := paths) hc hps he =>
    have hne : path ≠ p := fun e => not_toc hp (e ▸ hc)
    exact .mk (paths := paths) (contents_same (hr _ hne) hc) hps (all_other hr hp he hf)

theorem all_other (hr : ∀ q, q ≠ p → files q = env.fs.read q) (hp : parseSectionFile env p = .ok s0)
    {ps : List Path} {es : List Located} (h : Each (OpensEntry env) ps es)
    (hf : ¬ Located.HasFile p es) : Each (OpensEntry (withFiles env files)) ps es := by
  match h with
  | .nil => exact .nil
  | .cons (b := .file _ s) hx hs =>
    have ih := all_other hr hp hs fun h => hf (.later h)
    cases hx with
    | file hi ho =>
      refine .cons (.file hi ?_) ih
      unfold parseSectionFile withFiles at *
      dsimp only
      rw [hr _ fun e => hf (e ▸ .here)]
      exact ho
  | .cons (b := .directory _ name inner) hx hs =>
    have ih := all_other hr hp hs fun h => hf (.later h)
    match hx with
    | .directory hi hl hd hb ht ho =>
      exact .cons (.directory hi hl hd hb ht (opens_other hr hp ho fun h => hf (.inside h))) ih

end

end

end OneNote.Edited
