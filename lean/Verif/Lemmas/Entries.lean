/-
The entries of a notebook.
-/
import Verif.Lemmas.Path
import Verif.Spec.Entries

namespace OneNote

open Spec

theorem findToc_first {dir : Path} {toc : Text} {before after : List (Option Text)}
    (hb : NoToc before) (ht : TocName toc) :
    findToc dir (before ++ some toc :: after) = .ok (dir ++ [.normal toc]) := by
  induction before with
  | nil =>
    rw [List.nil_append, findToc]
    exact if_pos ((tocExtension_iff dir toc).2 ht)
  | cons x before ih =>
    obtain ⟨name, rfl, hn⟩ := hb x (List.mem_cons_self ..)
    rw [List.cons_append, findToc]
    refine (if_neg fun h => hn ((tocExtension_iff dir name).1 h)).trans
      (ih fun y hy => hb y (List.mem_cons_of_mem _ hy))

theorem findToc_unreadable {dir : Path} {before after : List (Option Text)}
    (hb : NoToc before) : findToc dir (before ++ none :: after) = .error .io := by
  induction before with
  | nil => rfl
  | cons x before ih =>
    obtain ⟨name, rfl, hn⟩ := hb x (List.mem_cons_self ..)
    rw [List.cons_append, findToc]
    refine (if_neg fun h => hn ((tocExtension_iff dir name).1 h)).trans
      (ih fun y hy => hb y (List.mem_cons_of_mem _ hy))

theorem findToc_missing {dir : Path} {names : List (Option Text)}
    (hb : NoToc names) : findToc dir names = .error .tocFileMissing := by
  induction names with
  | nil => rfl
  | cons x before ih =>
    obtain ⟨name, rfl, hn⟩ := hb x (List.mem_cons_self ..)
    rw [findToc]
    refine (if_neg fun h => hn ((tocExtension_iff dir name).1 h)).trans
      (ih fun y hy => hb y (List.mem_cons_of_mem _ hy))

/-- A directory listing has a first table of contents, an unreadable entry before any, or none. -/
theorem listing_cases (names : List (Option Text)) :
    (∃ before toc after, names = before ++ some toc :: after ∧ NoToc before ∧ TocName toc) ∨
    (∃ before after, names = before ++ none :: after ∧ NoToc before) ∨ NoToc names := by
  induction names with
  | nil => exact .inr (.inr fun x hx => absurd hx List.not_mem_nil)
  | cons x names ih =>
    cases x with
    | none => exact .inr (.inl ⟨[], names, rfl, fun x hx => absurd hx List.not_mem_nil⟩)
    | some name =>
      by_cases hn : TocName name
      · exact .inl ⟨[], name, names, rfl, fun x hx => absurd hx List.not_mem_nil, hn⟩
      · have hcons : ∀ before, NoToc before → NoToc (some name :: before) := by
          intro before hb x hx
          rcases List.mem_cons.1 hx with rfl | hx
          · exact ⟨name, rfl, hn⟩
          · exact hb x hx
        rcases ih with ⟨before, toc, after, rfl, hb, ht⟩ | ⟨before, after, rfl, hb⟩ | hb
        · exact .inl ⟨some name :: before, toc, after, rfl, hcons _ hb, ht⟩
        · exact .inr (.inl ⟨some name :: before, after, rfl, hcons _ hb⟩)
        · exact .inr (.inr (hcons _ hb))

theorem fileName_some {p : Path} {name : Text} :
    Path.fileName p = some name ↔ p.getLast? = some (.normal name) := by
  unfold Path.fileName
  split
  · rename_i n h
    rw [h]
    simp
  · rename_i hne
    constructor
    · intro h; cases h
    · intro h; exact absurd h (hne name)

theorem map_ok_iff {α β : Type} {f : α → β} {x : Res α} {b : β} :
    f <$> x = .ok b ↔ ∃ a, x = .ok a ∧ b = f a := by
  constructor
  · exact map_ok
  · rintro ⟨a, rfl, rfl⟩; rfl

theorem map_error_iff {α β : Type} {f : α → β} {x : Res α} {e : Err} :
    f <$> x = .error e ↔ x = .error e := by
  cases x with
  | error e' => exact ⟨fun h => by cases h; rfl, fun h => by cases h; rfl⟩
  | ok a => exact ⟨(by intro h; cases h), (by intro h; cases h)⟩

theorem parseEntry_ok (notebook : Path → Res Notebook) (env : Env) (p : Path) (e : SectionEntry) :
    parseEntry notebook env p = .ok e ↔
      EntryAt env.fs (fun p s => parseSectionFile env p = .ok s) (fun p nb => notebook p = .ok nb)
        p e := by
  unfold parseEntry
  cases hf : env.fs.isFile p with
  | true =>
    rw [if_pos rfl, map_ok_iff]
    constructor
    · rintro ⟨s, hs, rfl⟩
      exact .file s hf hs
    · intro h
      cases h with
      | file s _ hs => exact ⟨s, hs, rfl⟩
      | directory _ _ _ _ _ hf' => rw [hf] at hf'; cases hf'
  | false =>
    rw [if_neg (by simp), map_ok_iff]
    constructor
    · rintro ⟨g, hg, rfl⟩
      unfold parseSectionGroup at hg
      obtain ⟨name, hn, hg⟩ := Res.bind_ok hg
      obtain ⟨names, hl, hg⟩ := Res.bind_ok hg
      obtain ⟨toc, ht, hg⟩ := Res.bind_ok hg
      obtain ⟨nb, hnb, hg⟩ := Res.bind_ok hg
      cases hg
      rcases listing_cases names with ⟨before, t, after, rfl, hb, hname⟩ | ⟨before, after, rfl, hb⟩ | hb
      · rw [findToc_first hb hname] at ht
        cases ht
        exact .directory name t before after nb hf (fileName_some.1 (orErr_some hn)) (orErr_some hl)
          hb hname hnb
      · rw [findToc_unreadable hb] at ht
        cases ht
      · rw [findToc_missing hb] at ht
        cases ht
    · intro h
      cases h with
      | file s hf' => rw [hf] at hf'; cases hf'
      | directory name toc before after nb _ hn hl hb ht hnb =>
        refine ⟨⟨name, nb.entries⟩, ?_, rfl⟩
        unfold parseSectionGroup
        rw [fileName_some.2 hn, hl]
        show (findToc p (before ++ some toc :: after) >>= _) = _
        rw [findToc_first hb ht]
        show (notebook (p ++ [.normal toc]) >>= _) = _
        rw [hnb]
        rfl

theorem parseEntry_error (notebook : Path → Res Notebook) (env : Env) (p : Path) (e : Err)
    {name : Text} (hn : p.getLast? = some (.normal name)) :
    parseEntry notebook env p = .error e ↔
      EntryFails env.fs (fun p e => parseSectionFile env p = .error e)
        (fun p e => notebook p = .error e) p e := by
  unfold parseEntry
  cases hf : env.fs.isFile p with
  | true =>
    rw [if_pos rfl, map_error_iff]
    constructor
    · exact fun h => .file e hf h
    · intro h
      cases h with
      | file _ _ h => exact h
      | unlistable hf' => rw [hf] at hf'; cases hf'
      | unreadable _ _ hf' => rw [hf] at hf'; cases hf'
      | missing _ hf' => rw [hf] at hf'; cases hf'
      | directory _ _ _ _ hf' => rw [hf] at hf'; cases hf'
  | false =>
    rw [if_neg (by simp), map_error_iff]
    unfold parseSectionGroup
    rw [fileName_some.2 hn]
    show (orErr .io (env.fs.readDir p) >>= _) = _ ↔ _
    constructor
    · intro h
      cases hl : env.fs.readDir p with
      | none =>
        rw [hl] at h
        cases h
        exact .unlistable hf hl
      | some names =>
        rw [hl] at h
        change (findToc p names >>= _) = _ at h
        rcases listing_cases names with ⟨before, t, after, rfl, hb, hname⟩ | ⟨before, after, rfl, hb⟩ | hb
        · rw [findToc_first hb hname] at h
          change (notebook (p ++ [.normal t]) >>= _) = _ at h
          cases hnb : notebook (p ++ [.normal t]) with
          | ok nb => rw [hnb] at h; cases h
          | error e' =>
            rw [hnb] at h
            cases h
            exact .directory e t before after hf hl hb hname hnb
        · rw [findToc_unreadable hb] at h
          cases h
          exact .unreadable before after hf hl hb
        · rw [findToc_missing hb] at h
          cases h
          exact .missing names hf hl hb
    · intro h
      cases h with
      | file _ hf' => rw [hf] at hf'; cases hf'
      | unlistable _ hl => rw [hl]; rfl
      | unreadable before after _ hl hb =>
        rw [hl]
        show (findToc p _ >>= _) = _
        rw [findToc_unreadable hb]
        rfl
      | missing names _ hl hb =>
        rw [hl]
        show (findToc p _ >>= _) = _
        rw [findToc_missing hb]
        rfl
      | directory _ toc before after _ hl hb ht hnb =>
        rw [hl]
        show (findToc p _ >>= _) = _
        rw [findToc_first hb ht]
        show (notebook (p ++ [.normal toc]) >>= _) = _
        rw [hnb]
        rfl

theorem endsWith_single (p : Path) (c : Component) :
    Path.endsWith p [c] = decide (p.getLast? = some c) := by
  unfold Path.endsWith
  rw [Bool.eq_iff_iff, List.isSuffixOf_iff_suffix, decide_eq_true_iff, List.getLast?_eq_some_iff]
  constructor
  · rintro ⟨t, rfl⟩; exact ⟨t, rfl⟩
  · rintro ⟨t, rfl⟩; exact ⟨t, rfl⟩

theorem kept_eq (env : Env) (paths : List Path) :
    paths.filter (keepEntry env) = Kept env.fs paths := by
  unfold Kept
  refine List.filter_congr fun p _ => ?_
  unfold keepEntry
  rw [endsWith_single]
  simp only [ne_eq, decide_not]
  rfl

end OneNote
