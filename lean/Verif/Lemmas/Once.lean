/-
Sections that are shown once.
-/
import Verif.Spec.Once
import Verif.Lemmas.Located
import Verif.Lemmas.Path
import Verif.Lemmas.MapM

namespace OneNote.Once

open Spec

mutual

/-- The files of the sections of an entry. -/
def filesIn : Located → List Path
  | .file p _ => [p]
  | .directory _ _ es => filesOf es

def filesOf : List Located → List Path
  | [] => []
  | e :: es => filesIn e ++ filesOf es

end

mutual

theorem sections_in (e : Located) : sectionsIn e.entry = (filesIn e).length := by
  match e with
  | .file p s => rw [Located.entry, sectionsIn, filesIn]; rfl
  | .directory p n es => rw [Located.entry, sectionsIn, filesIn, sections_of es]

theorem sections_of (es : List Located) : sectionsOf (Located.entries es) = (filesOf es).length := by
  match es with
  | [] => rfl
  | e :: es =>
    rw [Located.entries, sectionsOf, filesOf, List.length_append, sections_in e, sections_of es]

end

theorem resolve_plain {fs : FileSystem} {sanitise : Text → Text} {base : Path} {name : Text}
    {p : Path} (hn : FileName name) (h : resolveEntryPath fs sanitise base name = .ok p) :
    p = base ++ [.normal name] := by
  obtain ⟨h1, h2, h3, h4⟩ := hn
  have ha : isAbsolute name = false := by
    cases name with
    | nil => rfl
    | cons c name =>
      rw [List.mem_cons, not_or] at h2
      have := Ne.symm h2.1
      simpa [isAbsolute] using this
  have hc : componentsOf name = [.normal name] := by
    unfold componentsOf
    simp only
    rw [splitSlash_piece name h2, ha, if_neg (by simp), if_neg (by simpa using h3)]
    simp [pieceOf, h1, h3, h4]
  unfold resolveEntryPath at h
  rw [ha, if_neg (by simp), hc] at h
  by_cases hs : sanitise name = name
  · have hm : List.mapM (resolveComponent sanitise) [.normal name] = .ok [some (.normal name)] := by
      rw [List.mapM_cons, List.mapM_nil, resolveComponent, if_neg (by simpa using hs)]
      rfl
    rw [hm] at h
    change (checkInside fs base (base.join [.normal name]) >>= fun _ => pure (base.join [.normal name])) =
      Except.ok p at h
    obtain ⟨_, -, h⟩ := Res.bind_ok h
    cases h
    rfl
  · have hm : List.mapM (resolveComponent sanitise) [.normal name] = .error .invalidPath := by
      rw [List.mapM_cons, resolveComponent, if_pos (by simpa using hs)]
      rfl
    rw [hm] at h
    cases h

/-- The paths of the entries of a directory that is listed once. -/
def Siblings (base : Path) (ps : List Path) : Prop :=
  ∃ names : List Text, names.Nodup ∧ (∀ n ∈ names, FileName n) ∧
    ps = names.map fun n => base ++ [.normal n]

theorem siblings_kept {fs : FileSystem} {base : Path} {ps : List Path} (h : Siblings base ps) :
    Siblings base (Kept fs ps) := by
  obtain ⟨names, h1, h2, rfl⟩ := h
  unfold Kept
  rw [List.filter_map]
  exact ⟨_, h1.sublist List.filter_sublist, fun n hn => h2 n (List.mem_filter.1 hn).1, rfl⟩

theorem siblings_of {env : Env} (hl : ListsOnce env) {path base : Path} {names : List Text}
    {color : Option Color} {paths : List Path} (hc : Contents env path base names color)
    (hp : Each (fun name p => resolveEntryPath env.fs env.sanitise base name = .ok p) names paths) :
    Siblings base paths := by
  obtain ⟨h1, h2⟩ := hl _ _ _ _ hc
  refine ⟨names, h1, h2, ?_⟩
  clear h1 hc
  induction hp with
  | nil => rfl
  | cons hx _ ih =>
    rw [List.map_cons, ← resolve_plain (h2 _ List.mem_cons_self) hx,
      ← ih fun n hn => h2 n (.tail _ hn)]

/-- What is known of the files of some entries of a directory. -/
def Apart (env : Env) (base : Path) (files : List Path) : Prop :=
  files.Nodup ∧ ∀ q ∈ files, Below base q ∧ ∃ s, parseSectionFile env q = .ok s

theorem parent_dir {dir base : Path} {toc : Text} (h : Path.parent (dir ++ [.normal toc]) = some base) :
    base = dir := by
  unfold Path.parent at h
  rw [List.getLast?_concat, List.dropLast_concat] at h
  cases h
  rfl

mutual

theorem opens_apart {env : Env} (hl : ListsOnce env) {path base : Path} {es : List Located}
    {color : Option Color} (hb : Path.parent path = some base) (h : Opens env path es color) :
    Apart env base (filesOf es) := by
  match h with
  | .mk hc hp he =>
    have hx := hc.parent
    rw [hb] at hx
    cases hx
    obtain ⟨h1, h2⟩ := all_apart hl (siblings_kept (siblings_of hl hc hp)) he
    exact ⟨h1, fun q hq => (h2 q hq).2⟩

theorem entry_apart {env : Env} (hl : ListsOnce env) {base : Path} {n : Text} (hn : FileName n)
    {e : Located} (h : OpensEntry env (base ++ [.normal n]) e) :
    (filesIn e).Nodup ∧ ∀ q ∈ filesIn e, (∃ rest, q = base ++ .normal n :: rest) ∧ Below base q ∧
      ∃ s, parseSectionFile env q = .ok s := by
  have hd : Below base (base ++ [.normal n]) := ⟨[n], by simp, by simpa using hn, rfl⟩
  match h with
  | .file h1 h2 =>
    rw [filesIn]
    refine ⟨by simp, fun q hq => ?_⟩
    rw [List.mem_singleton.1 hq]
    exact ⟨⟨[], rfl⟩, hd, _, h2⟩
  | .directory h1 h2 h3 h4 h5 ho =>
    rw [filesIn]
    obtain ⟨k1, k2⟩ := opens_apart hl (base := base ++ [.normal n]) (by
      unfold Path.parent
      rw [List.getLast?_concat, List.dropLast_concat]) ho
    refine ⟨k1, fun q hq => ?_⟩
    obtain ⟨g1, g2⟩ := k2 q hq
    refine ⟨?_, below_trans hd g1, g2⟩
    obtain ⟨names, -, -, e⟩ := g1
    exact ⟨names.map .normal, by rw [e, List.append_assoc]; rfl⟩

theorem all_apart {env : Env} (hl : ListsOnce env) {base : Path} {ps : List Path}
    (hs : Siblings base ps) {es : List Located} (h : Each (OpensEntry env) ps es) :
    (filesOf es).Nodup ∧ ∀ q ∈ filesOf es, (∃ p ∈ ps, ∃ rest, q = p ++ rest) ∧ Below base q ∧
      ∃ s, parseSectionFile env q = .ok s := by
  match h with
  | .nil => exact ⟨by simp [filesOf], fun q hq => by simp [filesOf] at hq⟩
  | .cons he hes =>
    obtain ⟨names, h1, h2, h3⟩ := hs
    cases names with
    | nil => cases h3
    | cons n names =>
      cases h3
      obtain ⟨a1, a2⟩ := entry_apart hl (h2 n List.mem_cons_self) he
      obtain ⟨b1, b2⟩ := all_apart hl (base := base)
        ⟨names, (List.nodup_cons.1 h1).2, fun m hm => h2 m (.tail _ hm), rfl⟩ hes
      rw [filesOf]
      refine ⟨List.nodup_append.2 ⟨a1, b1, fun q hq q' hq' e => ?_⟩, fun q hq => ?_⟩
      · subst e
        obtain ⟨⟨r, e⟩, -⟩ := a2 q hq
        obtain ⟨⟨p, hp, r', e'⟩, -⟩ := b2 q hq'
        obtain ⟨m, hm, rfl⟩ := List.mem_map.1 hp
        rw [e, List.append_assoc] at e'
        have e' := List.append_cancel_left e'
        cases e'
        exact (List.nodup_cons.1 h1).1 hm
      · rcases List.mem_append.1 hq with hq | hq
        · obtain ⟨⟨r, e⟩, g⟩ := a2 q hq
          exact ⟨⟨_, List.mem_cons_self, r, by rw [e, List.append_assoc]; rfl⟩, g⟩
        · obtain ⟨⟨p, hp, r⟩, g⟩ := b2 q hq
          exact ⟨⟨p, .tail _ hp, r⟩, g⟩

end

theorem nodup_length {l l' : List Path} (h : l.Nodup) (hs : ∀ x ∈ l, x ∈ l') :
    l.length ≤ l'.length := by
  induction l generalizing l' with
  | nil => exact Nat.zero_le _
  | cons a l ih =>
    have hn := List.nodup_cons.1 h
    have ha := hs a (List.mem_cons_self ..)
    have := ih hn.2 (l' := l'.erase a) fun x hx =>
      (List.mem_erase_of_ne (fun e : x = a => hn.1 (e ▸ hx))).2 (hs x (List.mem_cons_of_mem _ hx))
    rw [List.length_erase_of_mem ha] at this
    have := List.length_pos_of_mem ha
    rw [List.length_cons]
    omega

/-- Different files are at different places. -/
theorem places_length {env : Env} {base : Path} {files places : List Path} (h : Apart env base files)
    (hn : NoLinks env.fs base) (hf : FilesAt env.fs base places) : files.length ≤ places.length := by
  obtain ⟨h1, h2⟩ := h
  have hc : ∀ q ∈ files, ∃ r ∈ places, env.fs.canonicalize q = some r := by
    intro q hq
    obtain ⟨g1, s, g2⟩ := h2 q hq
    unfold parseSectionFile at g2
    obtain ⟨data, g3, -⟩ := Res.bind_ok g2
    exact hf q data g1 (orErr_some g3)
  have key : ((files.map fun q => (env.fs.canonicalize q).getD [])).Nodup := by
    refine List.pairwise_map.2 (List.Pairwise.imp_of_mem (fun {a b} ha hb hab e => hab ?_) h1)
    obtain ⟨r, -, e1⟩ := hc a ha
    obtain ⟨r', -, e2⟩ := hc b hb
    rw [e1, e2] at e
    cases e
    exact hn a b _ (h2 a ha).1 (h2 b hb).1 e1 e2
  have := nodup_length key (l' := places) fun x hx => by
    obtain ⟨q, hq, rfl⟩ := List.mem_map.1 hx
    obtain ⟨r, hr, e⟩ := hc q hq
    rw [e]
    exact hr
  rwa [List.length_map] at this

end OneNote.Once
