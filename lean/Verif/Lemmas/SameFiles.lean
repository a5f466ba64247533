/-
Two disks whose files are read in the same way show the same notebooks.
-/
import Verif.Lemmas.SameSpace
import Verif.Model.Notebook
import Verif.Lemmas.Basic
import Verif.Lemmas.MapM
import Verif.Lemmas.Good

namespace OneNote

open Spec Spec.StoreContents

/-- The result is this one, or an error of some kind. -/
def OkOr (bad : Err → Prop) {α : Type} (a : α) (r : Res α) : Prop :=
  r = .ok a ∨ ∃ e, bad e ∧ r = .error e

/-- What is read from the one file is read from the other, or an error is reported. -/
def ReadsAs (bad : Err → Prop) (ord ord' : Order) (d d' : Bytes) : Prop :=
  ∀ s, readStore ord d = .ok s →
    (∃ s', readStore ord' d' = .ok s' ∧ SameContents s s') ∨ ∃ e, bad e ∧ readStore ord' d' = .error e

/-- Everything that is read with the one parser is read with the other, or an error is reported. -/
structure Covers (bad : Err → Prop) (env env' : Env) : Prop where
  pathExists : env.fs.pathExists = env'.fs.pathExists
  isFile : env.fs.isFile = env'.fs.isFile
  canonicalize : env.fs.canonicalize = env'.fs.canonicalize
  readDir : env.fs.readDir = env'.fs.readDir
  sanitise : env.sanitise = env'.sanitise
  fuel : env.fuel = env'.fuel
  read : ∀ p d, env.fs.read p = some d → ∃ d', env'.fs.read p = some d' ∧
    ReadsAs bad env.ord env'.ord d d'

variable {bad : Err → Prop}

theorem OkOr.bind {α β : Type} {a : α} {b : β} {r : Res α} {k : α → Res β} (h : OkOr bad a r)
    (hk : OkOr bad b (k a)) : OkOr bad b (r >>= k) := by
  rcases h with rfl | ⟨e, he, rfl⟩
  · exact hk
  · exact .inr ⟨e, he, rfl⟩

theorem OkOr.of {α : Type} {a : α} {r : Res α} (h : r = .ok a) : OkOr bad a r := .inl h

theorem OkOr.mapM {α β : Type} {f g : α → Res β} (h : ∀ x y, f x = .ok y → OkOr bad y (g x))
    {xs : List α} {ys : List β} (hs : Each (fun x y => f x = .ok y) xs ys) :
    OkOr bad ys (xs.mapM g) := by
  induction hs with
  | nil => exact .of rfl
  | cons hr _ ih =>
    rw [List.mapM_cons]
    exact (h _ _ hr).bind (ih.bind (.of rfl))

theorem buffer_readsAs {ord ord' : Order} {d d' : Bytes} (h : ReadsAs bad ord ord' d d') {fuel : Nat}
    {name : Text} {s : Section} (hs : parseSectionBuffer fuel ord d name = .ok s) :
    OkOr bad s (parseSectionBuffer fuel ord' d' name) := by
  unfold parseSectionBuffer at hs ⊢
  obtain ⟨st, h1, h2⟩ := Res.bind_ok hs
  rcases h _ h1 with ⟨st', h3, h4⟩ | ⟨e, he, h3⟩
  · rw [h3]
    rw [h4.schema, section_same h4] at h2
    exact .of h2
  · rw [h3]
    exact .inr ⟨e, he, rfl⟩

theorem sectionFile_covers {env env' : Env} (h : Covers bad env env') {p : Path} {s : Section}
    (hs : parseSectionFile env p = .ok s) : OkOr bad s (parseSectionFile env' p) := by
  unfold parseSectionFile at hs ⊢
  obtain ⟨d, h1, hs⟩ := Res.bind_ok hs
  obtain ⟨st, h2, hs⟩ := Res.bind_ok hs
  obtain ⟨d', h3, h4⟩ := h.read p d (orErr_some h1)
  rw [h3]
  refine (OkOr.of (a := d') rfl).bind ?_
  rcases h4 _ h2 with ⟨st', h5, h6⟩ | ⟨e, he, h5⟩
  · rw [h5]
    rw [h6.schema] at hs
    refine (OkOr.of (a := st') rfl).bind ?_
    split at hs
    · cases hs
    · next hn =>
      rw [if_neg hn]
      obtain ⟨name, h7, hs⟩ := Res.bind_ok hs
      rw [section_same h6, h.fuel] at hs
      exact (OkOr.of h7).bind (.of hs)
  · rw [h5]
    exact .inr ⟨e, he, rfl⟩

theorem notebook_covers {env env' : Env} (h : Covers bad env env') (n : Nat) {p : Path} {nb : Notebook}
    (hs : parseNotebook env n p = .ok nb) : OkOr bad nb (parseNotebook env' n p) := by
  induction n generalizing p nb with
  | zero => cases hs
  | succ n ih =>
    unfold parseNotebook at hs ⊢
    obtain ⟨d, h1, hs⟩ := Res.bind_ok hs
    obtain ⟨st, h2, hs⟩ := Res.bind_ok hs
    obtain ⟨d', h3, h4⟩ := h.read p d (orErr_some h1)
    rw [h3]
    refine (OkOr.of (a := d') rfl).bind ?_
    rcases h4 _ h2 with ⟨st', h5, h6⟩ | ⟨e, he, h5⟩
    · rw [h5]
      rw [h6.schema] at hs
      refine (OkOr.of (a := st') rfl).bind ?_
      split at hs
      · cases hs
      · next hn =>
        rw [if_neg hn]
        obtain ⟨dir, h7, hs⟩ := Res.bind_ok hs
        refine (OkOr.of h7).bind ?_
        rw [← toc_same h6.dataRoot, ← h.fuel]
        obtain ⟨⟨names, color⟩, h8, hs⟩ := Res.bind_ok hs
        refine (OkOr.of h8).bind ?_
        have e1 : resolveEntryPath env'.fs env'.sanitise dir =
            resolveEntryPath env.fs env.sanitise dir := by
          funext entry
          unfold resolveEntryPath checkInside
          rw [h.pathExists, h.canonicalize, h.sanitise]
        have e2 : keepEntry env' = keepEntry env := by
          funext q
          unfold keepEntry
          rw [h.pathExists]
        rw [e1, e2]
        obtain ⟨paths, h9, hs⟩ := Res.bind_ok hs
        refine (OkOr.of h9).bind ?_
        obtain ⟨entries, h10, hs⟩ := Res.bind_ok hs
        refine OkOr.bind (a := entries) ?_ (.of hs)
        refine OkOr.mapM ?_ (mapM_each.1 h10)
        intro q e he
        unfold parseEntry at he ⊢
        rw [← h.isFile]
        split at he
        · next hf =>
          rw [if_pos hf]
          obtain ⟨s, hs1, rfl⟩ := map_ok he
          exact (sectionFile_covers h hs1).bind (k := fun s => .ok (SectionEntry.section s)) (.of rfl)
        · next hf =>
          rw [if_neg hf]
          obtain ⟨g, hs1, rfl⟩ := map_ok he
          refine OkOr.bind (a := g) (k := fun g => .ok (SectionEntry.sectionGroup g)) ?_ (.of rfl)
          unfold parseSectionGroup at hs1 ⊢
          obtain ⟨dn, k1, k⟩ := Res.bind_ok hs1
          obtain ⟨ns, k2, k⟩ := Res.bind_ok k
          obtain ⟨toc, k3, k⟩ := Res.bind_ok k
          obtain ⟨nb', k4, k⟩ := Res.bind_ok k
          rw [h.readDir] at k2
          exact (OkOr.of k1).bind ((OkOr.of k2).bind ((OkOr.of k3).bind ((ih k4).bind (.of k))))
    · rw [h5]
      exact .inr ⟨e, he, rfl⟩

/-! ### Cut and lengthened files -/

theorem same_refl (s : Store) : SameContents s s :=
  ⟨rfl, rfl, ⟨rfl, rfl, fun _ => rfl, fun _ => rfl⟩, fun c => by
    cases s.objectSpaces.get? c with
    | none => exact trivial
    | some x => exact ⟨rfl, rfl, fun _ => rfl, fun _ => rfl⟩⟩

/-- What the store of a file is read from. -/
theorem store_consumes {ord : Order} {data : Bytes} {s : Store} (h : readStore ord data = .ok s) :
    ∃ c rest, data = c ++ rest ∧ (∀ more, readStore ord (c ++ more) = .ok s) ∧
      ∀ q u, c = q ++ u → u ≠ [] → ∀ ord', readStore ord' q = .error .eof := by
  unfold readStore at h ⊢
  obtain ⟨p, hp, hs⟩ := Res.bind_ok h
  unfold P.run at hp
  cases hq : Packaging.parse data with
  | error e => rw [hq] at hp; cases hp
  | ok v =>
    rw [hq] at hp
    obtain ⟨c, hc, h1, h2⟩ := Good.packaging.pre _ _ _ hq
    refine ⟨c, v.2, hc, fun more => ?_, fun q u hqu hu ord' => ?_⟩
    · have : Packaging.parse.run (c ++ more) = .ok p := by
        unfold P.run
        rw [h1 more]
        exact hp
      rw [this]
      exact hs
    · have : Packaging.parse.run q = .error .eof := by
        unfold P.run
        rw [h2 q u hqu hu]
      rw [this]
      rfl

/-- A file with more bytes is read alike. -/
theorem readsAs_more (bad : Err → Prop) (ord : Order) (d more : Bytes) :
    ReadsAs bad ord ord d (d ++ more) := by
  intro s h
  obtain ⟨c, rest, rfl, h1, -⟩ := store_consumes h
  rw [List.append_assoc]
  exact .inl ⟨s, h1 _, same_refl s⟩

/-- A file that is cut off is read alike, or its end is missed. -/
theorem readsAs_cut (ord : Order) (d : Bytes) (n : Nat) :
    ReadsAs (· = .eof) ord ord d (d.take n) := by
  intro s h
  obtain ⟨c, rest, rfl, h1, h2⟩ := store_consumes h
  by_cases hn : c.length ≤ n
  · rw [List.take_append, List.take_of_length_le hn]
    exact .inl ⟨s, h1 _, same_refl s⟩
  · refine .inr ⟨_, rfl, ?_⟩
    rw [List.take_append, Nat.sub_eq_zero_of_le (by omega), List.take_zero, List.append_nil]
    refine h2 _ (c.drop n) (List.take_append_drop n c).symm (fun h => hn ?_) _
    exact List.drop_eq_nil_iff.1 h

end OneNote
