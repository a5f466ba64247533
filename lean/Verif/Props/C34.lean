/-
C34: No section is listed twice. FALSE of the code: only a name that directly follows the same name
is dropped.
-/
import Verif.Lemmas.Toc
import Verif.Spec.SampleFile
import Verif.Spec.SampleToc
import Verif.Model.Notebook

namespace OneNote

open Spec Spec.Toc

/-- What holds: no name directly follows itself. -/
theorem C34_adjacent_partial (fuel : Nat) (space : ObjectSpace) (names before after : List Text)
    (color : Option Color) (a b : Text) (h : parseToc fuel space = .ok (names, color))
    (hs : names = before ++ a :: b :: after) : a ≠ b := by
  unfold parseToc at h
  obtain ⟨root, _, h⟩ := Res.bind_ok h
  obtain ⟨e, _, h⟩ := Res.bind_ok h
  cases h
  have hn := tocNames_spec e.entries
  generalize tocNames e.entries = names at hn hs
  generalize (sortByKey e.entries).map Prod.snd = l at hn
  induction hn generalizing before with
  | none => simp at hs
  | one x =>
    have := congrArg List.length hs
    simp at this
    omega
  | again _ ih => exact ih _ hs
  | other hne h ih =>
    cases before with
    | cons y ys => exact ih ys (List.cons.inj hs).2
    | nil =>
      obtain ⟨rest, hr⟩ := WithoutRepeats.head h
      rw [hr] at hs
      have h1 := (List.cons.inj hs).1
      have h2 := (List.cons.inj (List.cons.inj hs).2).1
      rw [← h1, ← h2]
      exact hne

/-- What holds: when the entries with the same name have the same ordering id, and no other name has
that ordering id, every name is listed once. -/
theorem C34_own_ids_partial (fuel : Nat) (space : ObjectSpace) (names : List Text)
    (color : Option Color) (h : parseToc fuel space = .ok (names, color)) :
    ∃ root entries, space.roots.get? .defaultContent = some root ∧ TocTree space root entries ∧
      ((∀ x ∈ entries, ∀ y ∈ entries, x.2 = y.2 ↔ x.1 = y.1) → names.Nodup) := by
  unfold parseToc at h
  obtain ⟨root, hr, h⟩ := Res.bind_ok h
  obtain ⟨e, he, h⟩ := Res.bind_ok h
  cases h
  have hr : space.roots.get? .defaultContent = some root := by
    unfold orErr at hr
    split at hr
    · cases hr; assumption
    · cases hr
  refine ⟨root, e.entries, hr, parseTocEntry_tree space fuel root e he, fun hu => ?_⟩
  have hn := tocNames_spec e.entries
  have hp := sortByKey_perm e.entries
  have hsort := sortByKey_sorted e.entries
  have hu : ∀ x ∈ sortByKey e.entries, ∀ y ∈ sortByKey e.entries, x.2 = y.2 ↔ x.1 = y.1 :=
    fun x hx y hy => hu x (hp.mem_iff.1 hx) y (hp.mem_iff.1 hy)
  generalize tocNames e.entries = names at hn
  generalize sortByKey e.entries = l at hn hsort hu
  generalize hl : l.map Prod.snd = m at hn
  induction hn generalizing l with
  | none => exact .nil
  | one x => simp
  | again _ ih =>
    match l, hl with
    | x :: y :: l, hl =>
      simp only [List.map_cons, List.cons.injEq] at hl
      refine ih (y :: l) (List.pairwise_cons.1 hsort).2 (fun a ha b hb =>
        hu a (List.mem_cons_of_mem _ ha) b (List.mem_cons_of_mem _ hb)) ?_
      simp [hl]
  | @other a b m out hne h ih =>
    match l, hl with
    | x :: y :: l, hl =>
      simp only [List.map_cons, List.cons.injEq] at hl
      obtain ⟨rfl, rfl, rfl⟩ := hl
      rw [List.pairwise_cons] at hsort
      refine List.nodup_cons.2 ⟨fun hm => ?_, ih (y :: l) hsort.2 (fun a ha b hb =>
        hu a (List.mem_cons_of_mem _ ha) b (List.mem_cons_of_mem _ hb)) rfl⟩
      have hm : x.2 ∈ (y :: l).map Prod.snd := (WithoutRepeats.mem h x.2).1 hm
      obtain ⟨z, hz, hzx⟩ := List.mem_map.1 hm
      have hxy : x.1 ≤ y.1 := hsort.1 y (List.mem_cons_self ..)
      have hyz : y.1 ≤ z.1 := by
        rcases List.mem_cons.1 hz with rfl | hz
        · exact Nat.le_refl _
        · exact (List.pairwise_cons.1 hsort.2).1 z hz
      have hzx : z.1 = x.1 :=
        (hu z (List.mem_cons_of_mem _ hz) x (List.mem_cons_self ..)).1 hzx
      exact hne ((hu x (List.mem_cons_self ..) y
        (List.mem_cons_of_mem _ (List.mem_cons_self ..))).2 (by omega))

/-- The name `a` with the ordering ids 1 and 3, and `b` between them. -/
private def sample : ObjectSpace := sampleToc (1, ['a']) [(2, ['b']), (3, ['a'])]

private theorem sample_names : parseToc 3 sample = .ok ([['a'], ['b'], ['a']], none) := by
  decide +kernel

/-- The property itself is false: a name can be listed twice. -/
theorem C34_refuted :
    ¬ ∀ (fuel : Nat) (space : ObjectSpace) (names : List Text) (color : Option Color),
      parseToc fuel space = .ok (names, color) → names.Nodup := by
  intro h
  exact absurd (h 3 sample _ _ sample_names) (by decide)

/-- The same as bytes: a table-of-contents file whose list has a name twice. -/
theorem C34_file_refuted :
    ¬ ∀ (fuel : Nat) (ord : Order) (data : Bytes) (store : Store) (names : List Text)
      (color : Option Color), readStore ord data = .ok store → store.schema = tocGuid →
      parseToc fuel store.dataRoot = .ok (names, color) → names.Nodup := by
  intro h
  have key : (readStore Order.id (tocFile [(1, ['a']), (2, ['b']), (3, ['a'])])).toOption.map
      (fun store => (store.schema, (parseToc 2 store.dataRoot).toOption)) =
      some (tocGuid, some ([['a'], ['b'], ['a']], none)) := by
    decide +kernel
  cases hr : readStore Order.id (tocFile [(1, ['a']), (2, ['b']), (3, ['a'])]) with
  | error e => rw [hr] at key; cases key
  | ok store =>
    rw [hr] at key
    have key : (store.schema, (parseToc 2 store.dataRoot).toOption) = _ := Option.some.inj key
    cases hp : parseToc 2 store.dataRoot with
    | error e => rw [hp] at key; exact absurd (Prod.ext_iff.1 key).2 (by intro h; cases h)
    | ok r =>
      rw [hp] at key
      have h1 : store.schema = tocGuid := (Prod.ext_iff.1 key).1
      have h2 : r = ([['a'], ['b'], ['a']], none) := Option.some.inj (Prod.ext_iff.1 key).2
      subst h2
      exact absurd (h 2 _ _ store _ _ hr h1 hp) (by decide)

/-- It is false even when all entries have the same ordering id. -/
theorem C34_same_id_refuted :
    ¬ ∀ (fuel : Nat) (space : ObjectSpace) (names : List Text) (color : Option Color),
      (∀ root entries, space.roots.get? .defaultContent = some root → TocTree space root entries →
        ∀ x ∈ entries, x.1 = 5) →
      parseToc fuel space = .ok (names, color) → names.Nodup := by
  intro h
  have hp : (parseTocEntry (sampleToc (5, ['a']) [(5, ['b']), (5, ['a'])]) 3 (sampleId 1)) =
      .ok ⟨[(5, ['a']), (5, ['b']), (5, ['a'])], none⟩ := by decide +kernel
  refine absurd (h 3 (sampleToc (5, ['a']) [(5, ['b']), (5, ['a'])]) [['a'], ['b'], ['a']] none
    ?_ (by decide +kernel)) (by decide)
  intro root entries hr ht
  cases hr
  obtain ⟨n, color, hc⟩ := parseTocEntry_complete _ ht
  have h1 := hc (n + 3) (by omega)
  obtain ⟨n', color', hc'⟩ := parseTocEntry_complete _ (parseTocEntry_tree _ _ _ _ hp)
  have h2 := hc' (n + 3 + n') (by omega)
  rw [hc (n + 3 + n') (by omega)] at h2
  cases h2
  decide

/-- A table of contents that meets the condition of the partial theorem, with a repeated entry. -/
example : parseToc 3 (sampleToc (4, ['a']) [(2, ['b']), (4, ['a'])]) =
    .ok ([['b'], ['a']], none) := by decide +kernel

#print axioms C34_adjacent_partial
#print axioms C34_own_ids_partial
#print axioms C34_refuted
#print axioms C34_file_refuted
#print axioms C34_same_id_refuted

/-! ### A whole notebook -/

/-- A directory with the section files `a` and `b` and a table of contents with the names `a`, `b`, `a`. -/
private def repeated : Env :=
  let file (name : Text) : Path := [.normal ['d'], .normal name]
  { fs := { pathExists := fun p => p == file ['a'] || p == file ['b']
            isFile := fun p => p == file ['a'] || p == file ['b']
            canonicalize := some, readDir := fun _ => none
            read := fun p =>
              if p = file ['t'] then some (tocFile [(1, ['a']), (2, ['b']), (3, ['a'])])
              else if p = file ['a'] ∨ p = file ['b'] then some (emptySectionFile none) else none }
    sanitise := id, ord := Order.id, fuel := 3 }

/-- **Refuted for a notebook**: it shows the section `a` twice. -/
theorem C34_notebook_refuted :
    (parseNotebook repeated 3 [.normal ['d'], .normal ['t']]).toOption.map
      (fun nb => nb.entries.map fun
        | .section s => some s.displayName
        | .sectionGroup _ => none) = some [some ['a'], some ['b'], some ['a']] := by
  decide +kernel

end OneNote
#print axioms OneNote.C34_notebook_refuted
