/-
C82: A notebook shows nothing from outside its directory, also if the disk changes while it is read. FALSE
of the code: where an entry leads to is checked before it is opened.
-/
import Verif.Lemmas.Timed
import Verif.Lemmas.Terminates
import Verif.Spec.SampleFile

namespace OneNote

open Spec

/-- **What holds**: as long as no path appears, vanishes or comes to lead elsewhere, a notebook depends on
nothing outside its directory except what the `onetoc2` files in the directories of its section groups
lead to (as in C32), whatever else other programs do with the disk in the meantime. -/
theorem C82_partial (e e' : Timed)
    (he : e.sanitise = e'.sanitise ∧ e.ord = e'.ord ∧ e.fuel = e'.fuel) (base path : Path) (n t : Nat)
    (hp : Path.parent path = some base) (hw : Steady e.world)
    (hr : ∀ t, (e.world t).read path = (e'.world t).read path)
    (hs : ∀ t, SameInside base (e.world t) (e'.world t))
    (ht : ∀ t, SameTocs base (e.world t) (e'.world t)) :
    e.parseNotebook n path t = e'.parseNotebook n path t :=
  Timed.notebook_congr he hw hs ht n path base hp (.inl rfl) hr t

/-! ### An entry that is replaced by a symbolic link after the check -/

private def nb : Path := [.rootDir, .normal ['n', 'b']]

private def tocPath : Path := [.rootDir, .normal ['n', 'b'], .normal ['t']]

private def place : Path := nb ++ [.normal ['r']]

/-- The notebook with the section `r`; `link` says if `r` is a symbolic link to the file `/x`, which holds
`secret`. Files are read where their path leads. -/
private def disk (link : Bool) (secret : Bytes) : FileSystem where
  pathExists _ := true
  isFile _ := true
  canonicalize p := if p = place ∧ link then some [.rootDir, .normal ['x']] else some p
  readDir _ := some []
  read p :=
    if p = tocPath then some (tocFile [(1, ['r'])])
    else if p = [.rootDir, .normal ['x']] ∨ (p = place ∧ link) then some secret
    else some (emptySectionFile (some ['1']))

/-- The link is made between the operations 3 and 4. -/
private def replaced (secret : Bytes) : Timed where
  world t := disk (decide (4 ≤ t)) secret
  sanitise := id
  ord := Order.id
  fuel := 3

private def names (n : Notebook) : List Text :=
  n.entries.map fun
    | .section s => s.displayName
    | .sectionGroup g => g.displayName

private def first : Bytes := emptySectionFile (some ['a'])
private def second : Bytes := emptySectionFile (some ['b'])

private theorem shown (secret : Bytes) (name : Text)
    (h : ((replaced secret).parseNotebook 1 tocPath 0).toOption.map
      (fun x => names x.1) = some [name]) :
    ∃ n t', (replaced secret).parseNotebook 1 tocPath 0 = .ok (n, t') ∧
      names n = [name] := by
  obtain ⟨⟨n, t'⟩, h1, h2⟩ := Option.map_eq_some_iff.1 h
  exact ⟨n, t', toOption_some h1, h2⟩

private theorem same (link : Bool) (a b : Bytes) : SameInside nb (disk link a) (disk link b) where
  pathExists _ _ := rfl
  isFile _ _ _ := rfl
  canonicalize _ _ := rfl
  readDir _ _ _ := rfl
  read p hb hi := by
    have hx : ¬ (p = [.rootDir, .normal ['x']] ∨ (p = place ∧ link)) := by
      rintro (rfl | ⟨rfl, hl⟩)
      · obtain ⟨names, hne, -, e⟩ := hb
        cases names with
        | nil => exact hne rfl
        | cons n names => cases e
      · obtain ⟨b, c, rest, h1, h2, h3⟩ := hi
        have h1 : some nb = some b := h1
        have h2 : (if place = place ∧ link = true then some [.rootDir, .normal ['x']] else some place) =
          some c := h2
        rw [if_pos ⟨rfl, hl⟩] at h2
        cases h1
        cases h2
        cases h3
    unfold disk
    dsimp only
    rw [if_neg hx, if_neg hx]

private theorem sameTocs (link : Bool) (a b : Bytes) : SameTocs nb (disk link a) (disk link b) := by
  rintro p ⟨dir, stem, hs, rfl, hb, hi⟩
  have hx : ¬ (dir ++ [Component.normal (stem ++ ".onetoc2".toList)] = [.rootDir, .normal ['x']] ∨
      (dir ++ [Component.normal (stem ++ ".onetoc2".toList)] = place ∧ link)) := by
    rintro (h | ⟨h, -⟩)
    · have := congrArg List.getLast? h
      rw [List.getLast?_concat] at this
      have := congrArg (fun x => x.map fun c => match c with | .normal n => n.length | _ => 0) this
      simp at this
    · have := congrArg List.getLast? h
      rw [List.getLast?_concat] at this
      have := congrArg (fun x => x.map fun c => match c with | .normal n => n.length | _ => 0) this
      simp [place] at this
  unfold disk
  dsimp only
  rw [if_neg hx, if_neg hx]

private theorem settings (a b : Bytes) : (replaced a).sanitise = (replaced b).sanitise ∧
    (replaced a).ord = (replaced b).ord ∧ (replaced a).fuel = (replaced b).fuel := ⟨rfl, rfl, rfl⟩

private theorem replaced_same (a b : Bytes) (t : Nat) :
    SameInside nb ((replaced a).world t) ((replaced b).world t) := same _ a b

private theorem replaced_tocs (a b : Bytes) (t : Nat) :
    SameTocs nb ((replaced a).world t) ((replaced b).world t) := sameTocs _ a b

private theorem toc (link : Bool) (secret : Bytes) :
    (disk link secret).read tocPath = some (tocFile [(1, ['r'])]) := by
  unfold disk
  dsimp only
  rw [if_pos rfl]

private theorem replaced_read (a b : Bytes) (t : Nat) :
    ((replaced a).world t).read tocPath =
      ((replaced b).world t).read tocPath := (toc _ a).trans (toc _ b).symm

private theorem moments (a : Bytes)
    (h1 : (parseNotebook ⟨disk false a, id, Order.id, 3⟩ 1 tocPath).toOption.map names =
      some [['1']])
    (h2 : (parseNotebook ⟨disk true a, id, Order.id, 3⟩ 1 tocPath).toOption.map names =
      none) (τ : Nat) :
    (parseNotebook ((replaced a).moment τ) 1 tocPath).toOption.map names = some [['1']] ∨
      (parseNotebook ((replaced a).moment τ) 1 tocPath).toOption.map names = none := by
  unfold Timed.moment replaced
  dsimp only
  by_cases hτ : 4 ≤ τ
  · rw [decide_eq_true hτ]
    exact .inr h2
  · rw [decide_eq_false hτ]
    exact .inl h1

/-- **Refuted**: two disks that change in the same way and are at every moment the same inside the
directory of the notebook. The notebook that is read shows what is in the file outside, `a` on the one
disk and `b` on the other. At every single moment, what is on the disk is read without the file outside:
the section is `1`, or the entry is rejected. -/
theorem C82_refuted : ∃ (e e' : Timed) (base path : Path) (n n' : Notebook) (t t' : Nat),
    (e.sanitise = e'.sanitise ∧ e.ord = e'.ord ∧ e.fuel = e'.fuel) ∧ Path.parent path = some base ∧
    (∀ t, (e.world t).read path = (e'.world t).read path) ∧
    (∀ t, SameInside base (e.world t) (e'.world t)) ∧ (∀ t, SameTocs base (e.world t) (e'.world t)) ∧
    e.parseNotebook 1 path 0 = .ok (n, t) ∧ names n = [['a']] ∧
    e'.parseNotebook 1 path 0 = .ok (n', t') ∧ names n' = [['b']] ∧
    ∀ τ, (parseNotebook (e.moment τ) 1 path).toOption.map names = some [['1']] ∨
      (parseNotebook (e.moment τ) 1 path).toOption.map names = none := by
  obtain ⟨n, t, h1, h2⟩ := shown first ['a'] (by decide +kernel)
  obtain ⟨n', t', h3, h4⟩ := shown second ['b'] (by decide +kernel)
  have hm := moments first (by decide +kernel) (by decide +kernel)
  generalize first = a at h1 hm
  generalize second = b at h3
  exact ⟨replaced a, replaced b, nb, tocPath, n, n', t, t', settings a b, by decide,
    replaced_read a b, replaced_same a b, replaced_tocs a b, h1, h2, h3, h4, hm⟩

/-! ### A section that is saved while the notebook is read -/

/-- The section is saved between the operations 5 and 6, after the check and before it is read. -/
private def edited (secret : Bytes) : Timed where
  world t := { disk false secret with
    read := fun p => if p = place ∧ 6 ≤ t then some (emptySectionFile (some ['2']))
      else (disk false secret).read p }
  sanitise := id
  ord := Order.id
  fuel := 3

private theorem edited_same (a b : Bytes) (t : Nat) :
    SameInside nb ((edited a).world t) ((edited b).world t) where
  pathExists _ _ := rfl
  isFile _ _ _ := rfl
  canonicalize _ _ := rfl
  readDir _ _ _ := rfl
  read p hb hi := by
    unfold edited
    dsimp only
    rw [(same false a b).read p hb hi]

private theorem edited_tocs (a b : Bytes) (t : Nat) :
    SameTocs nb ((edited a).world t) ((edited b).world t) := by
  intro p hp
  unfold edited
  dsimp only
  rw [sameTocs false a b p hp]

/-- The hypotheses of `C82_partial` are met by two such disks with different files outside, and what is
shown is the section as it was saved last. -/
example : Path.parent tocPath = some nb ∧ Steady (edited first).world ∧
    (∀ t, ((edited first).world t).read tocPath =
      ((edited second).world t).read tocPath) ∧
    (∀ t, SameInside nb ((edited first).world t) ((edited second).world t)) ∧
    (∀ t, SameTocs nb ((edited first).world t) ((edited second).world t)) ∧
    ((edited first).world 0).read [.rootDir, .normal ['x']] ≠
      ((edited second).world 0).read [.rootDir, .normal ['x']] ∧
    ((edited first).parseNotebook 1 tocPath 0).toOption.map (fun x => names x.1) =
      some [['2']] := by
  refine ⟨by decide, ⟨fun _ _ => rfl, fun _ _ => rfl⟩, fun t => ?_, edited_same first second, edited_tocs first second,
    by decide +kernel, by decide +kernel⟩
  unfold edited
  dsimp only
  rw [toc, toc]

#print axioms C82_partial
#print axioms C82_refuted

end OneNote
