/-
Entries of notebooks that have been moved or renamed.
-/
import Verif.Lemmas.Moved
import Verif.Lemmas.Once
import Verif.Props.C32
import Verif.Props.C35
import Verif.Props.C72
import Verif.Spec.Rearranged

namespace OneNote.Rearranged

open Spec

variable {env env' : Env}

theorem sectionFile_eq (env : Env) (p : Path) (name : Text) :
    parseSectionFile env (p ++ [.normal name]) =
      (orErr .io (env.fs.read (p ++ [.normal name])) >>= fun data =>
        parseSectionBuffer env.fuel env.ord data name) := by
  unfold parseSectionFile parseSectionBuffer
  rw [show Path.fileName (p ++ [.normal name]) = some name from fileName_join p name]
  rfl

/-- The section of a copied file. -/
theorem section_retitled (ho : env.ord = env'.ord) (hf : env.fuel = env'.fuel) {base base' : Path}
    {x y : Text} (h : env.fs.read (base ++ [.normal x]) = env'.fs.read (base' ++ [.normal y]))
    {s : Section} (hs : parseSectionFile env (base ++ [.normal x]) = .ok s) :
    ∃ s', parseSectionFile env' (base' ++ [.normal y]) = .ok s' ∧
      Retitled y (.section s) (.section s') ∧ (x = y → s' = s) := by
  rw [sectionFile_eq] at hs ⊢
  rw [← h, ← ho, ← hf]
  obtain ⟨data, hd, hs⟩ := Res.bind_ok hs
  rw [hd]
  obtain ⟨shown, hsh, hall⟩ := C72_name _ _ _ _ _ hs
  refine ⟨_, hall y, ?_, ?_⟩
  · rcases hsh with ⟨d, hd⟩ | hst
    · have := hall x
      rw [hs] at this
      have hx : s.displayName = shown x := congrArg (fun r => match r with
        | Except.ok (t : Section) => t.displayName
        | .error _ => []) this
      rw [hd y, ← hd x, ← hx]
      exact .stored s
    · exact .file s _ (hst y)
  · rintro rfl
    exact (congrArg (fun r => match r with
        | Except.ok (t : Section) => t
        | .error _ => s) (hs.symm.trans (hall x))).symm

/-- The entry of a copied file or directory. -/
theorem entry_retitled (hsan : env.sanitise = env'.sanitise) (ho : env.ord = env'.ord)
    (hf : env.fuel = env'.fuel) {n : Nat} {base base' : Path} {x y : Text}
    (h : SameEntry env.fs env'.fs (base ++ [.normal x]) (base' ++ [.normal y])) {e : SectionEntry}
    (he : parseEntry (parseNotebook env n) env (base ++ [.normal x]) = .ok e) :
    ∃ e', parseEntry (parseNotebook env' n) env' (base' ++ [.normal y]) = .ok e' ∧
      Retitled y e e' ∧ (x = y → e' = e) := by
  rw [parseEntry_ok] at he
  cases h with
  | file h1 h2 h3 =>
    cases he with
    | file s _ hs =>
      obtain ⟨s', hs', hr, hx⟩ := section_retitled ho hf h3 hs
      exact ⟨.section s', (parseEntry_ok ..).2 (.file s' h2 hs'), hr, fun e => by rw [hx e]⟩
    | directory _ _ _ _ _ h => rw [h1] at h; cases h
  | directory k k' h1 h2 h3 hc hord =>
    cases he with
    | file s h => rw [h1] at h; cases h
    | directory name toc before after nb _ hn hl hb ht hnb =>
      rw [List.getLast?_concat] at hn
      cases hn
      refine ⟨.sectionGroup ⟨y, nb.entries⟩, (parseEntry_ok ..).2 ?_, .directory _ _, ?_⟩
      · refine .directory y toc before after nb h2 List.getLast?_concat (h3 ▸ hl) hb ht ?_
        exact (Moved.notebook_moved hsan ho hf n hc (Moved.sameTocs_of_order hord) toc).symm.trans hnb
      · rintro rfl
        rfl

/-- The paths of usable names. -/
theorem resolve_usable {base : Path} {names : List Text}
    (h : ∀ x ∈ names, Usable env.fs env.sanitise base x) :
    names.mapM (resolveEntryPath env.fs env.sanitise base) =
      .ok (names.map fun x => base ++ [.normal x]) := by
  rw [mapM_each]
  induction names with
  | nil => exact .nil
  | cons x names ih =>
    have hx := h x List.mem_cons_self
    exact .cons (C32_accepted _ _ _ _ hx.fileName hx.sanitised hx.inside)
      (ih fun y hy => h y (.tail _ hy))

theorem paths_plain {base : Path} {names : List Text} {paths : List Path}
    (hn : ∀ x ∈ names, FileName x)
    (h : Each (fun name p => resolveEntryPath env.fs env.sanitise base name = .ok p) names paths) :
    paths = names.map fun x => base ++ [.normal x] := by
  induction h with
  | nil => rfl
  | cons hx _ ih =>
    rw [List.map_cons, ← Once.resolve_plain (hn _ List.mem_cons_self) hx,
      ← ih fun n hm => hn n (.tail _ hm)]

theorem kept_names (fs : FileSystem) (base : Path) (names : List Text) :
    Kept fs (names.map fun x => base ++ [.normal x]) =
      (names.filter (Visible fs base)).map fun x => base ++ [.normal x] := by
  unfold Kept
  rw [List.filter_map]
  congr 1
  refine List.filter_congr fun x _ => ?_
  unfold Visible
  show (_ && decide ((base ++ [Component.normal x]).getLast? ≠ _)) = (_ && decide _)
  rw [List.getLast?_concat]
  congr 1
  refine decide_eq_decide.2 (not_congr ?_)
  exact ⟨fun h => Component.normal.inj (Option.some.inj h), fun h => by rw [h]⟩

theorem each_map_left {α β γ : Type} {R : β → γ → Prop} {f : α → β} {xs : List α} {ys : List γ} :
    Each R (xs.map f) ys ↔ Each (fun x y => R (f x) y) xs ys := by
  constructor
  · intro h
    induction xs generalizing ys with
    | nil => cases h; exact .nil
    | cons x xs ih =>
      cases h with
      | cons h1 h2 => exact .cons h1 (ih h2)
  · intro h
    induction h with
    | nil => exact .nil
    | cons h1 _ ih => exact .cons h1 ih

end OneNote.Rearranged
