/-
Outcomes that are neither "out of fuel" nor a panic.
-/
import Verif.Lemmas.PropSetGood
import Verif.Model.References

namespace OneNote

variable {α β σ : Type}

/-- Not `fuel` and not `panic`. -/
def Fine (r : Res α) : Prop := r ≠ .error .fuel ∧ r ≠ .error .panic

theorem Fine.ok (a : α) : Fine (.ok a : Res α) := ⟨by simp, by simp⟩

theorem Fine.error {e : Err} (h1 : e ≠ .fuel) (h2 : e ≠ .panic) : Fine (.error e : Res α) :=
  ⟨by simpa using h1, by simpa using h2⟩

theorem Fine.error_ne {r : Res α} {e : Err} (hr : Fine r) (h : r = .error e) :
    e ≠ .fuel ∧ e ≠ .panic := by
  subst h
  exact ⟨fun h => hr.1 (by rw [h]), fun h => hr.2 (by rw [h])⟩

theorem Fine.bind {r : Res α} {f : α → Res β} (hr : Fine r) (hf : ∀ a, Fine (f a)) :
    Fine (r >>= f) := by
  cases r with
  | error e => have := hr.error_ne rfl; exact Fine.error this.1 this.2
  | ok a => exact hf a

theorem Fine.map {r : Res α} {f : α → β} (hr : Fine r) : Fine (r.map f) := by
  cases r with
  | error e => have := hr.error_ne rfl; exact Fine.error this.1 this.2
  | ok a => exact Fine.ok _

theorem Fine.orErr {e : Err} {o : Option α} (h1 : e ≠ .fuel) (h2 : e ≠ .panic) :
    Fine (orErr e o) := by
  cases o with
  | none => exact Fine.error h1 h2
  | some a => exact Fine.ok a

theorem Fine.run {p : P α} (hp : Good p) (s : Bytes) : Fine (p.run s) := by
  unfold P.run
  split
  · exact Fine.ok _
  · rename_i e h
    exact Fine.error (fun h' => hp.noFuel s (by rw [h, h'])) (fun h' => hp.noPanic s (by rw [h, h']))

theorem Fine.foldlM {f : σ → α → Res σ} (hf : ∀ s a, Fine (f s a)) (l : List α) (s : σ) :
    Fine (l.foldlM f s) := by
  induction l generalizing s with
  | nil => exact Fine.ok s
  | cons a l ih =>
    rw [List.foldlM_cons]
    exact Fine.bind (hf s a) fun s' => ih s'

theorem Fine.mapM {f : α → Res β} (l : List α) (hf : ∀ a ∈ l, Fine (f a)) : Fine (l.mapM f) := by
  induction l with
  | nil => exact Fine.ok []
  | cons a l ih =>
    rw [List.mapM_cons]
    refine Fine.bind (hf a (by simp)) fun b => Fine.bind (ih fun x hx => hf x (by simp [hx])) fun bs => Fine.ok _

theorem Good.jcId : Good JcId.parse := Good.getLE 4

theorem Fine.ite {c : Prop} [Decidable c] {r r' : Res α} (h : c → Fine r) (h' : ¬ c → Fine r') :
    Fine (if c then r else r') := by
  split
  · exact h ‹_›
  · exact h' ‹_›

theorem fine_object (id ctx sid : ExGuid) (objects : GroupMap) (pkg : Package) :
    Fine (Object.parse id ctx sid objects pkg) := by
  unfold Object.parse
  refine Fine.bind (Fine.orErr (by simp) (by simp)) fun m => ?_
  refine Fine.bind (Fine.orErr (by simp) (by simp)) fun d => ?_
  refine Fine.bind (by split; exact Fine.ok _; exact Fine.error (by simp) (by simp)) fun md => ?_
  refine Fine.bind (Fine.run Good.jcId _) fun jc => ?_
  refine Fine.bind (by split; exact Fine.ok _; exact Fine.error (by simp) (by simp)) fun x => ?_
  refine Fine.bind (Fine.run Good.objectPropSet _) fun props => ?_
  refine Fine.bind ?_ fun b => ?_
  · unfold Object.findBlobId
    split
    · exact Fine.ok _
    · exact Fine.ok _
    · exact Fine.error (by simp) (by simp)
  refine Fine.bind ?_ fun f => ?_
  · split
    · exact Fine.ok _
    · exact Fine.map (Fine.orErr (by simp) (by simp))
  refine Fine.ite (fun _ => Fine.error (by simp) (by simp)) fun _ => ?_
  exact Fine.ite (fun _ => Fine.error (by simp) (by simp)) fun _ => Fine.ok _

theorem fine_revision (ctx sid : ExGuid) (si : StorageIndex) (pkg : Package) (r : ExGuid)
    (objects : Objects) (roots : Roots) : Fine (Revision.parse ctx sid si pkg r objects roots) := by
  unfold Revision.parse
  refine Fine.bind (Fine.orErr (by simp) (by simp)) fun m => ?_
  refine Fine.bind ?_ fun b => ?_
  · unfold Revision.baseOf
    split
    · exact Fine.ok _
    · exact Fine.map (Fine.orErr (by simp) (by simp))
  refine Fine.bind ?_ fun d => ?_
  · unfold Revision.parseRoots
    refine Fine.mapM _ fun rd _ => Fine.map ?_
    unfold RevisionRole.parse
    refine Fine.ite (fun _ => Fine.error (by simp) (by simp)) fun _ => ?_
    split
    · exact Fine.ok _
    · exact Fine.ok _
    · exact Fine.ok _
    · exact Fine.ok _
    · exact Fine.error (by simp) (by simp)
  refine Fine.bind ?_ fun o => Fine.ok _
  refine Fine.foldlM (fun s a => ?_) _ _
  unfold Revision.parseGroup
  refine Fine.bind (Fine.orErr (by simp) (by simp)) fun g => ?_
  refine Fine.foldlM (fun s a => ?_) _ _
  unfold Revision.addObject
  refine Fine.ite (fun _ => Fine.ok _) fun _ => ?_
  refine Fine.ite (fun _ => Fine.error (by simp) (by simp)) fun _ => ?_
  have := fine_object a ctx sid (Revision.groupMap g) pkg
  split
  · rename_i h
    have := this.error_ne h
    exact Fine.error this.1 this.2
  · exact Fine.ok _

end OneNote
