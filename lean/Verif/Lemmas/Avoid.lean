/-
Which objects can make the document layer panic, and which it visits.
-/
import Verif.Lemmas.Nodes
import Verif.Lemmas.Tree
import Verif.Lemmas.Ink
import Verif.Spec.Graph

namespace OneNote

open Spec

variable {α β : Type} {e : Err}

/-- A result other than the error `e`. -/
def Avoids (e : Err) (r : Res α) : Prop := r ≠ .error e

/-- The two outcomes that no caller can handle. -/
def Grave (e : Err) : Prop := e = .fuel ∨ e = .panic

theorem Avoids.ok (a : α) : Avoids e (.ok a : Res α) := by intro h; cases h

theorem Avoids.fine (he : Grave e) {r : Res α} (h : Fine r) : Avoids e r := by
  rcases he with rfl | rfl
  · exact h.1
  · exact h.2

theorem Avoids.error (he : Grave e) {e' : Err} (h1 : e' ≠ .fuel) (h2 : e' ≠ .panic) :
    Avoids e (.error e' : Res α) := Avoids.fine he (Fine.error h1 h2)

theorem Avoids.bind {r : Res α} {f : α → Res β} (hr : Avoids e r)
    (hf : ∀ a, r = .ok a → Avoids e (f a)) : Avoids e (r >>= f) := by
  cases r with
  | error e' => intro h; exact hr (congrArg Except.error (Except.error.inj h))
  | ok a => exact hf a rfl

theorem Avoids.map {r : Res α} {f : α → β} (hr : Avoids e r) : Avoids e (f <$> r) := by
  cases r with
  | error e' => intro h; exact hr (congrArg Except.error (Except.error.inj h))
  | ok a => exact Avoids.ok _

theorem Avoids.mapM {f : α → Res β} (l : List α) (hf : ∀ a ∈ l, Avoids e (f a)) :
    Avoids e (l.mapM f) := by
  induction l with
  | nil => exact Avoids.ok []
  | cons a l ih =>
    rw [List.mapM_cons]
    exact Avoids.bind (hf a (by simp)) fun b _ =>
      Avoids.bind (ih fun x hx => hf x (by simp [hx])) fun bs _ => Avoids.ok _

theorem Avoids.optM {f : α → Res β} {x : Option α} (hf : ∀ a, x = some a → Avoids e (f a)) :
    Avoids e (optM f x) := by
  cases x with
  | none => exact Avoids.ok _
  | some a =>
    have := hf a rfl
    unfold OneNote.optM
    simp only
    split
    · exact Avoids.ok _
    · rename_i e' h
      rw [h] at this
      intro h'
      cases h'
      exact this rfl

theorem Fine.object (space : ObjectSpace) (id : ExGuid) : Fine (space.object id) :=
  Fine.orErr (by simp) (by simp)

theorem Fine.noteTagList (space : ObjectSpace) (tags : List NoteTagData) :
    Fine (parseNoteTags space tags) := by
  refine Fine.mapM _ fun t _ => Fine.bind (Fine.optM (fun id => ?_) _) fun _ => Fine.ok _
  exact Fine.bind (Fine.object _ _) fun o => Fine.noteTagDefinition o

theorem Fine.image (space : ObjectSpace) (id : ExGuid) : Fine (parseImage space id) := by
  refine Fine.bind (Fine.object _ _) fun o => Fine.bind (Fine.imageNode o) fun d => ?_
  refine Fine.bind (Fine.optM (fun id => ?_) _) fun c => ?_
  · exact Fine.bind (Fine.object _ _) fun o => Fine.pictureContainer o
  refine Fine.bind (Fine.mapM _ fun id _ => ?_) fun c => ?_
  · exact Fine.bind (Fine.object _ _) fun o => Fine.iFrameNode o
  exact Fine.bind (Fine.noteTagList _ _) fun _ => Fine.ok _

theorem Fine.embeddedFile (space : ObjectSpace) (id : ExGuid) : Fine (parseEmbeddedFile space id) := by
  refine Fine.bind (Fine.object _ _) fun o => Fine.bind (Fine.embeddedFileNode o) fun d => ?_
  refine Fine.bind (Fine.object _ _) fun o => Fine.bind (Fine.embeddedFileContainer o) fun d => ?_
  exact Fine.bind (Fine.noteTagList _ _) fun _ => Fine.ok _

theorem findDimension_lt {dims : List InkDimension} {id : Guid} {i : Nat}
    (h : findDimension dims id = .ok i) : i < dims.length :=
  (List.findIdx?_eq_some_iff_getElem.mp (orErr_some h)).1

/-- Both dimensions are found, so the slices are inside the data. -/
theorem Fine.inkPath (data : List Int) (dims : List InkDimension) (sx sy : Option F32) :
    Fine (parseInkPath data dims sx sy) := by
  unfold parseInkPath
  cases hx : findDimension dims dimensionX with
  | error e =>
    have := (Fine.orErr (by simp) (by simp) : Fine (findDimension dims dimensionX)).error_ne hx
    exact Fine.error this.1 this.2
  | ok ix =>
    cases hy : findDimension dims dimensionY with
    | error e =>
      have := (Fine.orErr (by simp) (by simp) : Fine (findDimension dims dimensionY)).error_ne hy
      exact Fine.error this.1 this.2
    | ok iy =>
      have lx := findDimension_lt hx
      have ly := findDimension_lt hy
      show Fine (if dims.length = 0 then .error .panic else _)
      refine Fine.ite (fun h => by omega) fun _ => ?_
      have sl : ∀ i, i < dims.length → Fine (slice data (data.length / dims.length * i)
          (data.length / dims.length)) := by
        intro i hi
        unfold slice
        rw [if_pos (block_fits hi)]
        exact Fine.ok _
      exact Fine.bind (sl ix lx) fun _ => Fine.bind (sl iy ly) fun _ => Fine.ok _

theorem Fine.inkStroke (space : ObjectSpace) (sx sy : Option F32) (id : ExGuid) :
    Fine (parseInkStroke space sx sy id) := by
  refine Fine.bind (Fine.object _ _) fun o => Fine.bind (Fine.inkStrokeNode o) fun d => ?_
  refine Fine.bind (Fine.object _ _) fun o => Fine.bind (Fine.strokeProperties o) fun d => ?_
  exact Fine.bind (Fine.inkPath _ _ _ _) fun _ => Fine.ok _

theorem Fine.inkData (space : ObjectSpace) (id : ExGuid) (sx sy : Option F32) :
    Fine (parseInkData space id sx sy) := by
  refine Fine.bind (Fine.object _ _) fun o => Fine.bind (Fine.inkDataNode o) fun d => ?_
  exact Fine.bind (Fine.mapM _ fun id _ => Fine.inkStroke _ _ _ _) fun _ => Fine.ok _

theorem Fine.ink (space : ObjectSpace) (id : ExGuid) : Fine (parseInk space id) := by
  refine Fine.bind (Fine.object _ _) fun o => Fine.bind (Fine.inkContainerNode o) fun d => ?_
  split
  · exact Fine.ok _
  · exact Fine.bind (Fine.inkData _ _ _ _) fun _ => Fine.ok _

theorem Fine.styleObject (space : ObjectSpace) (id : ExGuid) : Fine (parseStyleObject space id) :=
  Fine.bind (Fine.object _ _) fun o => Fine.paragraphStyle o

theorem Fine.mathRun (run : Object × ParagraphStyleObject) : Fine (parseMathRun run) := by
  unfold parseMathRun
  refine Fine.ite (fun _ => ?_) fun _ => Fine.ok _
  exact Fine.bind (Fine.mathInlineData _) fun d =>
    Fine.bind (Fine.bind (Fine.required _) fun _ => Fine.ok _) fun _ => Fine.ok _

theorem Fine.embeddedRun (run : Object × ParagraphStyleObject) : Fine (parseEmbeddedRun run) := by
  unfold parseEmbeddedRun
  refine Fine.ite (fun _ => ?_) fun _ => Fine.ok _
  exact Fine.bind (Fine.embeddedInkData _) fun d => Fine.ok _

/-- A number list panics only for an empty format. -/
theorem avoids_list (he : Grave e) {space : ObjectSpace} {id : ExGuid}
    (h : e = .panic → ∀ o, space.getObject id = some o → ¬ EmptyFormat o) :
    Avoids e (parseList space id) := by
  refine Avoids.bind (Avoids.fine he (Fine.object _ _)) fun o ho => ?_
  refine Avoids.bind ?_ fun _ _ => Avoids.ok _
  unfold NumberListNode.parse
  refine Avoids.bind (Avoids.fine he (Fine.assertKind _ _)) fun _ hk => ?_
  iterate 4 refine Avoids.bind (Avoids.fine he (by reader)) fun _ _ => ?_
  refine Avoids.bind (Avoids.fine he (Fine.vecU16 _ _)) fun v hv => ?_
  refine Avoids.bind ?_ fun _ _ => ?_
  · refine Avoids.optM fun us hus => ?_
    cases us with
    | cons u us => exact Avoids.ok _
    | nil =>
      intro hp
      have hp : e = .panic := (Except.error.inj hp).symm
      refine h hp o (object_some ho) ⟨kind_ok hk, ?_⟩
      obtain ⟨data, hd, hv⟩ := Res.bind_ok hv
      cases hv
      rcases propAs_ok hd with ⟨_, rfl⟩ | ⟨pv, a, hpv, hto, rfl⟩
      · cases hus
      · have := toVec_some hto
        subst this
        refine ⟨a, hpv, ?_⟩
        have hus : chunks2 a = [] := Option.some.inj hus
        match a with
        | [] => simp
        | [_] => simp
        | _ :: _ :: _ => simp [chunks2] at hus
  · refine Avoids.fine he ?_
    node

theorem parseEmbeddedObjects_panics {space : ObjectSpace} {refs : List ExGuid}
    {objects : List (Option Nat × EmbeddedInkData)} {i w : Nat} (hw : w ≤ i)
    (hc : e = .panic → refs = [] ∨
      i - w + (objects.filter fun o => o.1.isNone).length ≤ refs.length)
    (he : Grave e) : Avoids e (parseEmbeddedObjects space refs i w objects) := by
  induction objects generalizing i w with
  | nil => exact Avoids.ok _
  | cons x rest ih =>
    obtain ⟨t, data⟩ := x
    cases t with
    | none =>
      have hc' : e = .panic → refs = [] ∨
          i + 1 - w + (rest.filter fun o => o.1.isNone).length ≤ refs.length := by
        intro hp
        rcases hc hp with h | h
        · exact .inl h
        · right
          simp at h
          omega
      unfold parseEmbeddedObjects
      refine Avoids.bind ?_ fun o _ => Avoids.bind (ih (by omega) hc') fun _ _ => Avoids.ok _
      split
      · exact Avoids.ok _
      · rename_i hne
        refine Avoids.bind ?_ fun id _ => ?_
        · rcases he with rfl | rfl
          · unfold index orErr
            split <;> intro h <;> cases h
          · have hlt : i - w < refs.length := by
              rcases hc rfl with h | h
              · subst h; simp at hne
              · simp at h; omega
            unfold index
            rw [List.getElem?_eq_getElem hlt]
            exact Avoids.ok _
        · refine Avoids.bind (Avoids.fine he ?_) fun _ _ => Avoids.ok _
          exact Fine.bind (Fine.inkData _ _ _ _) fun _ => Fine.ok _
    | some t =>
      have hc' : e = .panic → refs = [] ∨
          i + 1 - (w + 1) + (rest.filter fun o => o.1.isNone).length ≤ refs.length := by
        intro hp
        rcases hc hp with h | h
        · exact .inl h
        · right
          simp at h
          omega
      unfold parseEmbeddedObjects
      split
      · exact Avoids.bind (ih (by omega) hc') fun _ _ => Avoids.ok _
      · split
        · refine Avoids.bind (Avoids.fine he ?_) fun _ _ =>
            Avoids.bind (ih (by omega) hc') fun _ _ => Avoids.ok _
          exact Fine.bind (Fine.required _) fun _ => Fine.bind (Fine.required _) fun _ => Fine.ok _
        · exact Avoids.error he (by simp) (by simp)

/-- The embedded objects without a type are those of the ink runs. -/
theorem inkRuns_count {runs : List (Object × ParagraphStyleObject)}
    {objects : List (Option (Option Nat × EmbeddedInkData))}
    (h : runs.mapM parseEmbeddedRun = .ok objects) :
    ((objects.filterMap fun x => x).filter fun o => o.1.isNone).length =
      (runs.filter fun r => IsInkRun r.2).length := by
  induction runs generalizing objects with
  | nil => cases h; rfl
  | cons r runs ih =>
    rw [List.mapM_cons] at h
    obtain ⟨x, hx, h⟩ := Res.bind_ok h
    obtain ⟨xs, hxs, h⟩ := Res.bind_ok h
    cases h
    have := ih hxs
    unfold parseEmbeddedRun at hx
    split at hx
    · rename_i hr
      obtain ⟨d, _, hx⟩ := Res.bind_ok hx
      cases hx
      cases ht : r.2.textRunObjectType <;> simp [IsInkRun, hr, ht, this]
    · rename_i hr
      cases hx
      simp [IsInkRun, hr, this]

theorem richText_inkRefs {o : Object} {d : RichTextNode} (h : RichTextNode.parse o = .ok d) :
    References o .textRunDataObject d.textRunDataObject := by
  unfold RichTextNode.parse at h
  steps h
  cases h
  exact parseVec_references ‹_›

/-- A text panics only when references to ink are missing. -/
theorem avoids_richText (he : Grave e) {space : ObjectSpace} {id : ExGuid}
    (h : e = .panic → ∀ o, space.getObject id = some o → ¬ MissingInk space o) :
    Avoids e (parseRichText space id) := by
  refine Avoids.bind (Avoids.fine he (Fine.object _ _)) fun o ho => ?_
  refine Avoids.bind (Avoids.fine he (Fine.richTextNode _)) fun d hd => ?_
  refine Avoids.bind (Avoids.fine he (Fine.styleObject _ _)) fun _ _ => ?_
  refine Avoids.bind (Avoids.fine he (Fine.mapM _ fun _ _ => Fine.styleObject _ _)) fun styles hs => ?_
  refine Avoids.bind (Avoids.fine he (Fine.nestedObjects _ _)) fun runs hr => ?_
  refine Avoids.bind (Avoids.fine he (Fine.mapM _ fun _ _ => Fine.mathRun _)) fun _ _ => ?_
  refine Avoids.bind (Avoids.fine he (Fine.mapM _ fun _ _ => Fine.embeddedRun _)) fun objects hob => ?_
  refine Avoids.bind ?_ fun _ _ =>
    Avoids.bind (Avoids.fine he (Fine.noteTagList _ _)) fun _ _ => Avoids.ok _
  refine parseEmbeddedObjects_panics (Nat.zero_le _) (fun hp => ?_) he
  by_cases hn : d.textRunDataObject = []
  · exact .inl hn
  · right
    rw [inkRuns_count hob]
    refine Nat.le_of_not_lt fun hlt => ?_
    cases runs with
    | none => simp at hlt
    | some runs =>
      refine h hp o (object_some ho) ⟨(richText_refs hd).1, d.textRunDataObject, d.textRunFormatting,
        styles, runs, richText_inkRefs hd, hn, (richText_refs hd).2, mapM_each.mp hs, hr, ?_⟩
      simpa using hlt

end OneNote
