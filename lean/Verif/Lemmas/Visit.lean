/-
The recursive part of the document layer: which recursive calls a call makes, and what follows for
panics and for the depth of the recursion.
-/
import Verif.Lemmas.Avoid
import Verif.Lemmas.Map
import Verif.Model.Notebook

namespace OneNote

open Spec

variable {α β : Type} {e : Err} {space : ObjectSpace} {r : Rec}

/-- The condition under which the objects of a space do not panic. -/
def Harmless (e : Err) (space : ObjectSpace) : Prop := e = .panic → NoPanicShape space

theorem element_child {a b : ExGuid} {o : Object} {ids : List ExGuid}
    (ho : space.object a = .ok o) (h : References o .elementChildNodes ids) (hb : b ∈ ids) :
    ChildOf space a b :=
  ⟨o, _, ids, object_some ho, by simp, h, hb⟩

theorem content_child {a b : ExGuid} {o : Object} {ids : List ExGuid}
    (ho : space.object a = .ok o) (h : References o .contentChildNodes ids) (hb : b ∈ ids) :
    ChildOf space a b :=
  ⟨o, _, ids, object_some ho, by simp, h, hb⟩

theorem avoids_cell (he : Grave e) {id : ExGuid}
    (hr : ∀ b, Descendant space id b → Avoids e (r.element b)) :
    Avoids e (parseCell r space id) := by
  refine Avoids.bind (Avoids.fine he (Fine.object _ _)) fun o ho => ?_
  refine Avoids.bind (Avoids.fine he (Fine.tableCellNode _)) fun d hd => ?_
  exact Avoids.bind (Avoids.mapM _ fun b hb =>
    hr b (.single (element_child ho (cell_refs hd).2 hb))) fun _ _ => Avoids.ok _

theorem avoids_row (he : Grave e) {id : ExGuid}
    (hr : ∀ b, Descendant space id b → Avoids e (r.element b)) :
    Avoids e (parseRow r space id) := by
  refine Avoids.bind (Avoids.fine he (Fine.object _ _)) fun o ho => ?_
  refine Avoids.bind (Avoids.fine he (Fine.tableRowNode _)) fun d hd => ?_
  exact Avoids.bind (Avoids.mapM _ fun b hb => avoids_cell he fun c hc =>
    hr c (.trans (.single (element_child ho (row_refs hd).2 hb)) hc)) fun _ _ => Avoids.ok _

theorem avoids_table (he : Grave e) {id : ExGuid}
    (hr : ∀ b, Descendant space id b → Avoids e (r.element b)) :
    Avoids e (parseTable r space id) := by
  refine Avoids.bind (Avoids.fine he (Fine.object _ _)) fun o ho => ?_
  refine Avoids.bind (Avoids.fine he (Fine.tableNode _)) fun d hd => ?_
  refine Avoids.bind (Avoids.mapM _ fun b hb => avoids_row he fun c hc =>
    hr c (.trans (.single (element_child ho (table_refs hd).2 hb)) hc)) fun _ _ => ?_
  exact Avoids.bind (Avoids.fine he (Fine.noteTagList _ _)) fun _ _ => Avoids.ok _

theorem Fine.propertySetId (space : ObjectSpace) (id : ExGuid) : Fine (space.propertySetId id) :=
  Fine.bind (Fine.object _ _) fun _ => Fine.orErr (by simp) (by simp)

theorem avoids_content (he : Grave e) (hs : Harmless e space) {id : ExGuid}
    (hr : ∀ b, Descendant space id b → Avoids e (r.element b)) :
    Avoids e (parseContent r space id) := by
  refine Avoids.bind (Avoids.fine he (Fine.propertySetId _ _)) fun k _ => ?_
  split
  · exact Avoids.map (Avoids.fine he (Fine.image _ _))
  · exact Avoids.map (Avoids.fine he (Fine.embeddedFile _ _))
  · exact Avoids.map (avoids_richText he fun hp o ho => (hs hp _ o ho).2)
  · exact Avoids.map (avoids_table he hr)
  · exact Avoids.map (Avoids.fine he (Fine.ink _ _))
  · exact Avoids.ok _

theorem avoids_group (he : Grave e) {id : ExGuid}
    (hr : ∀ b, Descendant space id b → Avoids e (r.item b)) :
    Avoids e (parseOutlineGroup r space id) := by
  refine Avoids.bind (Avoids.fine he (Fine.object _ _)) fun o ho => ?_
  refine Avoids.bind (Avoids.fine he (Fine.outlineGroupNode _)) fun d hd => ?_
  exact Avoids.bind (Avoids.mapM _ fun b hb =>
    hr b (.single (element_child ho (outlineGroup_refs hd).2 hb))) fun _ _ => Avoids.ok _

theorem avoids_element (he : Grave e) (hs : Harmless e space) {id : ExGuid}
    (hi : ∀ b, Descendant space id b → Avoids e (r.item b))
    (hr : ∀ b, Descendant space id b → Avoids e (r.element b)) :
    Avoids e (parseElementWith r space id) := by
  refine Avoids.bind (Avoids.fine he (Fine.object _ _)) fun o ho => ?_
  refine Avoids.bind (Avoids.fine he (Fine.outlineElementNode _)) fun d hd => ?_
  have refs := outlineElement_refs hd
  refine Avoids.bind (Avoids.mapM _ fun b hb =>
    hi b (.single (element_child ho refs.2.1 hb))) fun _ _ => ?_
  refine Avoids.bind (Avoids.mapM _ fun b hb => avoids_content he hs fun c hc =>
    hr c (.trans (.single (content_child ho refs.2.2.1 hb)) hc)) fun _ _ => ?_
  exact Avoids.bind (Avoids.mapM _ fun b hb => avoids_list he fun hp o ho => (hs hp _ o ho).1)
    fun _ _ => Avoids.ok _

theorem avoids_item (he : Grave e) (hs : Harmless e space) {id : ExGuid}
    (hi : ∀ b, Descendant space id b → Avoids e (r.item b))
    (hr : ∀ b, Descendant space id b → Avoids e (r.element b)) :
    Avoids e (parseItemWith r space id) := by
  refine Avoids.bind (Avoids.fine he (Fine.propertySetId _ _)) fun k _ => ?_
  split
  · exact Avoids.map (avoids_group he hi)
  · exact Avoids.map (avoids_element he hs hi hr)
  · exact Avoids.error he (by simp) (by simp)

/-- Without an object of the two shapes, outlines do not panic. -/
theorem recAt_noPanic (hs : NoPanicShape space) (n : Nat) (id : ExGuid) :
    Avoids .panic ((recAt space n).item id) ∧ Avoids .panic ((recAt space n).element id) := by
  induction n generalizing id with
  | zero => exact ⟨(fun h => by cases h), (fun h => by cases h)⟩
  | succ n ih =>
    exact ⟨avoids_item (.inr rfl) (fun _ => hs) (fun b _ => (ih b).1) fun b _ => (ih b).2,
      avoids_element (.inr rfl) (fun _ => hs) (fun b _ => (ih b).1) fun b _ => (ih b).2⟩

/-- A node with a descendant is an object of the space. -/
theorem descendant_object {a b : ExGuid} (h : Descendant space a b) :
    a ∈ space.objects.map Prod.fst := by
  have key : ∃ o, space.getObject a = some o := by
    induction h with
    | single h => obtain ⟨o, _, _, ho, _⟩ := h; exact ⟨o, ho⟩
    | tail _ _ ih => exact ih
  obtain ⟨o, ho⟩ := key
  exact List.mem_map.mpr ⟨(a, o), Map.mem_of_get? ho, rfl⟩

/-- Without a cycle, nested calls go through different objects, so their number is bounded. -/
theorem recAt_noFuel (ha : Acyclic space) (n : Nat) (seen : List ExGuid) (hn : seen.Nodup)
    (hsub : ∀ a ∈ seen, a ∈ space.objects.map Prod.fst)
    (hlen : space.objects.length < n + seen.length) (id : ExGuid)
    (hd : ∀ a ∈ seen, Descendant space a id) :
    Avoids .fuel ((recAt space n).item id) ∧ Avoids .fuel ((recAt space n).element id) := by
  induction n generalizing seen id with
  | zero =>
    have := hn.length_le_of_subset hsub
    rw [List.length_map] at this
    omega
  | succ n ih =>
    have step : ∀ b, Descendant space id b → Avoids .fuel ((recAt space n).item b) ∧
        Avoids .fuel ((recAt space n).element b) := by
      intro b hb
      refine ih (id :: seen) (List.nodup_cons.mpr ⟨fun hm => ha id (hd id hm), hn⟩) ?_ ?_ b ?_
      · intro a ha'
        rcases List.mem_cons.mp ha' with rfl | h
        · exact descendant_object hb
        · exact hsub a h
      · simp only [List.length_cons]
        omega
      · intro a ha'
        rcases List.mem_cons.mp ha' with rfl | h
        · exact hb
        · exact .trans (hd a h) hb
    exact ⟨avoids_item (.inl rfl) (fun h => by cases h) (fun b hb => (step b hb).1)
        fun b hb => (step b hb).2,
      avoids_element (.inl rfl) (fun h => by cases h) (fun b hb => (step b hb).1)
        fun b hb => (step b hb).2⟩

/-! ### From outlines to sections -/

theorem avoids_outline (he : Grave e) {fuel : Nat}
    (hr : ∀ id, Avoids e ((recAt space fuel).item id)) (id : ExGuid) :
    Avoids e (parseOutline fuel space id) := by
  refine Avoids.bind (Avoids.fine he (Fine.object _ _)) fun o ho => ?_
  refine Avoids.bind (Avoids.fine he (Fine.outlineNode _)) fun d hd => ?_
  exact Avoids.bind (Avoids.mapM _ fun b hb => hr b) fun _ _ => Avoids.ok _

theorem avoids_pageContent (he : Grave e) {fuel : Nat}
    (hr : ∀ id, Avoids e ((recAt space fuel).item id)) (id : ExGuid) :
    Avoids e (parsePageContent fuel space id) := by
  refine Avoids.bind (Avoids.fine he (Fine.propertySetId _ _)) fun k _ => ?_
  split
  · exact Avoids.map (Avoids.fine he (Fine.image _ _))
  · exact Avoids.map (Avoids.fine he (Fine.embeddedFile _ _))
  · exact Avoids.map (avoids_outline he hr id)
  · exact Avoids.map (Avoids.fine he (Fine.ink _ _))
  · exact Avoids.ok _

theorem Fine.contentObject (space : ObjectSpace) : Fine space.contentObject :=
  Fine.bind (Fine.orErr (by simp) (by simp)) fun _ => Fine.object _ _

theorem Fine.metadataObject (space : ObjectSpace) : Fine space.metadataObject :=
  Fine.bind (Fine.orErr (by simp) (by simp)) fun _ => Fine.object _ _

theorem avoids_page (he : Grave e) {fuel : Nat}
    (hr : ∀ id, Avoids e ((recAt space fuel).item id)) : Avoids e (parsePage fuel space) := by
  refine Avoids.bind (Avoids.fine he (Fine.bind (Fine.metadataObject _) fun _ =>
    Fine.pageMetadata _)) fun _ _ => ?_
  refine Avoids.bind (Avoids.fine he (Fine.bind (Fine.contentObject _) fun _ =>
    Fine.pageManifestNode _)) fun _ _ => ?_
  refine Avoids.bind (Avoids.fine he (Fine.bind (Fine.object _ _) fun _ =>
    Fine.pageNode _)) fun _ _ => ?_
  refine Avoids.bind (Avoids.optM fun id _ => ?_) fun _ _ =>
    Avoids.bind (Avoids.mapM _ fun id _ => avoids_pageContent he hr id) fun _ _ => Avoids.ok _
  refine Avoids.bind (Avoids.fine he (Fine.object _ _)) fun o ho => ?_
  refine Avoids.bind (Avoids.fine he (Fine.titleNode _)) fun d hd => ?_
  exact Avoids.bind (Avoids.mapM _ fun id _ => avoids_outline he hr id) fun _ _ => Avoids.ok _

theorem avoids_section (he : Grave e) {fuel : Nat} {store : Store} (name : Text)
    (hr : ∀ cell space, store.objectSpace cell = some space →
      ∀ id, Avoids e ((recAt space fuel).item id)) :
    Avoids e (parseSectionStore fuel store name) := by
  refine Avoids.bind (Avoids.fine he (Fine.bind (Fine.metadataObject _) fun _ =>
    Fine.sectionMetadata _)) fun _ _ => ?_
  refine Avoids.bind (Avoids.fine he (Fine.bind (Fine.contentObject _) fun _ =>
    Fine.sectionNode _)) fun _ _ => ?_
  refine Avoids.bind (Avoids.mapM _ fun id _ => ?_) fun _ _ => Avoids.ok _
  refine Avoids.bind (Avoids.fine he (Fine.object _ _)) fun o ho => ?_
  refine Avoids.bind (Avoids.fine he (Fine.pageSeriesNode _)) fun d hd => ?_
  refine Avoids.bind (Avoids.mapM _ fun cell _ => ?_) fun _ _ => Avoids.ok _
  refine Avoids.bind (Avoids.fine he (Fine.orErr (by simp) (by simp))) fun sp hsp => ?_
  exact avoids_page he (hr cell sp (orErr_some hsp))

/-! ### Tables of contents -/

theorem toc_refs {o : Object} {d : TocContainer} (h : TocContainer.parse o = .ok d) :
    References o .tocChildren d.children := by
  unfold TocContainer.parse at h
  steps h
  cases h
  exact parseVec_references ‹_›

theorem avoids_tocEntry (he : Grave e) {n : Nat} {id : ExGuid}
    (hr : ∀ b, ChildOf space id b → Avoids e (parseTocEntry space n b)) :
    Avoids e (parseTocEntry space (n + 1) id) := by
  refine Avoids.bind (Avoids.fine he (Fine.object _ _)) fun o ho => ?_
  refine Avoids.bind (Avoids.fine he (Fine.tocContainer _)) fun d hd => ?_
  split
  · exact Avoids.bind (Avoids.fine he (Fine.orErr (by simp) (by simp))) fun _ _ => Avoids.ok _
  · refine Avoids.bind (Avoids.mapM _ fun b hb => hr b ?_) fun _ _ => Avoids.ok _
    exact ⟨o, _, _, object_some ho, by simp, toc_refs hd, hb⟩

theorem tocEntry_noPanic (n : Nat) (id : ExGuid) : Avoids .panic (parseTocEntry space n id) := by
  induction n generalizing id with
  | zero => intro h; cases h
  | succ n ih => exact avoids_tocEntry (.inr rfl) fun b _ => ih b

theorem tocEntry_noFuel (ha : Acyclic space) (n : Nat) (seen : List ExGuid) (hn : seen.Nodup)
    (hsub : ∀ a ∈ seen, a ∈ space.objects.map Prod.fst)
    (hlen : space.objects.length < n + seen.length) (id : ExGuid)
    (hd : ∀ a ∈ seen, Descendant space a id) : Avoids .fuel (parseTocEntry space n id) := by
  induction n generalizing seen id with
  | zero =>
    have := hn.length_le_of_subset hsub
    rw [List.length_map] at this
    omega
  | succ n ih =>
    refine avoids_tocEntry (.inl rfl) fun b hb => ?_
    refine ih (id :: seen) (List.nodup_cons.mpr ⟨fun hm => ha id (hd id hm), hn⟩) ?_ ?_ b ?_
    · intro a ha'
      rcases List.mem_cons.mp ha' with rfl | h
      · exact descendant_object (.single hb)
      · exact hsub a h
    · simp only [List.length_cons]
      omega
    · intro a ha'
      rcases List.mem_cons.mp ha' with rfl | h
      · exact .single hb
      · exact .tail (hd a h) hb

end OneNote
