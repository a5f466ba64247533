/-
A test whether two stores differ in the metadata of pages only. It is used for sample files.
-/
import Verif.Spec.Deleted
import Verif.Lemmas.Contents

namespace OneNote.Deleted

open Spec Spec.Document Spec.Objects

variable {K V : Type} [DecidableEq K]

/-- The maps have the same keys in the same order, with values that pass the test. -/
def sameMap (f : K → V → V → Bool) : Map K V → Map K V → Bool
  | [], [] => true
  | (k, v) :: m, (k', v') :: m' => decide (k = k') && f k v v' && sameMap f m m'
  | _, _ => false

theorem sameMap_get {f : K → V → V → Bool} {m m' : Map K V} (h : sameMap f m m' = true) (k : K) :
    (Map.get? m k = none ∧ Map.get? m' k = none) ∨
      ∃ v v', Map.get? m k = some v ∧ Map.get? m' k = some v' ∧ f k v v' = true := by
  induction m generalizing m' with
  | nil =>
    cases m' with
    | nil => exact .inl ⟨rfl, rfl⟩
    | cons e m' => cases h
  | cons e m ih =>
    obtain ⟨a, v⟩ := e
    cases m' with
    | nil => cases h
    | cons e' m' =>
      obtain ⟨a', v'⟩ := e'
      simp only [sameMap, Bool.and_eq_true, decide_eq_true_eq] at h
      obtain ⟨⟨rfl, hf⟩, hm⟩ := h
      by_cases hk : a = k
      · subst hk
        exact .inr ⟨v, v', by simp [Map.get?], by simp [Map.get?], hf⟩
      · have := ih hm
        simpa [Map.get?, hk] using this

theorem sameMap_eq {f : K → V → V → Bool} {m m' : Map K V} (h : sameMap f m m' = true)
    (hf : ∀ k v v', f k v v' = true → v = v') : m = m' := by
  induction m generalizing m' with
  | nil =>
    cases m' with
    | nil => rfl
    | cons e m' => cases h
  | cons e m ih =>
    cases m' with
    | nil => cases h
    | cons e' m' =>
      obtain ⟨a, v⟩ := e
      obtain ⟨a', v'⟩ := e'
      simp only [sameMap, Bool.and_eq_true, decide_eq_true_eq] at h
      obtain ⟨⟨rfl, h1⟩, hm⟩ := h
      rw [hf _ _ _ h1, ih hm]

/-- Equality of values that are not nested. -/
def sameValue : PropertyValue → PropertyValue → Bool
  | .bool a, .bool b => decide (a = b)
  | .u8 a, .u8 b => decide (a = b)
  | .u32 a, .u32 b => decide (a = b)
  | .u64 a, .u64 b => decide (a = b)
  | .vec a, .vec b => decide (a = b)
  | .objectIds a, .objectIds b => decide (a = b)
  | .objectSpaceIds a, .objectSpaceIds b => decide (a = b)
  | _, _ => false

theorem sameValue_eq {v v' : PropertyValue} (h : sameValue v v' = true) : v = v' := by
  unfold sameValue at h
  split at h <;> first | (rw [of_decide_eq_true h]) | cases h

def sameObject (o o' : Object) : Bool :=
  decide (o.contextId = o'.contextId ∧ o.jcId = o'.jcId ∧ o.props.objectIds = o'.props.objectIds ∧
    o.props.objectSpaceIds = o'.props.objectSpaceIds ∧ o.props.contextIds = o'.props.contextIds ∧
    o.fileData = o'.fileData ∧ o.mapping = o'.mapping) &&
  sameMap (fun _ a b => decide (a.1 = b.1) && sameValue a.2 b.2) o.props.properties o'.props.properties

theorem sameObject_eq {o o' : Object} (h : sameObject o o' = true) : o = o' := by
  obtain ⟨c, j, ⟨a, b, d, e⟩, f, g⟩ := o
  obtain ⟨c', j', ⟨a', b', d', e'⟩, f', g'⟩ := o'
  simp only [sameObject, Bool.and_eq_true, decide_eq_true_eq] at h
  obtain ⟨⟨rfl, rfl, rfl, rfl, rfl, rfl, rfl⟩, h⟩ := h
  have := sameMap_eq h fun _ v v' hv => by
    rw [Bool.and_eq_true, decide_eq_true_eq] at hv
    exact Prod.ext hv.1 (sameValue_eq hv.2)
  rw [this]

/-- Both objects are metadata with the same level. -/
def sameLevel (o o' : Object) : Bool :=
  match PageMetadata.parse o, PageMetadata.parse o' with
  | .ok n, .ok n' => decide (n'.pageLevel = n.pageLevel)
  | _, _ => false

theorem sameLevel_ok {o o' : Object} (h : sameLevel o o' = true) :
    ∃ n n', IsPageMetadata o n ∧ IsPageMetadata o' n' ∧ n'.pageLevel = n.pageLevel := by
  unfold sameLevel at h
  split at h
  · rename_i n n' e e'
    exact ⟨n, n', PageMetadata.parse_iff.1 e, PageMetadata.parse_iff.1 e', of_decide_eq_true h⟩
  · cases h

def sameSpace (s s' : ObjectSpace) : Bool :=
  decide (s.id = s'.id ∧ s.context = s'.context ∧ s.roots = s'.roots) &&
  sameMap (fun _ => sameObject) s.objects s'.objects

theorem sameSpace_eq {s s' : ObjectSpace} (h : sameSpace s s' = true) : s = s' := by
  obtain ⟨a, b, c, d⟩ := s
  obtain ⟨a', b', c', d'⟩ := s'
  simp only [sameSpace, Bool.and_eq_true, decide_eq_true_eq] at h
  obtain ⟨⟨rfl, rfl, rfl⟩, h⟩ := h
  rw [sameMap_eq h fun _ _ _ => sameObject_eq]

def sameButMetadata (s s' : ObjectSpace) : Bool :=
  decide (s.roots = s'.roots) &&
  match s.roots.get? .metadata with
  | none => false
  | some info => (s.objects.get? info).isSome &&
    sameMap (fun k o o' => if k = info then sameLevel o o' else sameObject o o') s.objects s'.objects

theorem sameButMetadata_ok {s s' : ObjectSpace} (h : sameButMetadata s s' = true) : SameButMetadata s s' := by
  unfold sameButMetadata at h
  rw [Bool.and_eq_true, decide_eq_true_eq] at h
  obtain ⟨hr, h⟩ := h
  split at h
  · cases h
  · rename_i info hi
    rw [Bool.and_eq_true] at h
    refine ⟨fun r => by rw [hr], fun id hid => ?_, ?_⟩
    · rcases sameMap_get h.2 id with ⟨e, e'⟩ | ⟨o, o', e, e', hf⟩
      · exact e'.trans e.symm
      · rw [if_neg (fun hx => hid (by rw [hi, hx]))] at hf
        rw [← sameObject_eq hf] at e'
        exact e'.trans e.symm
    · rcases sameMap_get h.2 info with ⟨e, e'⟩ | ⟨o, o', e, e', hf⟩
      · rw [e] at h
        exact absurd h.1 (by decide)
      · rw [if_pos rfl] at hf
        obtain ⟨n, n', g1, g2, g3⟩ := sameLevel_ok hf
        exact ⟨info, o, o', n, n', hi, e, e', g1, g2, g3⟩

def sameButMarks (s s' : Store) : Bool :=
  decide (s.schema = s'.schema ∧ s.dataRoot.roots = s'.dataRoot.roots) &&
  sameMap (fun _ => sameObject) s.dataRoot.objects s'.dataRoot.objects &&
  sameMap (fun _ a b => sameSpace a b || sameButMetadata a b) s.objectSpaces s'.objectSpaces

theorem sameButMarks_ok {s s' : Store} (h : sameButMarks s s' = true) : SameButMarks s s' := by
  unfold sameButMarks at h
  rw [Bool.and_eq_true, Bool.and_eq_true, decide_eq_true_eq] at h
  obtain ⟨⟨⟨h1, h2⟩, h3⟩, h4⟩ := h
  refine ⟨h1.symm, fun r => by rw [h2], fun id => .inl ?_, fun c space hc => ?_, fun c hc => ?_⟩
  · show Map.get? _ _ = Map.get? _ _
    rw [sameMap_eq h3 fun _ _ _ => sameObject_eq]
  · rcases sameMap_get h4 c with ⟨e, e'⟩ | ⟨a, b, e, e', hf⟩
    · exact absurd (e.symm.trans hc) nofun
    · have : a = space := Option.some.inj (e.symm.trans hc)
      subst this
      refine ⟨b, e', ?_⟩
      rw [Bool.or_eq_true] at hf
      exact hf.imp (fun h => (sameSpace_eq h).symm) sameButMetadata_ok
  · rcases sameMap_get h4 c with ⟨e, e'⟩ | ⟨a, b, e, e', hf⟩
    · exact e'
    · exact absurd (e.symm.trans hc) nofun

end OneNote.Deleted
