/-
C06: Bytes after the container never influence the result.
-/
import Verif.Lemmas.Good
import Verif.Lemmas.SameFiles
import Verif.Spec.SampleFile
import Verif.Lemmas.Sample

namespace OneNote

/-- If `c ++ rest` is accepted by consuming exactly `c`, then `c` followed by anything else gives
the same container. -/
theorem C06_trailing_bytes (c rest rest' : Bytes) (v : Packaging)
    (h : Packaging.parse (c ++ rest) = .ok (v, rest)) :
    Packaging.parse (c ++ rest') = .ok (v, rest') := by
  obtain ⟨c', hc, hp, -⟩ := Good.packaging.pre _ _ _ h
  have : c = c' := List.append_cancel_right hc
  subst this
  exact hp rest'

/-- The sample container followed by any bytes. -/
example (tail : Bytes) : ∃ v, Packaging.parse (Spec.sampleFile ++ tail) = .ok (v, tail) :=
  ⟨_, C06_trailing_bytes Spec.sampleFile [] tail _ (sampleFile_parse [])⟩

/-! ### Sections and notebooks -/

/-- Bytes appended to a section file do not change the section. -/
theorem C06_section (fuel : Nat) (ord : Order) (data more : Bytes) (name : Text) (s : Section)
    (h : parseSectionBuffer fuel ord data name = .ok s) :
    parseSectionBuffer fuel ord (data ++ more) name = .ok s := by
  rcases buffer_readsAs (readsAs_more (fun _ => False) ord data more) h with h | ⟨e, he, -⟩
  · exact h
  · exact he.elim

/-- The section depends on a part at the beginning of the file only, the shortest part that is
accepted: whatever follows it can be replaced, and without its last byte the file is truncated. -/
theorem C06_section_tail (fuel : Nat) (ord : Order) (data : Bytes) (name : Text) (s : Section)
    (h : parseSectionBuffer fuel ord data name = .ok s) :
    ∃ c rest, data = c ++ rest ∧
      (∀ more, parseSectionBuffer fuel ord (c ++ more) name = .ok s) ∧
      parseSectionBuffer fuel ord c.dropLast name = .error .eof := by
  unfold parseSectionBuffer at h
  obtain ⟨st, h1, h2⟩ := Res.bind_ok h
  obtain ⟨c, rest, rfl, h3, h4⟩ := store_consumes h1
  refine ⟨c, rest, rfl, fun more => ?_, ?_⟩
  · unfold parseSectionBuffer
    rw [h3]
    exact h2
  · have hc : c ≠ [] := by
      rintro rfl
      have := h3 []
      have e : readStore ord [] = .error .eof := rfl
      rw [List.append_nil, e] at this
      cases this
    unfold parseSectionBuffer
    rw [h4 c.dropLast [c.getLast hc] (List.dropLast_concat_getLast hc).symm (by simp)]
    rfl

/-- The disk with bytes appended to every file. -/
def longerFiles (fs : FileSystem) (more : Path → Bytes) : FileSystem :=
  { fs with read := fun p => (fs.read p).map fun d => d ++ more p }

/-- Bytes appended to the files of a notebook do not change the notebook. -/
theorem C06_notebook (fs : FileSystem) (sanitise : Text → Text) (ord : Order) (fuel m : Nat) (path : Path)
    (nb : Notebook) (h : parseNotebook ⟨fs, sanitise, ord, fuel⟩ m path = .ok nb)
    (more : Path → Bytes) :
    parseNotebook ⟨longerFiles fs more, sanitise, ord, fuel⟩ m path = .ok nb := by
  have hc : Covers (fun _ => False) ⟨fs, sanitise, ord, fuel⟩
      ⟨longerFiles fs more, sanitise, ord, fuel⟩ :=
    ⟨rfl, rfl, rfl, rfl, rfl, rfl, fun p d hd =>
      ⟨d ++ more p, by show (fs.read p).map _ = _; rw [show fs.read p = some d from hd]; rfl,
        readsAs_more _ ord d (more p)⟩⟩
  rcases notebook_covers hc m h with h | ⟨e, he, -⟩
  · exact h
  · exact he.elim

/-- A section file followed by any bytes. -/
example (tail : Bytes) : ∃ s, parseSectionBuffer 1 Order.id
    (Spec.emptySectionFile (some ['N']) ++ tail) [] = .ok s ∧ s.displayName = ['N'] := by
  have h : (parseSectionBuffer 1 Order.id (Spec.emptySectionFile (some ['N'])) []).toOption.map
      (fun s => s.displayName) = some ['N'] := by decide +kernel
  cases hs : parseSectionBuffer 1 Order.id (Spec.emptySectionFile (some ['N'])) [] with
  | error e => rw [hs] at h; cases h
  | ok s =>
    rw [hs] at h
    exact ⟨s, C06_section _ _ _ tail _ _ hs, Option.some.inj h⟩

#print axioms C06_section
#print axioms C06_section_tail
#print axioms C06_notebook
#print axioms C06_trailing_bytes

end OneNote
