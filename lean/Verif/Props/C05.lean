/-
C05: A truncated container is always reported as truncated.
-/
import Verif.Lemmas.Good
import Verif.Lemmas.SameFiles
import Verif.Spec.SampleFile
import Verif.Lemmas.Sample

namespace OneNote

open Spec

/-- If the container parser accepts `c ++ rest` by consuming exactly `c`, then on every proper
prefix `q` of `c` it reports an unexpected end of file. -/
theorem C05_truncation (c rest q u : Bytes) (v : Packaging)
    (h : Packaging.parse (c ++ rest) = .ok (v, rest)) (hq : c = q ++ u) (hu : u ≠ []) :
    Packaging.parse q = .error .eof := by
  obtain ⟨c', hc, -, hp⟩ := Good.packaging.pre _ _ _ h
  have : c = c' := List.append_cancel_right hc
  subst this
  exact hp q u hq hu

/-- What the parser leaves unread is always a suffix of the input, so every accepted input has the
form used above. -/
theorem C05_consumes_prefix (s rest : Bytes) (v : Packaging)
    (h : Packaging.parse s = .ok (v, rest)) : ∃ c, s = c ++ rest := by
  obtain ⟨c, hc, -⟩ := Good.packaging.pre _ _ _ h
  exact ⟨c, hc⟩

/-- The sample container (355 bytes, three data elements) cut after any `n < 355` bytes. -/
example (n : Nat) (h : n < Spec.sampleFile.length) :
    Packaging.parse (Spec.sampleFile.take n) = .error .eof :=
  C05_truncation Spec.sampleFile [] (Spec.sampleFile.take n) (Spec.sampleFile.drop n) _
    (sampleFile_parse []) (List.take_append_drop n _).symm
    (fun h' => by have := congrArg List.length h'; simp at this; omega)

/-! ### Sections and notebooks -/

/-- A section file cut after any number of bytes is shown as before, if only unread bytes were cut off,
or reported as truncated. It is never shown as a different section and never rejected with another
error. -/
theorem C05_section (fuel : Nat) (ord : Order) (data : Bytes) (name : Text) (s : Section)
    (h : parseSectionBuffer fuel ord data name = .ok s) (n : Nat) :
    parseSectionBuffer fuel ord (data.take n) name = .ok s ∨
      parseSectionBuffer fuel ord (data.take n) name = .error .eof := by
  rcases buffer_readsAs (readsAs_cut ord data n) h with h | ⟨e, rfl, h⟩
  · exact .inl h
  · exact .inr h

/-- There is one length from which on the file is shown and below which it is truncated. -/
theorem C05_section_length (fuel : Nat) (ord : Order) (data : Bytes) (name : Text) (s : Section)
    (h : parseSectionBuffer fuel ord data name = .ok s) :
    ∃ k, k ≤ data.length ∧ ∀ n,
      (k ≤ n → parseSectionBuffer fuel ord (data.take n) name = .ok s) ∧
      (n < k → parseSectionBuffer fuel ord (data.take n) name = .error .eof) := by
  unfold parseSectionBuffer at h
  obtain ⟨st, h1, h2⟩ := Res.bind_ok h
  obtain ⟨c, rest, rfl, h3, h4⟩ := store_consumes h1
  refine ⟨c.length, by simp, fun n => ⟨fun hn => ?_, fun hn => ?_⟩⟩
  · unfold parseSectionBuffer
    rw [List.take_append, List.take_of_length_le hn, h3]
    exact h2
  · unfold parseSectionBuffer
    rw [List.take_append, Nat.sub_eq_zero_of_le (by omega), List.take_zero, List.append_nil,
      h4 _ (c.drop n) (List.take_append_drop n c).symm
        (fun h => Nat.not_le.2 hn (List.drop_eq_nil_iff.1 h))]
    rfl

/-- The disk with every file cut after some number of bytes. -/
def cutFiles (fs : FileSystem) (n : Path → Nat) : FileSystem :=
  { fs with read := fun p => (fs.read p).map fun d => d.take (n p) }

/-- If files of a notebook are cut, the notebook is shown as before or reported as truncated. -/
theorem C05_notebook (fs : FileSystem) (sanitise : Text → Text) (ord : Order) (fuel m : Nat) (path : Path)
    (nb : Notebook) (h : parseNotebook ⟨fs, sanitise, ord, fuel⟩ m path = .ok nb) (n : Path → Nat) :
    parseNotebook ⟨cutFiles fs n, sanitise, ord, fuel⟩ m path = .ok nb ∨
      parseNotebook ⟨cutFiles fs n, sanitise, ord, fuel⟩ m path = .error .eof := by
  have hc : Covers (· = .eof) ⟨fs, sanitise, ord, fuel⟩ ⟨cutFiles fs n, sanitise, ord, fuel⟩ :=
    ⟨rfl, rfl, rfl, rfl, rfl, rfl, fun p d hd =>
      ⟨d.take (n p), by show (fs.read p).map _ = _; rw [show fs.read p = some d from hd]; rfl,
        readsAs_cut ord d (n p)⟩⟩
  rcases notebook_covers hc m h with h | ⟨e, rfl, h⟩
  · exact .inl h
  · exact .inr h

/-- The section file with the name `N`. -/
example : ∃ s, parseSectionBuffer 1 Order.id (emptySectionFile (some ['N'])) [] = .ok s ∧
    s.displayName = ['N'] := by
  have h : (parseSectionBuffer 1 Order.id (emptySectionFile (some ['N'])) []).toOption.map
      (fun s => s.displayName) = some ['N'] := by decide +kernel
  cases hs : parseSectionBuffer 1 Order.id (emptySectionFile (some ['N'])) [] with
  | error e => rw [hs] at h; cases h
  | ok s => rw [hs] at h; exact ⟨s, rfl, Option.some.inj h⟩

#print axioms C05_section
#print axioms C05_section_length
#print axioms C05_notebook
#print axioms C05_truncation
#print axioms C05_consumes_prefix

end OneNote
