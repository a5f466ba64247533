/-
C76: Parsing nests a bounded number of calls.

The functions of the code that read outlines and property sets call themselves for what is in the
outline or in the set, without a limit. The model gives them a number of nested calls `n` and returns
`Err.fuel` if that is not enough: in the code that is where a stack for `n` calls would overflow.
-/
import Verif.Lemmas.Doubling
import Verif.Lemmas.Nesting
import Verif.Props.C14
import Verif.Props.C41
import Verif.Props.C43
import Verif.Props.C47
import Verif.Spec.SampleFile

namespace OneNote

open Spec

/-- **The calls that are needed**: a section is parsed with `n` nested calls if and only if at most
`n` of its outline groups and elements are in each other. -/
theorem C76_calls (m n : Nat) (ord : Order) (data : Bytes) (name : Text) (s : Section)
    (h : parseSectionBuffer m ord data name = .ok s) :
    parseSectionBuffer n ord data name = .ok s ↔ DepthAtMost n s := by
  obtain ⟨store, hr, hsc, hs⟩ := (C43_buffer ord data name s).1 ⟨m, h⟩
  have : parseSectionBuffer n ord data name = parseSectionStore n store name := by
    unfold parseSectionBuffer
    rw [hr]
    show (if store.schema ≠ sectionSchema then _ else _) = _
    rw [if_neg (fun hn => hn hsc)]
  rw [this, Nesting.section_exact]
  exact ⟨fun h => h.2, fun h => ⟨hs, h⟩⟩

theorem C76.deep (n : Nat) : Nests (n + 1) (Doubling.tree n) := by
  induction n with
  | zero => exact .one _
  | succ n ih => exact .more (.group (.head _)) ih

/-- **Refuted**: no number of nested calls is enough. For every number there is a file, some hundred
bytes long for each call, which is a section but cannot be parsed with that number of nested calls. -/
theorem C76_refuted (n : Nat) (hn : n < 2 ^ 31) (name : Text) :
    ∃ data fuel s, data.length ≤ 5000 + 500 * n ∧
      (∀ ord, parseSectionBuffer fuel ord data name = .ok s) ∧
      ∀ ord, parseSectionBuffer n ord data name = .error .fuel := by
  obtain ⟨p, hp, -, o, ho, hi⟩ := Doubling.page_is n
  obtain ⟨hplain, s, hs, he⟩ := Written.section_written (Doubling.nodup n) (Doubling.good n)
    (Doubling.fitting hn) hp name
  obtain ⟨fuel, hf⟩ := C47_section_complete _ name s hplain hs
  refine ⟨_, fuel, s, Doubling.file_length n, hf, fun ord => ?_⟩
  have hno : parseSectionBuffer n ord (Written.fileFor (Doubling.page n)) name ≠ .ok s := by
    intro h
    have := (C76_calls fuel n ord _ name s (hf ord)).1 h (n + 1)
      ⟨p, o, _, ⟨_, by rw [he]; exact .head _, .head _⟩, .inl ho, hi, C76.deep n⟩
    omega
  rcases Nat.le_total n fuel with h | h
  · rcases refines_buffer h ord (Written.fileFor (Doubling.page n)) name with h | h
    · exact h
    · exact absurd (h.trans (hf ord)) hno
  · rcases refines_buffer h ord (Written.fileFor (Doubling.page n)) name with h | h
    · rw [hf ord] at h; cases h
    · exact absurd (h.symm.trans (hf ord)) hno

/-- **What holds**: the nested calls are never more than the file has bytes. What is missing is a
bound that does not depend on the file. -/
theorem C76_partial (m : Nat) (ord : Order) (data : Bytes) (name : Text) (s : Section)
    (h : parseSectionBuffer m ord data name = .ok s) :
    DepthAtMost data.length s ∧ parseSectionBuffer data.length ord data name = .ok s := by
  obtain ⟨store, hr, -, hs⟩ := (C43_buffer ord data name s).1 ⟨m, h⟩
  have hd : DepthAtMost data.length s := fun k hk => Nesting.file_depth (readStore_sound hr) hs hk
  exact ⟨hd, (C76_calls m _ ord data name s h).2 hd⟩

/-- The property set with no properties in `n` property sets. -/
def C76.sets : Nat → List (Nat × PropertyValue)
  | 0 => []
  | n + 1 => [(1, .propertySet (setOf (C76.sets n)))]

def C76.bytes : Nat → Bytes
  | 0 => [0, 0]
  | n + 1 => [1, 0, 1, 0, 0, 0x44] ++ C76.bytes n

theorem C76.bytes_length (n : Nat) : (C76.bytes n).length = 6 * n + 2 := by
  induction n with
  | zero => rfl
  | succ n ih =>
    rw [C76.bytes, List.length_append, ih]
    show 6 + _ = _
    omega

theorem C76.enc (n : Nat) : SetEnc (C76.sets n) (C76.bytes n) := by
  induction n with
  | zero => exact .mk [] [] [] (by decide) .nil
  | succ n ih =>
    have := SetEnc.mk (C76.sets (n + 1)) _ _ (by simp [C76.sets])
      (.cons 1 _ false _ _ _ _ _ (by decide) (.propertySet _ _ _ ih) .nil)
    rw [List.append_nil, List.append_nil, ← List.append_assoc] at this
    refine cast (congrArg (SetEnc _) (congrArg (· ++ _) ?_)) this
    show leBytes 2 1 ++ leBytes 4 (idWord 1 17 false) = _
    decide +kernel

theorem C76.out_of_calls (n : Nat) (rest : Bytes) :
    PropertySet.parseFuel n (C76.bytes n ++ rest) = .error .fuel := by
  induction n with
  | zero => rfl
  | succ n ih =>
    show PropertySet.parseWith (PropertySet.parseFuel n)
      (1 :: 0 :: 1 :: 0 :: 0 :: 0x44 :: (C76.bytes n ++ rest)) = _
    generalize C76.bytes n ++ rest = l at ih
    generalize PropertySet.parseFuel n = q at ih
    have hw : PropertyId.propType 0x44000001 = 0x11 := by decide +kernel
    have h : PropertySet.parseEntry q (0x44000001, 0) l = .error .fuel := by
      unfold PropertySet.parseEntry PropertyValue.parseWith
      rw [hw]
      exact P.bind_err (P.bind_err ih)
    have h2 : (1 :: 0 :: 1 :: 0 :: 0 :: 0x44 :: l : Bytes) = leBytes 2 1 ++ (leBytes 4 0x44000001 ++ l) := by
      rw [show leBytes 2 1 = [1, 0] by decide +kernel,
        show leBytes 4 0x44000001 = [1, 0, 0, 0x44] by decide +kernel]
      rfl
    have h4 : PropertyId.parse (leBytes 4 0x44000001 ++ l) = .ok (0x44000001, l) :=
      getLE_leBytes_lt (n := 4) (v := 0x44000001) (by decide) l
    have h5 : replicateP PropertyId.parse 1 (leBytes 4 0x44000001 ++ l) = .ok ([0x44000001], l) := by
      unfold replicateP
      rw [P.bind_ok h4]
      rfl
    unfold PropertySet.parseWith
    rw [h2, P.bind_ok (show getU16 (leBytes 2 1 ++ _) = .ok (1, _) from getLE_leBytes_lt (by decide) _),
      P.bind_ok h5]
    exact P.bind_err (P.bind_err h)

/-- **Refuted**, for property sets: six bytes of a file are enough for each nested call. -/
theorem C76_sets_refuted (n : Nat) (rest : Bytes) :
    ∃ ps, PropertySet.parse (C76.bytes n ++ rest) = .ok (ps, rest) ∧ (C76.bytes n).length = 6 * n + 2 ∧
      PropertySet.parseFuel n (C76.bytes n ++ rest) = .error .fuel :=
  ⟨_, C14_round_trip _ _ rest (C76.enc n), C76.bytes_length n, C76.out_of_calls n rest⟩

/-- A page whose outline has an element in an element in an element needs three nested calls. -/
private def three : List SampleObject :=
  [outlineW 3001 [3002], outlineElementW 3002 [3003] [] [], outlineElementW 3003 [3004] [] [],
    outlineElementW 3004 [] [] []]

example : ∃ s, parseSectionBuffer 3 Order.id (sectionFile none [3001] three) ['N'] = .ok s ∧
    DepthAtMost 3 s ∧ ¬ DepthAtMost 2 s ∧
    parseSectionBuffer 2 Order.id (sectionFile none [3001] three) ['N'] = .error .fuel := by
  have h3 : (parseSectionBuffer 3 Order.id (sectionFile none [3001] three) ['N']).toOption.isSome = true := by
    decide +kernel
  have h2 : (match parseSectionBuffer 2 Order.id (sectionFile none [3001] three) ['N'] with
      | .error .fuel => true
      | _ => false) = true := by
    decide +kernel
  obtain ⟨s, hs⟩ := Option.isSome_iff_exists.1 h3
  have hs := toOption_some hs
  replace h2 : parseSectionBuffer 2 Order.id (sectionFile none [3001] three) ['N'] = .error .fuel := by
    generalize parseSectionBuffer 2 Order.id (sectionFile none [3001] three) ['N'] = x at h2 ⊢
    split at h2
    · rfl
    · cases h2
  refine ⟨s, hs, (C76_calls 3 3 _ _ _ s hs).1 hs, fun h => ?_, h2⟩
  rw [(C76_calls 3 2 _ _ _ s hs).2 h] at h2
  cases h2

#print axioms C76_calls
#print axioms C76_refuted
#print axioms C76_partial
#print axioms C76_sets_refuted

end OneNote
