/-
Files whose container cannot be read are rejected by every function of the parser.
-/
import Verif.Spec.Rejected
import Verif.Lemmas.Container
import Verif.Lemmas.Good
import Verif.Spec.Write

namespace OneNote

open Spec

theorem rejected_of {data : Bytes} {e : Err} (h : Packaging.parse data = .error e) : Rejected data e := by
  have hr : ∀ ord, readStore ord data = .error e := by
    intro ord
    have : Packaging.parse.run data = .error e := by
      unfold P.run
      rw [h]
    unfold readStore
    rw [this]
    rfl
  refine ⟨fun fuel ord name => ?_, fun env path hp => ?_, fun env n path hp => ?_⟩
  · unfold parseSectionBuffer
    rw [hr]
    rfl
  · unfold parseSectionFile
    rw [hp]
    show (readStore env.ord data >>= _) = _
    rw [hr]
    rfl
  · unfold parseNotebook
    rw [hp]
    show (readStore env.ord data >>= _) = _
    rw [hr]
    rfl

/-- Files with the same container show the same section. -/
theorem buffer_of_parse {data data' rest rest' : Bytes} {p : Packaging}
    (h : Packaging.parse data = .ok (p, rest)) (h' : Packaging.parse data' = .ok (p, rest'))
    {fuel : Nat} {ord : Order} {name : Text} :
    parseSectionBuffer fuel ord data name = parseSectionBuffer fuel ord data' name := by
  unfold parseSectionBuffer readStore P.run
  rw [h, h']

/-- What stands before the data elements of a package store. -/
def storeStart (a b c : Guid) (h bi : Bytes) (schema : Guid) (t : Bytes) : Bytes :=
  guid a ++ (guid b ++ (guid c ++ (guid packageStore ++
    (leBytes 4 0 ++ (h ++ (bi ++ (guid schema ++ t)))))))

theorem rejected_package {a b c schema : Guid} {h bi t : Bytes} {si : ExGuid} {e : Err}
    (hh : Start32 .oneNotePackaging h) (hi : ExGuidEnc si bi) (hp : Package.parse t = .error e) :
    Rejected (storeStart a b c h bi schema t) e := by
  apply rejected_of
  unfold storeStart
  rw [parse_eq_const]
  unfold parseConst
  rw [P.bind_ok (Guid.parse_guid _ _), P.bind_ok (Guid.parse_guid _ _),
    P.bind_ok (Guid.parse_guid _ _), P.bind_ok (Guid.parse_guid _ _), if_pos (by decide)]
  unfold Packaging.parseLegacy getU32
  rw [P.bind_ok (getLE_leBytes_lt (by decide) _), if_neg (by decide),
    P.bind_ok (tryParse32_start hh _), P.bind_ok (exGuid_enc hi _),
    P.bind_ok (Guid.parse_guid _ _), P.bind_err hp]

end OneNote
