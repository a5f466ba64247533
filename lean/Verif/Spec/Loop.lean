/-
Meaning of `loop { if has_end_8(ty)? { break }; body }` without any fuel.
-/
import Verif.Model.Data

namespace OneNote.Spec

/-- `LoopRun ty body acc s k res`: started with accumulator `acc` on the bytes
`s`, the Rust loop executes its body `k` times (the last time possibly failing)
and ends with `res`. This is the big-step meaning of the loop; it has no
derivation for a loop that runs forever. -/
inductive LoopRun {σ : Type} (ty : ObjectType) (body : σ → P σ) :
    σ → Bytes → Nat → Res (σ × Bytes) → Prop where
  | headErr (acc s e) (h : ObjectHeader.hasEnd8 ty s = .error e) :
      LoopRun ty body acc s 0 (.error e)
  | done (acc s s') (h : ObjectHeader.hasEnd8 ty s = .ok (true, s')) :
      LoopRun ty body acc s 0 (.ok (acc, s'))
  | bodyErr (acc s s' e) (h : ObjectHeader.hasEnd8 ty s = .ok (false, s'))
      (hb : body acc s' = .error e) : LoopRun ty body acc s 1 (.error e)
  | step (acc s s' acc' s'' k res) (h : ObjectHeader.hasEnd8 ty s = .ok (false, s'))
      (hb : body acc s' = .ok (acc', s'')) (hr : LoopRun ty body acc' s'' k res) :
      LoopRun ty body acc s (k + 1) res

end OneNote.Spec
