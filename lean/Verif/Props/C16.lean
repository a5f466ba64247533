/-
C16: Object property streams round trip.
-/
import Verif.Lemmas.PropSetGood

namespace OneNote

open Spec

/-- The lists fit into their streams: 24-bit counts, 8-bit and 24-bit id fields. -/
def StreamOk (l : List CompactId) : Prop := l.length < 2 ^ 24 ∧ ∀ c ∈ l, CompactIdOk c

/-- The three identifier streams and the property set are read back exactly as written; the
object space stream is absent exactly when the first header says so, the context stream is present
exactly when the second header announces it (`ObjectPropSetEnc`). -/
theorem C16_round_trip (oids osids ctx : List CompactId) (es : List (Nat × PropertyValue))
    (bs rest : Bytes) (h : ObjectPropSetEnc oids osids ctx es bs) (h1 : StreamOk oids)
    (h2 : StreamOk osids) (h3 : StreamOk ctx) :
    ObjectPropSet.parse (bs ++ rest) = .ok (⟨oids, osids, ctx, setOf es⟩, rest) :=
  objectPropSet_reads h h1 h2 h3 rest

/-- Conversely, whatever is accepted is such a serialisation. -/
theorem C16_accepts_only (s rest : Bytes) (o : ObjectPropSet)
    (h : ObjectPropSet.parse s = .ok (o, rest)) :
    StreamOk o.objectIds ∧ StreamOk o.objectSpaceIds ∧ StreamOk o.contextIds ∧
    ∃ es bs, ObjectPropSetEnc o.objectIds o.objectSpaceIds o.contextIds es bs ∧
      s = bs ++ rest ∧ o.properties = setOf es :=
  objectPropSet_only s rest o h

/-- All three streams, and a reserved header bit set. -/
example : ObjectPropSet.parse
    ([1, 0, 0, 0x01,  0xDD, 0xCC, 0xBB, 0xAA,
      2, 0, 0, 0x40,  1, 2, 0, 0,  3, 0, 0, 0,
      1, 0, 0, 0x80,  9, 1, 0, 0,
      1, 0,  4, 0x1C, 0, 0x88] ++ [5, 6]) =
    .ok (⟨[⟨0xDD, 0xAABBCC⟩], [⟨1, 2⟩, ⟨3, 0⟩], [⟨9, 1⟩], setOf [(0x1C04, .bool true)]⟩, [5, 6]) :=
  C16_round_trip _ _ _ _ _ _
    (.contexts 1 0 0 false false false true [⟨1, 2⟩, ⟨3, 0⟩] [⟨9, 1⟩] _ [1, 0, 4, 0x1C, 0, 0x88]
      (by decide) (by decide) (by decide)
      (.mk _ [4, 0x1C, 0, 0x88] [] (by decide) (.cons 0x1C04 2 true _ _ _ _ _ (by decide) (.bool _) .nil)))
    ⟨by decide, by simp [CompactIdOk]⟩ ⟨by decide, by simp [CompactIdOk]⟩
    ⟨by decide, by simp [CompactIdOk]⟩

#print axioms C16_round_trip
#print axioms C16_accepts_only

end OneNote
