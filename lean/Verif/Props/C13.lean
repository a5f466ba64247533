/-
C13: The embedded container is located by the transaction log.
-/
import Verif.Lemmas.Sample
import Verif.Spec.Store
import Verif.Lemmas.Rejected

namespace OneNote

open Spec

theorem version_reads {v : Nat} (h : KnownVersion v) (r : Bytes) :
    Packaging.parseVersion (leBytes 4 v ++ r) = .ok ((), r) := by
  unfold Packaging.parseVersion getU32
  rcases h with rfl | rfl
  · rw [P.bind_ok (getLE_leBytes_lt (by decide) _)]; rfl
  · rw [P.bind_ok (getLE_leBytes_lt (by decide) _)]; rfl

theorem getLE_any (n v : Nat) (r : Bytes) : getLE n (leBytes n v ++ r) = .ok (v % 256 ^ n, r) :=
  getLE_leBytes n v r

theorem storeHeader_reads (h : StoreFields) (h1 : KnownVersion h.lastWriterVersion)
    (h2 : KnownVersion h.oldestWriterVersion) (h3 : KnownVersion h.newestWriterVersion)
    (h4 : KnownVersion h.oldestReaderVersion) (hs : h.logStart < 2 ^ 64) (hl : h.logLength < 2 ^ 32)
    (r : Bytes) :
    Packaging.parseStoreHeader (storeFields h ++ r) = .ok ((h.logStart, h.logLength), r) := by
  unfold Packaging.parseStoreHeader Packaging.parseFcr64x32 storeFields getU64 getU32 getU8
  simp only [List.append_assoc]
  rw [P.bind_ok (version_reads h1 _), P.bind_ok (version_reads h2 _),
    P.bind_ok (version_reads h3 _), P.bind_ok (version_reads h4 _)]
  rw [P.bind_ok (getLE_any _ _ _), P.bind_ok (getLE_any _ _ _), P.bind_ok (getLE_any _ _ _),
    P.bind_ok (getLE_any _ _ _), P.bind_ok (getLE_any _ _ _), P.bind_ok (getLE_any _ _ _),
    P.bind_ok (getLE_any _ _ _), P.bind_ok (getLE_any _ _ _), P.bind_ok (getLE_any _ _ _),
    P.bind_ok (getLE_any _ _ _), P.bind_ok (getLE_any _ _ _), P.bind_ok (Guid.parse_guid _ _),
    P.bind_ok (getLE_any _ _ _), P.bind_assoc, P.bind_ok (getLE_any _ _ _), P.bind_assoc,
    P.bind_ok (getLE_any _ _ _), P.pure_bind, P.bind_ok (getLE_leBytes_lt (by simpa using hs) _),
    P.bind_ok (getLE_leBytes_lt (by simpa using hl) _)]
  rfl

/-- The header of a revision store is read as written, and the container is then read at absolute
file offset `logStart + logLength`; the three ways in which that position can be wrong are
rejected. -/
theorem C13_embedded_position (fileType file : Guid) (h : StoreFields) (body : Bytes)
    (h1 : KnownVersion h.lastWriterVersion)
    (h2 : KnownVersion h.oldestWriterVersion) (h3 : KnownVersion h.newestWriterVersion)
    (h4 : KnownVersion h.oldestReaderVersion) (hs : h.logStart < 2 ^ 64)
    (hl : h.logLength < 2 ^ 32) :
    let s := revisionStoreHead fileType file h ++ body
    let position := h.logStart + h.logLength
    Packaging.parse s =
      if position ≥ 2 ^ 64 then .error .malformedOneStore
      else if position < (revisionStoreHead fileType file h).length then .error .malformedOneStore
      else if position > s.length then .error .eof
      else Packaging.parseEmbedded (s.drop position) := by
  intro s position
  have hlen : (revisionStoreHead fileType file h).length = 172 := by
    simp [revisionStoreHead, storeFields]
  rw [hlen]
  have hs' : s = guid fileType ++ (guid file ++ (guid Guid.nil ++ (guid revisionStore ++
      (storeFields h ++ body)))) := by
    simp only [s, revisionStoreHead, List.append_assoc]
  have hsl : s.length = 172 + body.length := by
    simp only [s, List.length_append, hlen]
  rw [parse_eq_const]
  unfold parseConst
  rw [hs', P.bind_ok (Guid.parse_guid _ _), P.bind_ok (Guid.parse_guid _ _),
    P.bind_ok (Guid.parse_guid _ _), P.bind_ok (Guid.parse_guid _ _), ← hs', if_neg (by decide),
    if_neg (by decide), if_neg (by decide),
    P.bind_ok (storeHeader_reads h h1 h2 h3 h4 hs hl body)]
  unfold seekFrom
  by_cases hp : position ≥ 2 ^ 64
  · rw [if_pos hp]
    have : Packaging.fcrEnd (h.logStart, h.logLength) = .error .malformedOneStore := by
      unfold Packaging.fcrEnd
      exact if_neg (by show ¬ position < _; omega)
    rw [this]; rfl
  · rw [if_neg hp]
    have : Packaging.fcrEnd (h.logStart, h.logLength) = .ok position := by
      unfold Packaging.fcrEnd
      exact if_pos (by show position < _; omega)
    rw [this]
    simp only [P.ofRes, P.pure_bind]
    by_cases hp2 : position < 172
    · rw [if_pos hp2, if_pos hp2]; rfl
    · rw [if_neg hp2, if_neg hp2]
      by_cases hp3 : position > s.length
      · have ha : advance (position - 172) body = .error .eof := if_pos (by omega)
        rw [if_pos hp3, P.bind_err ha]
      · have ha : advance (position - 172) body = .ok ((), body.drop (position - 172)) :=
          if_neg (by omega)
        rw [if_neg hp3, P.bind_ok ha]
        have hd : List.drop (position - 172) body = List.drop position s := by
          simp only [s]
          rw [List.drop_append, hlen, List.drop_eq_nil_of_le (as := revisionStoreHead fileType file h)
            (by omega), List.nil_append]
        rw [hd]

/-- So a container written at that offset is read back. -/
theorem C13_embedded_round_trip (fileType file : Guid) (h : StoreFields) (log : Bytes)
    (a b c d : Guid) (si : ExGuid) (schema : Guid) (es : List Element) (bs rest : Bytes)
    (h1 : KnownVersion h.lastWriterVersion)
    (h2 : KnownVersion h.oldestWriterVersion) (h3 : KnownVersion h.newestWriterVersion)
    (h4 : KnownVersion h.oldestReaderVersion) (hs : h.logStart + h.logLength < 2 ^ 64)
    (hl : h.logLength < 2 ^ 32)
    (hpos : h.logStart + h.logLength = (revisionStoreHead fileType file h ++ log).length)
    (hb : PackagingTailEnc si schema es bs) :
    Packaging.parse ((revisionStoreHead fileType file h ++ log) ++
        (guid a ++ (guid b ++ (guid c ++ (guid d ++ (bs ++ rest)))))) =
      .ok (⟨a, b, c, d, si, schema, packageOf es⟩, rest) := by
  have := C13_embedded_position fileType file h
    (log ++ (guid a ++ (guid b ++ (guid c ++ (guid d ++ (bs ++ rest)))))) h1 h2 h3 h4 (by omega) hl
  simp only at this
  rw [List.append_assoc, this, if_neg (by omega), if_neg (by rw [hpos]; simp),
    if_neg (by rw [hpos]; simp), hpos, ← List.append_assoc, List.drop_left]
  unfold Packaging.parseEmbedded
  rw [P.bind_ok (Guid.parse_guid _ _), P.bind_ok (Guid.parse_guid _ _),
    P.bind_ok (Guid.parse_guid _ _), P.bind_ok (Guid.parse_guid _ _)]
  exact reads_legacy _ _ _ _ _ _ _ _ hb rest

/-- A header whose transaction log occupies bytes 172 to 174. -/
def sampleStore : StoreFields where
  lastWriterVersion := 0x2A
  oldestWriterVersion := 0x2A
  newestWriterVersion := 0x1B
  oldestReaderVersion := 0x2A
  legacyFreeChunkList := 0
  legacyTransactionLog := 0
  transactionCount := 1
  legacyExpectedFileLength := 0
  placeholder := 0
  legacyFileNodeListRoot := 0
  legacyFreeSpace := 0
  needsDefrag := 0
  repairedFile := 0
  needsGarbageCollect := 0
  hasNoEmbeddedFileObjects := 0
  ancestor := sampleGuid
  crcName := 0
  hashedChunkListStart := 0
  hashedChunkListLength := 0
  logStart := 172
  logLength := 3

example (rest : Bytes) : Packaging.parse ((revisionStoreHead sampleGuid Guid.nil sampleStore ++
    [9, 9, 9]) ++ (guid Guid.nil ++ (guid Guid.nil ++ (guid Guid.nil ++ (guid Guid.nil ++
      (sampleTail ++ rest)))))) =
    .ok (⟨Guid.nil, Guid.nil, Guid.nil, Guid.nil, ⟨sampleGuid, 1⟩, sampleGuid,
      packageOf sampleElements⟩, rest) :=
  C13_embedded_round_trip sampleGuid Guid.nil sampleStore [9, 9, 9] Guid.nil Guid.nil Guid.nil
    Guid.nil ⟨sampleGuid, 1⟩ sampleGuid sampleElements sampleTail rest (.inl rfl) (.inl rfl)
    (.inr rfl) (.inl rfl) (by decide) (by decide)
    (by simp [revisionStoreHead, storeFields, sampleStore]) sampleTail_enc

/-! ### Sections and notebooks -/

/-- With a position that overflows, lies in the header or beyond the end, the file is rejected by every
function of the parser. -/
theorem C13_rejected (fileType file : Guid) (h : StoreFields) (body : Bytes)
    (h1 : KnownVersion h.lastWriterVersion)
    (h2 : KnownVersion h.oldestWriterVersion) (h3 : KnownVersion h.newestWriterVersion)
    (h4 : KnownVersion h.oldestReaderVersion) (hs : h.logStart < 2 ^ 64)
    (hl : h.logLength < 2 ^ 32)
    (hp : 2 ^ 64 ≤ h.logStart + h.logLength ∨
      h.logStart + h.logLength < (revisionStoreHead fileType file h).length ∨
      (revisionStoreHead fileType file h ++ body).length < h.logStart + h.logLength) :
    Rejected (revisionStoreHead fileType file h ++ body) .malformedOneStore ∨
      Rejected (revisionStoreHead fileType file h ++ body) .eof := by
  have := C13_embedded_position fileType file h body h1 h2 h3 h4 hs hl
  simp only at this
  by_cases hp1 : h.logStart + h.logLength ≥ 2 ^ 64
  · rw [if_pos hp1] at this
    exact .inl (rejected_of this)
  · rw [if_neg hp1] at this
    by_cases hp2 : h.logStart + h.logLength < (revisionStoreHead fileType file h).length
    · rw [if_pos hp2] at this
      exact .inl (rejected_of this)
    · rw [if_neg hp2, if_pos (by omega)] at this
      exact .inr (rejected_of this)

/-- The section in an embedded container is the one in the container itself: a revision store with a
container at the end of its transaction log shows what the container shows as a file of its own. -/
theorem C13_section (fileType file : Guid) (h : StoreFields) (log : Bytes) (a b c : Guid) (si : ExGuid)
    (schema : Guid) (es : List Element) (bs rest : Bytes) (h1 : KnownVersion h.lastWriterVersion)
    (h2 : KnownVersion h.oldestWriterVersion) (h3 : KnownVersion h.newestWriterVersion)
    (h4 : KnownVersion h.oldestReaderVersion) (hs : h.logStart + h.logLength < 2 ^ 64)
    (hl : h.logLength < 2 ^ 32)
    (hpos : h.logStart + h.logLength = (revisionStoreHead fileType file h ++ log).length)
    (hb : PackagingTailEnc si schema es bs) (fuel : Nat) (ord : Order) (name : Text) :
    parseSectionBuffer fuel ord ((revisionStoreHead fileType file h ++ log) ++
        (guid a ++ (guid b ++ (guid c ++ (guid packageStore ++ (bs ++ rest)))))) name =
      parseSectionBuffer fuel ord
        (guid a ++ (guid b ++ (guid c ++ (guid packageStore ++ (bs ++ rest))))) name := by
  have e1 := C13_embedded_round_trip fileType file h log a b c packageStore si schema es bs rest h1 h2 h3
    h4 hs hl hpos hb
  have e2 : Packaging.parse (guid a ++ (guid b ++ (guid c ++ (guid packageStore ++ (bs ++ rest))))) =
      .ok (⟨a, b, c, packageStore, si, schema, packageOf es⟩, rest) := by
    rw [parse_eq_const]
    unfold parseConst
    rw [P.bind_ok (Guid.parse_guid _ _), P.bind_ok (Guid.parse_guid _ _),
      P.bind_ok (Guid.parse_guid _ _), P.bind_ok (Guid.parse_guid _ _), if_pos (by decide)]
    exact reads_legacy _ _ _ _ _ _ _ _ hb rest
  exact buffer_of_parse e1 e2

#print axioms C13_rejected
#print axioms C13_section
#print axioms C13_embedded_position
#print axioms C13_embedded_round_trip

end OneNote
