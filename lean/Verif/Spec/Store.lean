/-
The header of a revision store file ([MS-ONESTORE] 2.3.1), as far as the code
reads it: bytes 64 to 171 of the file.
-/
import Verif.Spec.Container

namespace OneNote.Spec

/-- The header fields behind the four leading GUIDs. -/
structure StoreFields where
  lastWriterVersion : Nat
  oldestWriterVersion : Nat
  newestWriterVersion : Nat
  oldestReaderVersion : Nat
  legacyFreeChunkList : Nat
  legacyTransactionLog : Nat
  transactionCount : Nat
  legacyExpectedFileLength : Nat
  placeholder : Nat
  legacyFileNodeListRoot : Nat
  legacyFreeSpace : Nat
  needsDefrag : Nat
  repairedFile : Nat
  needsGarbageCollect : Nat
  hasNoEmbeddedFileObjects : Nat
  ancestor : Guid
  crcName : Nat
  hashedChunkListStart : Nat
  hashedChunkListLength : Nat
  logStart : Nat
  logLength : Nat

/-- The 108 bytes of the header fields, in file order. -/
def storeFields (h : StoreFields) : Bytes :=
  leBytes 4 h.lastWriterVersion ++ (leBytes 4 h.oldestWriterVersion ++
  (leBytes 4 h.newestWriterVersion ++ (leBytes 4 h.oldestReaderVersion ++
  (leBytes 8 h.legacyFreeChunkList ++ (leBytes 8 h.legacyTransactionLog ++
  (leBytes 4 h.transactionCount ++ (leBytes 4 h.legacyExpectedFileLength ++
  (leBytes 8 h.placeholder ++ (leBytes 8 h.legacyFileNodeListRoot ++
  (leBytes 4 h.legacyFreeSpace ++ (leBytes 1 h.needsDefrag ++ (leBytes 1 h.repairedFile ++
  (leBytes 1 h.needsGarbageCollect ++ (leBytes 1 h.hasNoEmbeddedFileObjects ++
  (guid h.ancestor ++ (leBytes 4 h.crcName ++
  (leBytes 8 h.hashedChunkListStart ++ (leBytes 4 h.hashedChunkListLength ++
  (leBytes 8 h.logStart ++ leBytes 4 h.logLength)))))))))))))))))))

/-- `{109ADD3F-911B-49F5-A5D0-1791EDC8AED8}`: the revision store format. -/
def revisionStore : Guid :=
  ⟨0x10, 0x9A, 0xDD, 0x3F, 0x91, 0x1B, 0x49, 0xF5, 0xA5, 0xD0, 0x17, 0x91, 0xED, 0xC8, 0xAE, 0xD8⟩

/-- `{638DE92F-A6D4-4BC1-9A36-B3FC2511A5B7}`: the package store format. -/
def packageStore : Guid :=
  ⟨0x63, 0x8D, 0xE9, 0x2F, 0xA6, 0xD4, 0x4B, 0xC1, 0x9A, 0x36, 0xB3, 0xFC, 0x25, 0x11, 0xA5, 0xB7⟩

/-- The version numbers the format defines. -/
def KnownVersion (v : Nat) : Prop := v = 0x2A ∨ v = 0x1B

/-- The first 172 bytes of a revision store without a legacy version. -/
def revisionStoreHead (fileType file : Guid) (h : StoreFields) : Bytes :=
  guid fileType ++ (guid file ++ (guid Guid.nil ++ (guid revisionStore ++ storeFields h)))

end OneNote.Spec
