/-
Byte cursor, errors and the parser monad.

Models /repo/src/reader.rs and /repo/src/errors.rs.
-/

namespace OneNote

/-- A byte string (the `&[u8]` inside `Reader`, /repo/src/reader.rs L4). -/
abbrev Bytes := List UInt8

/-- Error kinds of /repo/src/errors.rs L69-137, without their message text.
`panic` and `fuel` are not `ErrorKind`s: `panic` stands for a Rust panic
(index/slice/arithmetic), `fuel` for a loop of the model running out of the
iteration budget it was given (theorems show when this cannot happen). -/
inductive Err where
  | eof                 -- UnexpectedEof
  | notATocFile
  | notASectionFile
  | tocFileMissing
  | malformedData       -- MalformedData
  | malformedOneNote    -- MalformedOneNoteData
  | malformedOneNoteFile -- MalformedOneNoteFileData
  | malformedOneStore   -- MalformedOneStoreData
  | malformedFssHttpB   -- MalformedFssHttpBData
  | invalidUuid
  | io
  | utf16Error
  | utf16MissingNull
  | invalidPath
  | panic
  | fuel
  deriving DecidableEq, Repr, Inhabited

/-- `Result<T>` of /repo/src/errors.rs L10. -/
abbrev Res (α : Type) := Except Err α

-- Outcomes can be compared (used to evaluate examples).
deriving instance DecidableEq for Except

/-- A parser: takes the unread bytes, returns a value and the bytes left
unread. Models functions `fn(&mut Reader) -> Result<T>`. The reader position
after an error is dropped: every caller in /repo propagates errors with `?`. -/
def P (α : Type) : Type := Bytes → Res (α × Bytes)

namespace P

@[inline] def pure' (a : α) : P α := fun s => .ok (a, s)

@[inline] def bind' (p : P α) (f : α → P β) : P β := fun s =>
  match p s with
  | .ok (a, r) => f a r
  | .error e => .error e

instance : Monad P where
  pure := pure'
  bind := bind'

/-- `Err(e)?` -/
@[inline] def fail (e : Err) : P α := fun _ => .error e

/-- `opt.ok_or(e)?` -/
@[inline] def ofOption (e : Err) : Option α → P α
  | some a => pure a
  | none => fail e

/-- `res?` for a result that does not read from the reader. -/
@[inline] def ofRes : Res α → P α
  | .ok a => pure a
  | .error e => fail e

end P

/-- Little-endian value of a byte list (`from_le_bytes`). -/
def leNat : Bytes → Nat
  | [] => 0
  | b :: bs => b.toNat + 256 * leNat bs

/-- `Reader::remaining`, /repo/src/reader.rs L26-28. -/
def remaining : P Nat := fun s => .ok (s.length, s)

/-- `Reader::read`, /repo/src/reader.rs L11-20. -/
def readN (n : Nat) : P Bytes := fun s =>
  if s.length < n then .error .eof else .ok (s.take n, s.drop n)

/-- `Reader::advance`, /repo/src/reader.rs L30-38. -/
def advance (n : Nat) : P Unit := fun s =>
  if s.length < n then .error .eof else .ok ((), s.drop n)

/-- `n` bytes as a little-endian number. Models the `get_u*` family below and
the "check `remaining() < n`, `from_le_bytes` over the first `n` bytes padded
with zeroes, `advance(n)`" pattern of /repo/src/fsshttpb/data/compact_u64.rs
L42-105. -/
def getLE (n : Nat) : P Nat := fun s =>
  if s.length < n then .error .eof else .ok (leNat (s.take n), s.drop n)

/-- `Reader::get_u8`, /repo/src/reader.rs L40-44. -/
def getU8 : P Nat := getLE 1
/-- `Reader::get_u16`, /repo/src/reader.rs L46-50. -/
def getU16 : P Nat := getLE 2
/-- `Reader::get_u32`, /repo/src/reader.rs L52-56. -/
def getU32 : P Nat := getLE 4
/-- `Reader::get_u64`, /repo/src/reader.rs L58-62. -/
def getU64 : P Nat := getLE 8

/-- `reader.bytes().first().ok_or(UnexpectedEof)?` (peek, nothing consumed):
/repo/src/fsshttpb/data/compact_u64.rs L26 and
/repo/src/fsshttpb/data/stream_object.rs L27, L200. -/
def peekU8 : P Nat := fun s =>
  match s with
  | [] => .error .eof
  | b :: _ => .ok (b.toNat, s)

/-- `(0..n).map(|_| p(reader)).collect::<Result<Vec<_>>>()?` and
`for _ in 0..n { values.push(p(reader)?) }`. -/
def replicateP (p : P α) : Nat → P (List α)
  | 0 => pure []
  | n + 1 => do
    let a ← p
    let as ← replicateP p n
    pure (a :: as)

end OneNote
