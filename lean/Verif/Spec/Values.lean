/-
What the values of properties mean ([MS-ONE] 2.2 and 2.3): how a stored value reads as a number, a
text, a colour and so on. Nothing here mentions the model's functions.
-/
import Verif.Spec.Utf16
import Verif.Spec.Layout
import Verif.Spec.NoteTag
import Verif.Spec.Ink
import Verif.Spec.MultiByte

namespace OneNote.Spec

/-- `R v a`: the stored value `v` reads as `a`. -/
abbrev Reading (α : Type) := PropertyValue → α → Prop

namespace Value

def bool : Reading Bool := fun v b => v = .bool b
def u8 : Reading Nat := fun v n => v = .u8 n
def u16 : Reading Nat := fun v n => v = .u16 n
def u32 : Reading Nat := fun v n => v = .u32 n
def u64 : Reading Nat := fun v n => v = .u64 n
def bytes : Reading Bytes := fun v d => v = .vec d

/-- A 32-bit floating point number, as its bit pattern. -/
def f32 : Reading F32 := fun v n => v = .u32 n

/-- A signed 32-bit number in two's complement. -/
def i32 : Reading Int := fun v i => ∃ n, v = .u32 n ∧ i = if n < 2 ^ 31 then (n : Int) else n - 2 ^ 32

/-- A text in UTF-16, up to the end or a NUL. -/
def text : Reading (List Char) := fun v t =>
  ∃ tail, v = .vec (utf16 t ++ tail) ∧ nul ∉ t ∧ EndsText tail

/-- A flag that is shown negated. -/
def notBool : Reading Bool := fun v b => v = .bool (!b)

/-- A file name as stored in a table of contents: `^M` stands for `+` and `^J` for `,`. -/
inductive Unescaped : List Char → List Char → Prop where
  | nil : Unescaped [] []
  | plus {s t : List Char} : Unescaped s t → Unescaped ('^' :: 'M' :: s) ('+' :: t)
  | comma {s t : List Char} : Unescaped s t → Unescaped ('^' :: 'J' :: s) (',' :: t)
  | other {c : Char} {s t : List Char} : ¬ (c = '^' ∧ ∃ r, s = 'M' :: r ∨ s = 'J' :: r) →
      Unescaped s t → Unescaped (c :: s) (c :: t)

def filename : Reading (List Char) := fun v t => ∃ s, text v s ∧ Unescaped s t

/-- A text in Latin-1: every byte is the character of that number. -/
def latin1 : Reading (List Char) := fun v t => ∃ d, v = .vec d ∧ t = d.map fun b => Char.ofNat b.toNat

/-- 16-bit numbers one after the other; an odd last byte does not count. -/
def u16s : Reading (List Nat) := fun v ns =>
  ∃ tail, v = .vec (ns.flatMap (leBytes 2) ++ tail) ∧ tail.length < 2 ∧ ∀ n ∈ ns, n < 2 ^ 16

/-- 32-bit numbers one after the other; up to three last bytes do not count. -/
def u32s : Reading (List Nat) := fun v ns =>
  ∃ tail, v = .vec (ns.flatMap (leBytes 4) ++ tail) ∧ tail.length < 4 ∧ ∀ n ∈ ns, n < 2 ^ 32

/-- A GUID; further bytes do not count. -/
def guid : Reading Guid := fun v g => ∃ tail, v = .vec (Spec.guid g ++ tail)

/-- A count, three unused bytes, and that many floating point numbers ([MS-ONE] 2.2.2); further bytes
do not count. -/
def indents : Reading (List F32) := fun v ns =>
  ∃ a b c tail, v = .vec (leBytes 1 ns.length ++ [a, b, c] ++ ns.flatMap (leBytes 4) ++ tail) ∧
    ns.length < 2 ^ 8 ∧ ∀ n ∈ ns, n < 2 ^ 32

/-- The column locks of a table: a count, then the bits of the columns. The count is not used. -/
def columnLocks : Reading Bytes := fun v locks => ∃ d, v = .vec d ∧ locks = d.tail

/-- The column widths of a table: a count, then a floating point number for every column. The count
is not used. -/
def columnWidths : Reading (List F32) := fun v ws => ∃ d, v = .vec d ∧ u32s (.vec d.tail) ws

/-- A colour with transparency: red, green, blue, transparency, from the lowest byte. -/
def color : Reading Color := fun v c => ∃ n, v = .u32 n ∧ c.r = n % 256 ∧ c.g = n / 2 ^ 8 % 256 ∧
  c.b = n / 2 ^ 16 % 256 ∧ c.alpha = 255 - n / 2 ^ 24 % 256

/-- A colour that may be automatic (highest byte 0xFF). -/
def colorRef : Reading ColorRef := fun v c => ∃ n, v = .u32 n ∧
  ((n / 2 ^ 24 % 256 = 0xFF ∧ c = .auto) ∨
   (n / 2 ^ 24 % 256 = 0 ∧ c = .manual (n % 256) (n / 2 ^ 8 % 256) (n / 2 ^ 16 % 256)))

/-- A layout alignment: nothing when the highest bit is set, otherwise its fields. -/
def layout : Reading (Option LayoutAlignment) := fun v r => ∃ n, v = .u32 n ∧
  ((n / 2 ^ 31 % 2 = 1 ∧ r = none) ∨
   (n / 2 ^ 31 % 2 = 0 ∧ ∃ h, horizontals[n % 8]? = some h ∧ r = some
    { horizontal := h
      marginHorizontal := if n / 2 ^ 3 % 2 = 0 then .right else .left
      vertical := if n / 2 ^ 16 % 2 = 0 then .bottom else .top
      marginVertical := if n / 2 ^ 19 % 2 = 0 then .bottom else .top }))

/-- The character sets by code ([MS-ONE] 2.3.55). -/
def charsets : List (Nat × Charset) :=
  [(0, .ansi), (1, .default), (2, .symbol), (77, .mac), (128, .shiftJis), (129, .hangul),
   (130, .johab), (134, .gb2312), (136, .chineseBig5), (161, .greek), (162, .turkish),
   (163, .vietnamese), (177, .hebrew), (178, .arabic), (186, .baltic), (204, .russian), (222, .thai),
   (238, .eastEurope), (255, .oem)]

def charset : Reading Charset := fun v c => ∃ n, v = .u8 n ∧ (n, c) ∈ charsets

/-- The page sizes by code ([MS-ONE] 2.3.36). -/
def pageSizes : List PageSize :=
  [.auto, .us, .ansiLetter, .ansiTabloid, .usLegal, .isoA3, .isoA4, .isoA5, .isoA6, .jisB4, .jisB5,
   .jisB6, .japanesePostcard, .indexCard, .billfold, .custom]

def pageSize : Reading PageSize := fun v s => ∃ n, v = .u8 n ∧ pageSizes[n]? = some s

/-- The kind of recording ([MS-ONE] 2.3.24). -/
def fileType : Reading FileType := fun v t =>
  (v = .u32 1 ∧ t = .audio) ∨ (v = .u32 2 ∧ t = .video)

/-- The alignment of a paragraph ([MS-ONE] 2.3.94). -/
def paragraphAlignment : Reading ParagraphAlignment := fun v a => ∃ n, v = .u8 n ∧
  a = if n = 0 then .left else if n = 1 then .center else if n = 2 then .right else .unknown

/-- The status bits of a note tag ([MS-ONE] 2.3.91). -/
def itemStatus : Reading ActionItemStatus := fun v s => ∃ unused, v = .u16 (itemStatusWord s unused)

/-- The status bits of a note tag definition ([MS-ONE] 2.3.87). -/
def definitionStatus : Reading NoteTagPropertyStatus := fun v s =>
  ∃ u4 u5 rest, v = .u32 (definitionStatusWord s u4 u5 rest)

/-- The type of a note tag ([MS-ONE] 2.3.85). -/
def itemType : Reading ActionItemType := fun v t => ∃ n, v = .u16 n ∧ itemTypeCode t n

/-- The shape of a note tag ([MS-ONE] 2.3.86). -/
def shape : Reading NoteTagShape := fun v s => v = .u16 (shapeCode s)

/-- A character that is one UTF-16 unit. -/
def unit : Reading Char := fun v c => ∃ n, v = .u16 n ∧ ¬ Leading n ∧ ¬ Trailing n ∧ c = Char.ofNat n

/-- UTF-16 units read as text; a surrogate that is not part of a pair reads as U+FFFD. -/
inductive Lossy : List Nat → List Char → Prop where
  | nil : Lossy [] []
  | char (c : Char) {us : List Nat} {t : List Char} : Lossy us t → Lossy (utf16Units c ++ us) (c :: t)
  | unpaired {u : Nat} {us : List Nat} {t : List Char} :
      Trailing u ∨ (Leading u ∧ ∀ v rest, us = v :: rest → ¬ Trailing v) → Lossy us t →
      Lossy (u :: us) (Char.ofNat 0xFFFD :: t)

/-- The format of a number list ([MS-ONE] 2.3.20): the first unit is its length and does not belong
to the text. -/
def listFormat : Reading (List Char) := fun v t => ∃ n us, u16s v (n :: us) ∧ Lossy us t

/-- The limits of an ink data node: four numbers; any other number of values is no box. -/
def box : Reading (Option (Nat × Nat × Nat × Nat)) := fun v r => ∃ ns, u32s v ns ∧
  ((∃ a b c d, ns = [a, b, c, d] ∧ r = some (a, b, c, d)) ∨ (ns.length ≠ 4 ∧ r = none))

/-- The dimensions of a stroke: 32 bytes each; remaining bytes do not count. -/
def dimensions : Reading (List InkDimension) := fun v ds => ∃ rests tail,
  v = .vec ((ds.zip rests).flatMap (fun e => Ink.dimension e.1 e.2) ++ tail) ∧
  rests.length = ds.length ∧ (∀ r ∈ rests, r.length = 8) ∧ tail.length < 32 ∧
  ∀ d ∈ ds, (-2 ^ 31 ≤ d.limitLower ∧ d.limitLower < 2 ^ 31) ∧
    (-2 ^ 31 ≤ d.limitUpper ∧ d.limitUpper < 2 ^ 31)

/-- One number of an ink path at the front of the data: at most ten bytes, of which the last has its
top bit clear or is the last of the data; the number is kept to 64 bits. -/
def Number (data : Bytes) (n : Nat) (rest : Bytes) : Prop :=
  ∃ bs, data = bs ++ rest ∧ bs.length ≤ 10 ∧ n = Ink.value bs % 2 ^ 64 ∧
    (Ink.Complete bs ∨ (bs ≠ [] ∧ rest = [] ∧ ∀ b ∈ bs, Ink.more b))

/-- Numbers one after the other; what follows them does not count. -/
inductive Numbers : Bytes → List Nat → Prop where
  | nil {data : Bytes} : Numbers data []
  | cons {data rest : Bytes} {n : Nat} {ns : List Nat} :
      Number data n rest → Numbers rest ns → Numbers data (n :: ns)

/-- The path of a stroke: how many numbers there are, then the numbers, each with its sign in the
lowest bit. -/
def path : Reading (List Int) := fun v is => ∃ data k rest ns, v = .vec data ∧ Number data k rest ∧
  Numbers rest ns ∧ ns.length = k / 2 ∧ is = ns.map Ink.unzigzag

/-- What a stroke may be: handwriting, drawing or both. -/
def bias : Reading InkBias := fun v b =>
  (v = .u8 0 ∧ b = .handwriting) ∨ (v = .u8 1 ∧ b = .drawing) ∨ (v = .u8 2 ∧ b = .both)

/-- The math object kinds by code. -/
def mathTypes : List (Nat × MathObjectType) :=
  [(0, .simpleText), (10, .accent), (11, .box), (12, .boxedFormula), (13, .brackets),
   (14, .bracketsWithSeps), (15, .equationArray), (16, .fraction), (17, .functionApply),
   (18, .leftSubSup), (19, .lowerLimit), (20, .matrix), (21, .nary), (22, .opChar), (23, .overbar),
   (24, .phantom), (25, .radical), (26, .slashedFraction), (27, .stack), (28, .stretchStack),
   (29, .subscript), (30, .subSup), (31, .superscript), (32, .underbar), (33, .upperLimit),
   (0x90000000, .plainText)]

end Value

end OneNote.Spec
