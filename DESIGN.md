# Formal model of msiemens/onenote.rs

The code is a parser library (Rust) for OneNote files. It is layered:
`reader` (byte cursor) → `fsshttpb` (container format) → `onestore` (object
store: property sets, revisions, object spaces) → `one` (typed properties) →
`onenote` (sections, pages, outlines, notebooks). The model follows the same
layers. The properties are in `properties.jsonl`; the theorem names per
property are in `MANIFEST.json`.

## How the model is built

* Language: Lean 4.33, project `lean/`, modules under `lean/Verif/`.
  * `Verif/Model/*`: the model, one definition per Rust function, each with a
    comment citing the file and lines. Total, computable functions.
  * `Verif/Spec/*`: small specifications that do not mention the model's
    parsers: encoders for the file format, list/relational descriptions of
    results.
  * `Verif/Lemmas/*`: helper lemmas.
  * `Verif/Props/*`: the property theorems, one file per property (or small
    group), with non-vacuity `example`s and `#print axioms`.
* Byte strings are `List UInt8`. A parser is a function
  `List UInt8 → Except Err (α × List UInt8)`: the remaining input is returned,
  which models the `&mut Reader`. After an error the Rust code always
  propagates with `?`, so the reader state after an error is unobservable and
  is dropped.
* Integers are `Nat` (decoded from bytes, therefore in range; the range facts
  are proved where they matter). Where the Rust truncates (`as u8`, `u64`
  shifts in `multi_byte`) the model truncates explicitly with `%`.
* `usize` is 64 bits wide (`size as usize` of a `u64` is the identity). On a
  32-bit target that cast truncates: `Model/Narrow.lean`, C80.
* Errors: `Err` has one constructor per `ErrorKind`, without the message text.
  Extra constructors: `panic` (an index/slice/arithmetic panic of the Rust
  code) and `fuel` (a loop or recursion used up the fuel the model gave it).
  `fuel` is not a Rust outcome: theorems show when it cannot occur, or that it
  occurs for every fuel (non-termination).
* Loops `loop { if has_end_8 {break}; ... }` become recursion on a fuel
  argument; the callers pass the input length + 1. C07 proves that the fuel
  value is irrelevant, so this is not a restriction.
* `HashMap` becomes an association list with unique keys (`insert` replaces,
  later wins). Iteration (`values()`) is in an order that Rust leaves
  unspecified: iteration goes through an explicit order parameter (any
  permutation), so that order (in)dependence is a theorem (C24). The order is
  a function of the iteration site and of the map: two maps with the same
  contents are visited at a site in the same order within one call, while Rust
  seeds every map separately. For files without ambiguous revisions this makes
  no difference (C24, C49); counterexamples only use orders that one map can
  have.
* `f32` values are kept as their 32-bit patterns; products with scale factors
  are kept symbolic (pair of scale pattern and integer) and evaluated as IEEE
  754 binary32 numbers in `Model/Float.lean` (C64, C65).
* Files and directories (`parse_notebook`) are a small abstract file system:
  a structure of functions (`exists`, `isFile`, `read`, `canonicalize`,
  `readDir`), universally quantified in the theorems.

## Trusted base

* Lean's kernel, and the axioms listed by `#print axioms` for each property
  theorem: at most `propext`, `Classical.choice`, `Quot.sound`. No axioms of
  our own, no `sorry`, no `native_decide`/`bv_decide`.
* The reading of the Rust source: nothing is executed from /repo. Library
  behaviour assumed: `bytes::Buf::try_get_*_le` (error without consuming when
  short), `Uuid::from_bytes`/`parse_str`, `widestring::U16CString::from_vec_truncate`
  (cut at first NUL) and `to_string` (error on unpaired surrogates),
  `encoding_rs::mem::decode_latin1`, `itertools::sorted_by_key` (stable) and
  `dedup_by` (adjacent), `enum_primitive_derive`/`num_traits` conversions
  (`from_uN` is `None` outside the table; `to_u8` is the discriminant),
  `HashMap` (a finite map; `collect` and `insert` keep the last value),
  `str::trim_end_matches`, the arithmetic of `f32` (IEEE 754 binary32, nearest, ties to even), `Uuid::parse_str` and `{:X}` of `uuid` 1.x, `std::path::Path::components`, `sanitise_file_name::sanitise`
  (only its result being compared with the name matters).
* The file system is a snapshot that does not change during a call, except in C81 and C82, where other
  programs may change it between any two of the parser's file operations (`Model/Timed.lean`; opening a
  file and reading it to the end is one operation, and so is listing a directory). Paths are
  Unix paths as lists of components, except in C88 and C89, where they are Windows paths
  (`Model/Windows.lean`, from the documentation and source of `std::path`; names are compared with their
  case, and device names and trailing dots are up to the abstract disk); file names are text (names that are not
  valid UTF-8 are left out). `sanitise` is an arbitrary function.
* What is modelled, by file under /repo/src: `reader.rs`, `utils.rs`,
  `shared/*`, `fsshttpb/**`, `onestore/**`, `one/**`, `onenote/**` (all parsing
  functions and the accessors that compute something: `Page::title_text`,
  `InkBoundingBox::scale`), `bin/onenote-parse.rs` (which parser runs and whether it panics). Left
  out: plain accessors, `lib.rs`,
  `errors.rs` except the list of error kinds.
* Not modelled: stack and memory limits (a stack overflow is not a `panic` of
  the model, see C41 and C76), the text of error messages and
  backtraces, which NaN a floating point operation returns, `Debug`/`Display` output (except that of GUIDs), `log` output, the operating system below the abstract file system, 32-bit
  targets above the container (see C80), concurrency (the code has none).

## Plan per property

"Refuted" means: reading the code shows the property is false of it. For those
the negation is proved with a concrete witness, and the part that does hold is
proved with the suffix `_partial`.

| id | modelled | proof |
|----|----------|-------|
| C01 | `CompactU64::parse` on byte lists | spec encoder for each width `w` (`(v·2^w + 2^(w-1))` in `w` little-endian bytes; 0x80 + 8 bytes; 0x00); round trip for all values by little-endian arithmetic lemmas; conversely every accepted input is one of these encodings |
| C02 | `ExGuid::parse` | spec encoder for the five forms; round trip; rejection of every other first byte (finite table of 256 first bytes) |
| C03 | `Guid::parse` | explicit 16-byte permutation; injectivity, surjectivity, EOF |
| C04 | `ObjectHeader::*` | spec encoders; round trips; rejection |
| C05 | all `fsshttpb` parsers | a predicate `Local` on parsers (prefix-determined, every proper prefix of the consumed bytes gives EOF), closed under bind, proved for each parser bottom-up |
| C06 | same, plus `parse_section_buffer` | second half of `Local` |
| C07 | same | fuel irrelevance: for all fuels above the input length the result is the same and is not `fuel` |
| C08 | same | size measure on parsed values, bounded by consumed bytes, bottom-up |
| C09 | `DataElementPackage::parse`, `OneStorePackaging::parse` | encoders as relations (any width choice); induction on element lists |
| C10 | `parse_data_element_fragment` | refuted: the end marker is not consumed. Witness; `_partial`: what is accepted |
| C11 | `parse_object_group_metadata` | refuted: 0x79 does not fit the 6 bits of an 8-bit end header, so the loop can never end; proved for every input |
| C12 | `OneStorePackaging::parse` | case analysis on the decision order |
| C13 | `parse_packaging` | offset arithmetic against absolute file offsets |
| C14 | `PropertySet::parse`, `PropertyValue::parse` | encoder by structural recursion on trees; induction on trees |
| C15 | `PropertySet::get/index` | association-list lookup against "last pair with this key" |
| C16 | `ObjectPropSet::parse` | round trip |
| C17 | `ObjectReference` | offset = sum over the earlier properties in file order; slice spec |
| C18 | `ObjectSpaceReference` | refuted (position is relative, not absolute); `_partial` when compact ids are not repeated, or the offset is 0 |
| C19 | `note_tag_container`, `text_run_data` | refuted (all nested sets use the first slice); `_partial` for the first set |
| C20 | `MappingTable` | spec on the entry list |
| C21 | `ObjectSpace::parse`, `Revision::parse` | induction along the chain; first declaration wins |
| C22 | same | refuted (`extend` overwrites: oldest wins); `_partial`: exact characterisation |
| C23 | same | refuted by a manifest that is its own base: `fuel` for every fuel; `_partial`: terminates when the chain is finite (acyclic) |
| C24 | `parse_store` with order parameter | refuted with two storage manifests; `_partial`: order-independent result when the fallbacks are unambiguous |
| C25 | `Parser::parse_*` | decision logic |
| C26 | everything | refuted by two panics; `_partial`: all other layers never return `panic` |
| C27 | `multi_byte` | encoder; induction on the list |
| C28 | `decode_uint` | refuted (truncated and 10-byte overflow accepted); `_partial`: more than 10 bytes, empty, and missing elements are errors |
| C29 | `parse_ink_path` | index arithmetic |
| C30 | `ink_container`, `stroke_properties_node` | refuted (x used twice; width/height swapped); `_partial`: what is returned |
| C31 | `utf16_to_string` | UTF-16 encoder over scalar values; induction |
| C32 | `resolve_entry_path` | component-wise model of paths |
| C33 | `parse_toc` | sortedness, stability, permutation |
| C34 | `parse_toc` | refuted (only adjacent repeats removed); `_partial`: no two adjacent names equal |
| C35 | `parse_notebook` over the abstract file system | list spec |
| C36 | `parse_section` name logic | refuted for repeated suffix (`a.one.one` → `a`); `_partial` |
| C37–C39 | decoders | bit-field specs over the whole word range |
| C40 | `onenote` layer | positional (`mapM`) spec |
| C41 | `onenote` layer | refuted for cyclic graphs; `_partial` for graphs in which no object that can be got to from a root is its own descendant |
| C42 | `parse_notebook` over the abstract file system | refuted for the bare file name (the empty directory path does not resolve); `_partial`: two directory paths that resolve alike give equal results |
| C43 | all node parsers and the document layer (Model/Nodes, Document, Outline, Section); Spec/Words (identifiers), Spec/Values (what values mean), Spec/Fields (presence, types, references), Spec/Objects (one structure per kind of object), Spec/Document (what is shown where) | `X.parse o = .ok n ↔ IsX o n` for every kind of object (Lemmas/Objects, Objects2), then equivalences for leaves, and for outlines soundness by induction on the nested calls and completeness by induction on the size of the result, using that more calls only refine the result |
| C44 | the readings of Spec/Objects, the declared types of Spec/Declared; complete sample file | refuted: `PageNode.parse` demands a u8 for an identifier that declares u32 (for every page, and with a complete file); for every other property a value of the declared type that is accepted |
| C45 | Packaging.parse and everything below it; a grammar of what is accepted (Spec.LaxFile) next to the legal grammar | inversion of every reader of the container layer; equivalence Packaging.parse = ok <-> LaxFile, refutation of the legal reading by two witnesses |
| C46 | the whole object-store level: storage index and manifest selection, header, cells, revision chains, object groups, objects, mapping tables | a separate description StoreIs of the store in terms of the data elements (no parsing functions); soundness by inversion of each parser with the invariant that the object map holds exactly the first declarations; completeness by replaying the chain; the fuel bound via C23 |
| C47 | the whole path from bytes to a section | composition of C45 (bytes to data elements), C46 (data elements to store) and C43 (store to section); every document parser depends on a store only through its answers (Lemmas/SameSpace) |
| C48 | whole pipeline from the file system to the Notebook | C45, C46, C47 for the files, induction over the directory nesting with C33/C35 for the tables of contents |
| C49 | the whole reader of section files, from bytes to section | Two packages whose maps agree at every identifier that is looked up describe the same store (C46). Distinct elements give the same maps in any order; left-out elements are never looked up. Then C47. |
| C50 | the whole reader, from bytes to section and notebook | C47 and C48; induction over where a content appears; file data is a blob of the package, which stands in the bytes between two headers. |
| C51 | Model/Outline, Section; Spec/Amount (itemsShown, ListIn) | refuted: for every n a file of at most 5000 + 500 n bytes shows 2^n groups, built with the writer and read through C47; partial: every list at any depth is at most as long as the file; and if no part is referred to twice (Spec/Parts, Unshared), the objects visited are distinct (unique parents make the reference graph below the root a tree), so a page has at most as many parts as the file has bytes |
| C52 | `Page.titleText`, `Outline.text` | Case analysis on the shape of the page; induction on its contents for the first outline with a text (Spec/Title.lean says what the text must be). |
| C53 | `unescapeFilename`, `TocContainer.parse`, `parseNotebook` | Refuted: the section file `^M` is silently left out. Proved: a name comes back exactly when it contains neither `^M` nor `^J` (induction on the name), and an entry is then read with its own name. |
| C54 | `cliMain`, `unwrap`, `Path.extension`, `componentsOf` | Refuted: a table of contents `T.ONETOC2`, which the library opens, makes the program panic. Proved: a notebook is shown exactly when the name ends in `.onetoc2` and the library opens it as a notebook, a section exactly when the name does not and the library opens it as a section; the program shows a document or panics. |
| C56 | `parseSectionStore`, `parsePageSeries`, `parsePage`, on stores and on a whole section file | Refuted: a page whose content object is missing makes the whole section an error. Proved: each page shown is the page in its own object space, and between two stores that differ only in the object spaces of other pages, a page that is shown in both is the same. |
| C57 | `parseRichText`, `RichTextNode.parse`, `decodeUtf16`, on whole section files | Refuted by three section files: a position beyond the text; fitting runs of which the first is a drawing, where the text is shown as empty and the positions are kept; a text with a character above U+FFFF, as the positions count units of UTF-16. Proved: positions in characters are positions in the stored units exactly for texts without characters above U+FFFF; without such characters and drawings the text, the positions and the number of formats are the stored ones, and fit if the stored ones do. |
| C55 | `parseContent`, `parsePageContent`, on whole section files | Refuted for every kind number below 2^32 that is not in the table of known kinds: a page that holds such an object makes the file unreadable, with any amount of fuel and any hash order. Proved: a known kind that cannot stand at the place is shown as unknown, and what is shown is an element of the named kind exactly when the object is of that kind. |
| C58 | `parseTable`, `TableNode.parse`, the documented calculation as `documented`, on whole section files | Refuted: a table that says seven rows is shown with one; the documented calculation calls a locked second column not locked, never finds a locked column but every eighth, and panics for a table without the property. Proved: the counts shown are the stored ones, with one row and cell for each reference; the calculation is right for every eighth column, and for all columns with `!= 0` for `== 1`. |
| C59 | The document parsers as in C43. `Spec/Reach.lean`: the references recorded for an object, the objects that can be got to from the roots. | Every identifier that a node parser returns is recorded in the table of the object (from the exact descriptions of the nodes), so all parsers agree on two spaces that agree on a set closed under references; induction on the nesting of the recursive ones. For what is shown, the space is replaced by the space without the other objects. |
| C60 | Nodes.lean, References.lean, Document.lean; which definition is stored for a tag is said in Spec/Tags.lean from the position of its identifier in the stream of the object | Refuted from the bytes of a file: a paragraph with two note tags shows the definition of the first one twice. Partial, for every shown text, image, attachment and table: the number, order, time and status of the tags, and the definition for every tag with no identifier used by the sets before it (so the first) |
| C61 | Store.lean, Section.lean; Spec/History.lean says which object groups of a file are overwritten | Refuted for roots from the bytes of two files: a root that only an older revision declares is shown although the newest revision replaces it. Partial: two files that differ only in object groups whose objects newer groups declare too show the same section, by showing that the first group that declares an object is the same in both, through the exact description of the store (C46) |
| C62 | `Spec/Paragraph.lean`: the stored text of an object and when a run is an embedded object. Sections as in `C43`. | `C62_text_partial` for every paragraph shown (`content_object`, `C43_buffer`); the stored text is unique (`C62_unique`). Refuted for paragraphs with embedded objects with a section file (`C62_refuted`). |
| C63 | `Model/GuidText.lean`: `Guid::from_str`, `Display` and `guid!`, with the documented behaviour of `uuid`. `Spec/GuidText.lean`: the text of 16 stored bytes from the numbers, and which texts denote a GUID. | Digit by digit (`digitValue_iff`, over all characters), then by induction over the digits (`hexBytes_iff`) and over the four forms (`C63_read_iff`). `C63_shown` by arithmetic on the stored numbers. `C63_constants` evaluates the nine literals. |
| C64 | `as f32`, `*` and `-` of IEEE 754 binary32 on bit patterns (Model/Float), applied to the symbolic coordinates | spec of correct rounding (nearest, ties to even, overflow); the model rounds correctly and the spec has one solution; monotonicity and exactness of rounding by arithmetic on powers of two |
| C65 | as C64, through the whole section parser | refuted with two complete files (scale NaN; scale 2^127 with small coordinates). `_partial`: without a scale or with a scale of at most 2^64 all coordinates and the box are finite, for every section |
| C66 | the whole section parser; Spec/FileNames says what a plain name is | refuted with the bytes of a section file with an attachment called `../x`. `_partial`: every name is exactly the text that is stored for it and has no NUL, through C43 and the description of what a page shows |
| C67 | the whole section parser; Spec/FormulaRuns counts the runs | induction over the runs (`Formulas`, `EmbeddedAre` of Spec/Document) through C43. The number of formulas is refuted with the bytes of a section file in which data is stored for two of three runs |
| C68 | `InkBoundingBox::scale` with the arithmetic of Model/Float | from correct rounding and monotonicity of the product (C64). `C68_edges_are_rounded` shows that position plus width is not the scaled right edge, so the claim is not made for it |
| C69 | the whole path from the bytes of a section file to the document. The specification has a writer, `Spec/WriteDocument` on `Spec/WriteNode` and `Spec/WriteTree`, and says which documents can be stored, `Spec/Storable`; neither mentions the parsers | each written object is read back as the part of the document it was written for, by recursion on the document; the objects lie in the store and the store in the bytes (`Lemmas/Write*`); then the completeness of C47 |
| C70 | the whole path from bytes to sections and notebooks; `Spec/Storable` says what can be stored | the values in the property sets of a file fit their fields, by the description of the encoding (C14, C45, C46); then by recursion on the document that `SectionIs` describes (`Lemmas/Bounded*`); the converse is C69 |
| C71 | A writer for tables of contents (Spec/WriteToc) beside the writer for sections, a saved notebook with its file names and what it means that it is on a disk (Spec/Folder), and a concrete disk. | The written table of contents has the names (toc_written through the tree writer, now for any schema); by induction over the saved notebook the files describe the notebook (notebook_is), with C69 for the sections; C48, strengthened so that only files that are read must be unambiguous, gives the result. The concrete disk is shown to hold the files by induction over the path. |
| C72 | `parseSectionBuffer`, `parseSectionFile`, `parseNotebook` | comparison of two runs step by step; induction over the section groups of a notebook |
| C73 | Model/Notebook; Spec/Located (Opens, prune, Deleted) | parsed notebooks are the located trees (by C35, induction on the depth); a deletion prunes the tree: names resolve to the same paths, the filter of existing paths drops the deleted ones, the first table of contents of a directory stays |
| C74 | Two files whose data elements correspond by a bijection of extended GUIDs that fixes the nil one, the two root names of a storage manifest and the four root roles (`Spec/Rename.lean`); the bytes of property sets stay the same, because they only hold counts of references. | By the exactness theorems of C45, C46, C43 and C48 a parse is a relation between elements, store and document; each relation is preserved by the renaming (maps renamed on both sides, structural induction on the document), and the inverse renaming gives the converse. |
| C75 | The whole chain from bytes to sections and notebooks (Model/*). | `readKeys` lists the 162 properties that are read; `SayTheSame` relates two lists of stored properties (same reference-taking properties in the same order, same values of the others that are read). Lookups, reference positions and nested sets agree (Lemmas/SameProperties, SameObjects), so packages with related object groups have related stores (Lemmas/SameStore) and related stores show the same document (Lemmas/SameDocument); C47 and C48 carry this to the parser, in both directions. |
| C76 | recAt and PropertySet.parseFuel with the number of nested calls they are given | the parser with n nested calls returns exactly what is stored and at most n deep, by induction on n; nested items are read from different objects, each declared in the file; the doubling file of C51 is n+1 deep; nested property sets by induction |
| C77 | files, data elements, stores and pages | the page is what its own object space says (C56); the space is determined by the roots, the object groups and the file data of its revisions (C46); kept elements and fresh identifiers leave all lookups on the way from the index to the groups as they were |
| C78 | `parseNotebook`, `parseEntry`, `parseGroup`, `parseSectionFile` over two file systems that differ in the contents of section files | the notebook is exactly the tree of files the tables of contents lead to (`Opens`, C48); replacing the contents of section files keeps this tree |
| C79 | as C78, the new contents of one file being unreadable | for every notebook and every damaged listed file the result is an error (`C79_all_lost`), a concrete notebook whose second section lost its last byte (`C79_refuted`), files that are not listed may be damaged (`C79_partial`) |
| C80 | `Model/Narrow.lean`: the functions that convert to `usize`, for a `usize` of `w` bits | a relation between parsers (what the wide one accepts the narrow one accepts), closed under bind and loops, bottom-up; equality for `w` = 64; concrete file and object for the refutation |
| C81 | `Model/Timed.lean`: `parse_notebook` as a sequence of file operations, each on the disk as it is at that time | refuted by two sections saved between the two reads; `_partial`: induction over the nesting, each section comes from one read; conservativity over the untimed model by simulation |
| C82 | `Model/Timed.lean`: every `exists`, `is_file`, `canonicalize`, `read_dir` and read is one operation at its own time | refuted by a link made between the check and the read, with an outside file that no moment shows; `_partial`: relational induction over two timed runs |
| C83 | `Model/Notebook.lean` | induction over the place of the group or section in the notebook, with C35 for one level |
| C84 | all of the model; every function that can fail | instance search over all parsers with a class for the kinds they report; exact characterisation for buffers and files; induction over the nesting for notebooks |
| C85 | places on a page and the objects stored for them (`Spec/Places.lean`) over the document model | induction over places, with uniqueness of what an object shows and locality of parsing (C59) |
| C86 | `Model/Messages.lean`: the same functions with errors that carry the path of `NotATocFile`, `NotASectionFile` and `TocFileMissing` | refuted by a notebook of two sections of which one or the other is cut off; `_partial`: induction on the nesting; erasing the paths gives the rest of the model |
| C87 | The whole path from the bytes of a section file to the section, as for C47 and C77. The file with the edits is described by its data elements: what is kept, what is added, and the new storage index (`Resaved`). `FilePage` is the page that a file stores for a cell. | The first object space and the object spaces of the pages left alone are equal in the two files, since their histories are (C77). The section described by the objects then has the same list of pages, with the page of each cell described by its own object space (C43), and by C47 it is what is read. |
| C88 | `Model/Windows.lean`: the parsing of Windows paths into components, `join`, `push`, `starts_with`, from the documentation and source of std, and the notebook functions over them | the pieces pushed are names without separators; a name with a colon is changed by the sanitiser, so no piece is taken for a drive; that the sanitiser is needed is shown with the entry `a\C:\b` |
| C89 | `Model/Windows.lean` beside the Unix paths; `Spec/Windows.lean`: disks with the same files | refuted by a notebook with the entry `g\s`; `_partial`: both path parsers agree on names without backslashes and colons, then induction on the nesting |
| C90 | The whole path from the bytes of a section file to the section, as for C47, C77 and C87. `FileHeading` is the name and color that a file stores, `FileCells` its list of pages, `FilePage` the page it stores for an entry. `SavedPages` describes a file that is saved again by its data elements; unlike `Resaved` of C87 it says nothing about the cell with the list of the pages. | The description of a section by its objects (C43, C47) splits into the heading, the list and the pages. A page left alone has the same object space in both files (C77), hence the same page. The section put together from the heading, the new list and these pages is described by the new file, so by C47 it is what is read. |
| C91 | `parse_notebook` with the file system as for C32, where symbolic links show in what `canonicalize` returns. `sectionsOf` counts the sections of a notebook, `FilesAt` bounds the places at which there are files, `NoLinks` says that different paths are different places, `ListsOnce` that tables of contents list ordinary names once. | A notebook is a tree of entries with their paths (C73). If names are ordinary and listed once, the paths of the entries of a directory differ in their last name and everything below an entry has its path as a prefix, so all files of sections are different. For the refutation the tree of entries is built by induction on the length of the chain. |
| C92 | The store that `parse_store` returns: the object spaces of the section and of all other cells with their objects. `HoldsAtLeast n` says that there are n different pairs of a space and an object in it. The bytes that an object takes are not counted. | Upper bound: every object held is declared in an object group and every space belongs to a cell mapping, and the file has at least a byte for each of both (C08). Refutation: the file with n cells for one revision is written out for every n, read back through the exactness theorems (C45, C46, C47), and its length is bounded. |
| C93 | `parse_notebook` as for C32 and C48, the writer of C69 and C71. `NotebookOk` says what can be stored, `NotebookWithin` gives the limits, `ManyNames` says that the sanitiser leaves enough names. | Names in tables of contents are unescaped texts, so they have no NUL and no escape; the names of groups are pieces of them that passed the path checks. The files are named by recursion over the groups: a name that is not used yet for each section and each table of contents, the names of the groups for their directories. Then C71 applies. That there are enough names is the pigeonhole principle for words of 26 letters. |
| C94 | Spec/SameProperties.lean: `Carried` is a property with its references, `CarriesTheSame` says that two lists have the same properties that are read with the same references, `MovedElement K` relates object groups whose objects are stored from such lists. `Countable` is what the library needs: no references in single nested property sets, and identifiers of nested property sets used once in the object. The order of properties that take references to object spaces is kept. | The partial theorem: a property's place in the list of identifiers is the number of references before it, so an own-position lookup in the table finds its own reference wherever it is (`MappingTable.lookup_at`); nested property sets ask at another place but their identifiers are unique (`lookup_once`). `Same.View` was reduced to what is seen of an object (values, references, nested sets), so that both the old relation of `C75` and this one give it, and everything above is shared with `C75`. Two refutations, one for each part of `Countable`. |
| C95 | Spec/Moved.lean: `Copied` relates the directory `a` of one disk to `a'` of another: the same files, the same entries of directories in any order, and every path that resolves to a place inside of the one resolves to the same place inside of the other. `OneToc`: every directory is listed completely and has at most one table of contents. `SameOrder`: directories are listed in the same order. The model is that of C48 (`Model/Notebook.lean`). | Two partial theorems, by induction on the nesting of section groups: the paths of all entries are the directory followed by the same names (`Moved.resolveAll_moved`), an entry that exists and is accepted is inside, so its directory is again a copy (`Moved.copied_below`), and of a listing with at most one table of contents the order does not matter (`Moved.sameToc_of_one`). The refutation is a section group with two tables of contents. |
| C96 | Model/Counted.lean: the functions of `Model/Store.lean` with a count of the cells, revision manifests, root declarations, group references and group declarations gone through, of the bytes and references of each object that is parsed, and of the table entries searched. `C96_same_program` says that the results are the same. Reading the bytes into the package is not counted (C08 bounds it). | Refuted with a family of section files of 5000 + 700 n bytes (`Lemmas/Repeated.lean`: n cells with the same revision, which refers n + 1 times to the same group of n objects) that takes at least n * n * n steps. `C96_partial` proves the third power of the size as an upper bound for every outcome (`Lemmas/Steps.lean`): the revisions of a history that ends are distinct, an object is parsed at most once each time its group is gone through, and cells, references and declarations together are at most the size (C08). |
| C97 | `Model/Notebook.lean`. `Spec/Rearranged.lean` says when an entry is a copy of another (`SameEntry`), which entries are visible, and what an entry under another name is (`Retitled`). | `C97_rearranged`. `C35` splits both notebooks into their entries. For a section, `C72` says what another name does. For a section group, the directory is a copy (`C95`), so its notebook is the same. |
| C98 | `Model/Nodes.lean` (`parseListFormat`, `NumberListNode.parse`), `Model/Document.lean` (`parseList`). `Spec/ListFormat.lean` says what the stored format is (`StoredFormat`) and which list formats are shown in a section (`ListOf`). That the first unit is a length is taken from [MS-ONE] 2.3.20, which the code refers to and whose first unit it leaves out. | Refuted with two section files: one whose stored length is smaller than the number of units, and one with half a surrogate pair. `C98_partial` proves for all files that a shown format is stored by an object of the file and consists of all units after the first, and is the stored format if the length counts all of them and they are a text. |
| C99 | `Model/Checked.lean`: every function of the code with integer arithmetic on numbers from the input, with operations that panic on overflow. `Spec/Arithmetic.lean` says which objects the parser looks at. | Each function with checks is equal to the one without. For references the sum is bounded by the bytes of the object: each list of references takes at least four bytes and counts fewer than 2^32. The theorems are about the functions one by one; the rest of the parser does no arithmetic. `C99_narrow_refuted` shows that 64 bits are needed: with a 32-bit `usize` a small file makes a build with overflow checks panic. |
| C100 | `Model/Nodes.lean` (`PageMetadata.parse`, which reads the mark), `Model/Document.lean` and `Model/Section.lean` (`parsePage`, `parsePageSeries`, `parseSectionBuffer`). `Spec/Deleted.lean` says what a marked page is (`Marked`) and when two files differ in the metadata of pages only (`SameButMarks`). | Refuted with a section file whose only page is marked and is shown. `C100_ignored` proves for all files that the mark has no effect: two files that differ in it are read as the same section, or refused with the same error. `C100_partial` proves the other half of the property: the pages that are shown are exactly those that are listed, each in its place. |
| C101 | `Model/Nodes.lean` (`PageMetadata.parse`, with the cast `as i32` as `toI32`), `Model/Section.lean` (`parsePage`). `Spec/PageLevel.lean` says what the stored level of a page is. | Refuted with a section file whose page has the stored level 2^32 - 1 and is shown with the level -1. `C101_partial` proves for all files that every page is shown with its stored level if this is less than 2^31, with zero if none is stored, and with a negative number otherwise. |
| C102 | `Model/Notebook.lean` (`parseNotebook`, `keepEntry`, `resolveEntryPath`). `Spec/RecycleBin.lean` says which paths are in a recycle bin and when two file systems differ only there. | Refuted with a table of contents that lists `OneNote_RecycleBin/s`, and with a disk that ignores the case of letters and a table of contents that lists `onenote_recyclebin`. `C102_partial` proves by induction on the nesting of section groups that notebooks on two disks that differ only in recycle bins are the same if no listed name contains `OneNote_RecycleBin/`, and `C102_windows_partial` the same for Windows. |
| C103 | `Model/Notebook.lean` (`parseNotebook`, `parseSectionGroup`, `findToc`). `Spec/Unlisted.lean` says when a file system is another one with added files, and when these are not listed. | Refuted with a section group into whose directory macOS puts `._x.onetoc2`, the file with the attributes of `x.onetoc2`: it is taken for the table of contents and the notebook can no longer be opened. `C103_partial` proves by induction on the nesting of section groups that added files that are not listed change nothing if none comes before the table of contents of its directory with a name that ends in `.onetoc2`. |

## Findings (differences between code and property)

Each of these is a theorem `Cxx_..._refuted` with a concrete witness (a byte
string, a store or a file system), next to a `_partial` theorem for the part
that holds.

| id | what the code does | where |
|----|--------------------|-------|
| C10 | The fragment parser reads no end header and reads `size` rather than chunk-length bytes, so the element loop then fails on the end header of every well-formed fragment. | `data_element_fragment.rs` L36-55 |
| C11 | The metadata block (type 0x79) can never be closed: an 8-bit end header has 6 bits of type. No group with a metadata block is ever accepted. | `object_group.rs` L274-293 |
| C17 | Reference lists silently drop identifiers that the mapping table does not resolve, so later references shift. A nested property set (as opposed to an array of them) is not counted when offsets are computed. | `object_reference.rs` L36-86 |
| C18 | The position used to resolve a repeated compact id is relative to the property instead of to the stream. | `object_space_reference.rs` L42 |
| C19 | All nested property sets of one property use the identifier slice of the first; the object-space ids are taken from the object-id stream. | `note_tag_container.rs` L86-116, `text_run_data.rs` |
| C22 | Roots of older revisions overwrite those of newer revisions. | `revision.rs` L62-66 |
| C23 | A revision that is (indirectly) its own base makes the loop run forever. | `object_space.rs` L85-98 |
| C24 | With several storage manifests, or several mappings with one serial number, the result depends on hash map iteration order. | `data_element/mod.rs` L115-127, `storage_index.rs` L35-42 |
| C26 | Two panics: a number list whose stored format is empty (`data[1..]`), and a paragraph with more embedded ink objects than references. Both have a complete file as witness. | `number_list_node.rs` L67, `rich_text.rs` L457 |
| C28 | An ink number cut off by the end of the data is accepted; bits shifted out of 64 bits are lost. | `multi_byte.rs` L58-94 |
| C30 | The vertical scale is read from the horizontal scaling property; stroke width and height are swapped. | `ink_container.rs`, `stroke_properties_node.rs` |
| C32 | The table of contents of a section group is opened without the check that other entries get, so a symbolic link can lead out of the notebook. | `onenote/mod.rs` L152-183 |
| C34 | Only adjacent repeats of a name are removed. | `notebook.rs` L43 |
| C36 | `trim_end_matches` removes `.one` repeatedly (`a.one.one` becomes `a`). | `section.rs` L72 |
| C40 | A reference without an entry in the object's mapping table is dropped rather than reported. | `object_reference.rs` L57-64 |
| C41 | An outline element, table cell or table-of-contents entry that contains itself makes the parser recurse without end (in practice: a stack overflow, which aborts the process). | `outline.rs`, `table.rs`, `notebook.rs` |
| C42 | A notebook opened by its bare file name (the usage example in the crate documentation) is an `InvalidPath` error as soon as one of its entries exists, because the parent of a bare name is the empty path, which does not canonicalize. | `onenote/mod.rs` L72-90, `lib.rs` L21 |
| C44 | The page size has an identifier of type `U32`, but the reader demands a `U8`: a section with a page that stores its size in the declared type is rejected as a whole. | `one/property/page_size.rs`, `one/property/mod.rs` |
| C45 | A serial number is accepted with any non-zero type byte (the format has only 0x80), and a data element fragment is accepted only without the end header the format requires, so ill-formed containers are accepted. | src/fsshttpb/data/serial_number.rs SerialNumber::parse; src/fsshttpb/data_element/data_element_fragment.rs |
| C51 | A section file of 37 000 bytes makes the parser build 2^64 outline groups: each reference to an object is followed anew, so groups that refer to the next one twice double the document at every level (`C51_doubling_refuted`) | src/onenote/outline.rs, parse_outline_group and parse_outline_item |
| C53 | A section whose file name contains `^M` or `^J` is looked for under another name (`+`, `,`): it is left out of the notebook without an error, or another section is shown in its place. Of two sections `^M` and `+` one is shown. | toc_container.rs L29-30 |
| C54 | The program takes a file for a table of contents only if its extension is `onetoc2` in lower case; a file `T.ONETOC2` is opened as a section and the program panics, though the library can open it as a notebook. | src/bin/onenote-parse.rs L11 |
| C56 | One damaged page, for example with a missing content object, makes the whole section an error; no other page is shown. | src/onenote/page_series.rs L35-40 |
| C57 | Run positions are neither checked nor converted. They count UTF-16 units although the text is a Rust string, they may lie beyond the text, and they are kept when the text is replaced by the empty one because a run is a drawing. Splitting as documented goes wrong or panics. | src/onenote/rich_text.rs L20-32, L68-75, L489 |
| C55 | `Content::Unknown` and `PageContent::Unknown` are only reached for known kinds in unusual places. An object of a kind that is not among the thirty in `PropertySetId` makes the whole section an error. | src/onenote/content.rs L80-103, src/onenote/page_content.rs L63-85 |
| C58 | `rows()` and `cols()` are the stored counts, which are not compared with the rows and cells. The documented `cols_locked()[c / 8] & (1 << (c % 8)) == 1` is only ever true for every eighth column, and panics for a table without the property. | src/onenote/table.rs L33-62 |
| C60 | A paragraph with two different note tags shows both with the definition of the first. `C60_refuted` gives the bytes of a section file where this happens, `OwnDefinition` says which definition is stored for each. | `one/property_set/note_tag_container.rs` `get_object_ids`: the identifiers handed to every set start at the first set |
| C61 | When a newer revision replaces the root of a page, the page is still shown as it was. `C61_refuted` gives the bytes of two files with the same newest revision that show different pages (the effect of C22 on a whole file). | `onestore/revision.rs` L62-66 |
| C62 | A paragraph with text and at least one embedded ink object, ink space or ink line break is shown with an empty text: the stored text is lost. | src/onenote/rich_text.rs L487-491 |
| C65 | The scale of a drawing is used without a check: a file with the scale NaN or 2^127 is read without an error and shows points at NaN or infinity. | `parse_ink`, src/onenote/ink.rs L167-198; `parse_ink_path` L292-301 |
| C66 | The file name of an attachment is not checked: a section file with an attachment called `../x` is read without an error, and saving it under its name writes outside the directory. | src/onenote/embedded_file.rs L107 |
| C67 | A text with data for fewer runs than it has formats is shown with fewer formulas than formula runs; nothing is reported. | src/onenote/rich_text.rs L405-422 (`zip` ends with the shorter list) |
| C76 | Nothing limits how deep outline elements, table cells and nested property sets may be nested, and the parser calls itself for each level. A file of some hundred kilobytes with deep enough nesting overflows the stack, which aborts the process (not a panic, not an error); in a property set six bytes are enough for each level (`C76_refuted`, `C76_sets_refuted`). | src/onenote/outline.rs `parse_outline_item`, src/onestore/types/prop_set.rs `PropertySet::parse` |
| C79 | one unreadable section file makes the whole notebook an error; nothing is shown of the sections that are intact | src/onenote/mod.rs: parse_notebook L59-98, parse_section_group |
| C80 | `size as usize` and the sums of reference counts are cut to 32 bits on 32-bit targets without an error: a file that a 64-bit build reports as truncated is shown | src/fsshttpb/data/binary_item.rs L15, src/fsshttpb/data_element/data_element_fragment.rs L44, src/one/property/object_reference.rs L74-86 |
| C81 | two sections saved together while the notebook is read are shown in versions that never existed together | src/onenote/mod.rs parse_notebook L59-98 (sections are read one by one) |
| C82 | an entry replaced by a symbolic link after it was checked is followed out of the notebook directory (check and use are separate) | src/onenote/mod.rs L196-260 L196-260, parse_notebook L59-98 |
| C86 | errors for unreadable, damaged or malformed files do not say which file of a notebook is at fault | src/errors.rs L69-137, src/onenote/mod.rs L59-98 |
| C89 | an entry of the table of contents with a backslash is a section in a directory on Windows, and makes the whole notebook an error on other systems | src/onenote/mod.rs L196-260 |
| C91 | A directory that a table of contents leads to twice (by a repeated name, by names with a slash in them, or by links) is read and shown twice, with everything in it. A chain of n such directories makes parse_notebook do 2^n times the work; there is no record of the directories visited. | src/onenote/mod.rs L59-98, L152-183 |
| C92 | Revisions that several cells share are read once for each cell: the revision cache is looked up but never filled. n cells with the same revision of n objects make n * n objects in memory from some 600 * n bytes, also for cells that are not shown. | src/onestore/mod.rs L79-113, src/onestore/revision.rs L54-72 |
| C94 | An unknown property can change what is shown. (1) If it is a single nested property set (type 0x11) with a reference, all later properties of the object take the wrong references: a paragraph takes its style from the unknown property. (2) If it refers to the same object, with the same identifier, as the definition of a note tag, the table has two entries for the identifier, the tag asks at the wrong position, and it is shown without its definition. | src/one/property/object_reference.rs L74-86 (PropertyValue::PropertySet not counted); src/onestore/mapping_table.rs L61-71 with src/one/property_set/note_tag_container.rs (index of a nested reference counted from 0) |
| C95 | A section group whose directory has two tables of contents (for instance a backup or a conflicted copy of one) shows the entries of the one that the operating system lists first, so a copy of the notebook may show other sections than the original. | src/onenote/mod.rs L161-176 (first entry of read_dir with the extension onetoc2) |
| C96 | A file of some megabytes can keep the parser busy for hours: a revision that several cells have is assembled again for each of them, because nothing is ever put into the revision cache, and a group that a revision refers to several times is gone through each time. | src/onestore/mod.rs L79-82 (cache never filled), src/onestore/revision.rs L70-95 |
| C98 | The length at the start of a list format is skipped and not used, so units that do not belong to the format are shown with it. Half a surrogate pair is shown as U+FFFD, although this character can be part of a stored format. | src/one/property_set/number_list_node.rs L66-70 |
| C99 | In a 32-bit build with overflow checks, the sum of the reference counts in front of a property can overflow, which panics; a file of a few kilobytes is enough. (Without the checks the sum wraps around, see C80.) | src/one/property/object_reference.rs L74-86, src/one/property/object_space_reference.rs L55-67 |
| C100 | The mark of deleted pages is read and its type is checked, but nothing uses it. Deleted pages that are still listed are shown, and the API does not tell which they are. | src/one/property_set/page_metadata.rs L43-44; src/onenote/page.rs L148-173 |
| C101 | The level of a page is cast from an unsigned to a signed number without a check, so that pages with large stored levels have negative levels. | src/one/property_set/page_metadata.rs L38 |
| C102 | Only entries whose last piece is `OneNote_RecycleBin`, letter for letter, are left out: a name that leads into the recycle bin is shown, and so is the recycle bin under another spelling on a disk that ignores the case of letters. | src/onenote/mod.rs L82-83 |
| C103 | The first file in the directory of a section group whose name ends in `.onetoc2` is taken for the table of contents, whatever it is. A file such as `._x.onetoc2`, which macOS writes on disks of other systems, keeps the whole notebook from being opened. | src/onenote/mod.rs L161-176 |

Further observations about the code that are modelled as they are:

* The format GUID of the container embedded in a revision store is not checked.
* The schema that decides between section and table of contents is the id of the
  storage manifest, not the cell schema of the packaging header.
* `PageSize` has a property id of type `U32`, but the reader wants a `U8`, so a
  page that stores its size in the documented type is an error.
* `PictureFileExtension` has a property id whose type bits say "object ids"; it is
  read as a string. (Type bits of the requested id are ignored by lookup.)
* The number of declarations and of objects of a group are only compared when the
  group declares an object that is not yet known.

## Checks of the model against the code

Nothing of /repo is run. Two checks were made by evaluating the model on the
sample files that are part of /repo (`tests/samples`): every sample file parses,
and for `New Section 3.one` the model's section was compared token by token with
the snapshot that /repo's own tests compare against (1390 tokens, no difference).
These are tests of the model's fidelity, not proofs, and no theorem rests on them.
