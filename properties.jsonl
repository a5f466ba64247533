{"id": "C01", "title": "Compact integers decode to the encoded value", "statement": "Reading a compact 64-bit integer from a section file returns exactly the integer that was encoded, in any of the nine legal widths, and consumes exactly the bytes of that encoding and nothing after it.", "quantifier": "every u64 value, every legal encoding width for it, every following byte string", "why_tests_cant": "2^64 values times nine widths times arbitrary suffixes; width boundaries are exactly where sampled tests miss", "anchors": ["src/fsshttpb/data/compact_u64.rs: CompactU64::parse"]}
{"id": "C02", "title": "Extended GUIDs decode to the encoded identifier", "statement": "Reading an extended GUID returns exactly the (GUID, 32-bit value) pair that was encoded, in each of the five forms (null, 5-bit, 10-bit, 17-bit, 32-bit), consumes exactly the encoding, and every first byte that is not one of those forms is rejected as malformed data.", "quantifier": "every GUID, every value legal for each form, every following byte string; every byte string whose first byte is not a legal form", "why_tests_cant": "the identifier space is 2^160 and object identity in the whole parser depends on it", "anchors": ["src/fsshttpb/data/exguid.rs: ExGuid::parse"]}
{"id": "C03", "title": "GUID byte order", "statement": "Reading a GUID maps 16 file bytes to the canonical GUID by reversing the first 4, next 2 and next 2 bytes and keeping the last 8; this mapping is a bijection, so two different 16-byte strings never denote the same GUID and fewer than 16 bytes are reported as end of file.", "quantifier": "every byte string of every length", "why_tests_cant": "injectivity over 2^128 values is not testable", "anchors": ["src/shared/guid.rs: Guid::parse"]}
{"id": "C04", "title": "Stream object headers decode to the encoded header", "statement": "A 16-bit or 32-bit stream-object start header, and an 8-bit or 16-bit end header, decode to the object type, compound flag and length that were encoded (a 32-bit header with length 0x7fff takes its length from the compact integer that follows); headers of the wrong kind or with an unknown object type are errors.", "quantifier": "every object type, compound flag and length representable in each header form, every suffix", "why_tests_cant": "the (type, flag, length, suffix) space is unbounded through the large-length form", "anchors": ["src/fsshttpb/data/stream_object.rs: ObjectHeader::parse, parse_16, parse_32, parse_end_8, parse_end_16, has_end_8"]}
{"id": "C05", "title": "A truncated container is always reported as truncated", "statement": "If the container parser accepts a byte string and consumes some prefix of it, then running it on any proper prefix of those consumed bytes reports an unexpected end of file: it never returns a different value, a different error, or loops. Seen from outside: when a section file that is shown is cut off anywhere, the result is either the same section (only unread bytes were cut) or the end-of-file error, and a notebook whose files are cut off likewise opens as before or fails with that error.", "quantifier": "every accepted byte string and every truncation point", "why_tests_cant": "quantifies over all truncation points of all accepted files", "anchors": ["src/fsshttpb/packaging.rs: OneStorePackaging::parse", "src/fsshttpb/data_element/mod.rs: DataElementPackage::parse", "src/reader.rs: Reader"]}
{"id": "C06", "title": "Bytes after the container never influence the result", "statement": "If a byte string is accepted, appending arbitrary further bytes (or replacing the unread tail) gives the same parsed section; parsing depends only on the consumed prefix. The same holds for notebooks whose files carry further bytes after their containers.", "quantifier": "every accepted byte string and every tail", "why_tests_cant": "needs a statement about all possible tails at once", "anchors": ["src/fsshttpb/packaging.rs: OneStorePackaging::parse", "src/onenote/mod.rs: Parser::parse_section_buffer"]}
{"id": "C07", "title": "The container parser terminates on every input", "statement": "For every byte string the container parser returns a value or an error after a number of loop iterations bounded by the input length; no crafted file makes its header-driven loops spin.", "quantifier": "every byte string of every length", "why_tests_cant": "non-termination can only be excluded by an argument covering every loop state", "anchors": ["src/fsshttpb/data_element/mod.rs: DataElementPackage::parse", "src/fsshttpb/data_element/storage_index.rs", "src/fsshttpb/data_element/storage_manifest.rs", "src/fsshttpb/data_element/revision_manifest.rs", "src/fsshttpb/data_element/object_group.rs"]}
{"id": "C08", "title": "Declared counts cannot amplify memory use", "statement": "The number of identifiers, cells, mappings, declarations, objects and payload bytes held by the parsed container never exceeds the number of input bytes consumed, whatever counts and sizes the file declares; a declared count larger than the remaining input is an error.", "quantifier": "every byte string and every declared count up to 2^64-1", "why_tests_cant": "counts range over 2^64 values and attackers choose them", "anchors": ["src/fsshttpb/data/exguid.rs: ExGuid::parse_array", "src/fsshttpb/data/cell_id.rs: CellId::parse_array", "src/fsshttpb/data/binary_item.rs: BinaryItem::parse", "src/fsshttpb/data_element/mod.rs: DataElementPackage::parse"]}
{"id": "C09", "title": "Container round trip", "statement": "Any sequence of well-formed storage indexes, storage manifests, cell manifests, revision manifests, object groups (without metadata blocks) and object data blobs, serialised as the file format prescribes, is parsed back to exactly those elements; when two elements of one kind carry the same identifier the later one is kept.", "quantifier": "every finite sequence of data elements with arbitrary contents, every serialisation choice of the variable-width fields", "why_tests_cant": "arbitrary nesting and lengths; the interaction of loop terminators with payload bytes cannot be sampled", "anchors": ["src/fsshttpb/data_element/mod.rs: DataElement::parse, DataElementPackage::parse", "src/fsshttpb/data_element/*.rs", "src/fsshttpb/packaging.rs: OneStorePackaging::parse"]}
{"id": "C10", "title": "Containers with data element fragments are readable", "statement": "A container that is well formed and contains a data element fragment is accepted, like containers with any other element kind. So a section file that is shown is still shown when a fragment is added to its elements.", "quantifier": "every package containing a fragment element", "why_tests_cant": "the samples contain no fragment; acceptance must hold for every position and payload", "anchors": ["src/fsshttpb/data_element/data_element_fragment.rs: DataElement::parse_data_element_fragment", "src/fsshttpb/data_element/mod.rs: DataElement::parse"]}
{"id": "C11", "title": "Object groups with a metadata block are readable", "statement": "An object group that carries an (optional) object metadata block is accepted and its declarations and data are returned. So a section file that is shown is still shown when such a group is added to its elements.", "quantifier": "every object group with a metadata block, every block contents", "why_tests_cant": "the claim concerns every byte string that follows the block header", "anchors": ["src/fsshttpb/data_element/object_group.rs: parse_object_group_metadata", "src/fsshttpb/data/stream_object.rs: has_end_8", "src/fsshttpb/data/object_types.rs: ObjectType"]}
{"id": "C12", "title": "Only the two known container formats are accepted", "statement": "A file is accepted only if its file-format GUID is the package-store or the revision-store GUID; any other format GUID is rejected as malformed store data whatever follows, and for a revision store whose legacy version is nil the four embedded version numbers must each be 0x2A or 0x1B. This holds for single sections, section files on disk and tables of contents alike.", "quantifier": "every byte string", "why_tests_cant": "negative claim over all files", "anchors": ["src/fsshttpb/packaging.rs: OneStorePackaging::parse, parse_packaging"]}
{"id": "C13", "title": "The embedded container is located by the transaction log", "statement": "For a revision-store file with a nil legacy version the embedded container is read starting exactly at file offset (log start + log length); if that position overflows, lies inside the header, or beyond the end of the file, the file is rejected and nothing is read out of bounds. The section shown for such a file is the one shown for the embedded container as a file of its own.", "quantifier": "every header, every 64-bit log start and 32-bit log length, every file length", "why_tests_cant": "needs all 2^96 offset pairs including overflow corners", "anchors": ["src/fsshttpb/packaging.rs: OneStorePackaging::parse_packaging, FileChunkReference64x32::end"]}
{"id": "C14", "title": "Property sets round trip", "statement": "Any property set (scalars, byte vectors, reference counts, nested property sets and arrays of property sets, to any depth) serialised as the format prescribes is parsed back to the same values under the same identifiers, consuming exactly its bytes.", "quantifier": "every finite property-set tree of any depth and width", "why_tests_cant": "trees are unbounded in depth and width", "anchors": ["src/onestore/types/prop_set.rs: PropertySet::parse", "src/onestore/types/property.rs: PropertyValue::parse"]}
{"id": "C15", "title": "Property lookup", "statement": "Looking up a property by type returns the value whose identifier has the same low 26 bits, ignoring the type bits; absent identifiers give nothing; if an identifier occurs more than once the last occurrence is the one returned.", "quantifier": "every parsed property set and every property type", "why_tests_cant": "duplicates and identifier collisions in every combination", "anchors": ["src/onestore/types/prop_set.rs: PropertySet::get, index", "src/onestore/types/object_prop_set.rs: ObjectPropSet::get"]}
{"id": "C16", "title": "Object property streams round trip", "statement": "The object-id, object-space-id and context-id streams in front of a property set are read back exactly as written, the object-space stream is present exactly when the first header does not suppress it and the context stream exactly when the second header announces it.", "quantifier": "every triple of identifier lists shorter than 2^24 and every property set", "why_tests_cant": "all combinations of presence flags with unbounded lists", "anchors": ["src/onestore/types/object_prop_set.rs: ObjectPropSet::parse", "src/onestore/types/object_stream_header.rs: ObjectStreamHeader::parse", "src/onestore/types/compact_id.rs: CompactId::parse"]}
{"id": "C17", "title": "Object references select the right identifiers", "statement": "For an object whose properties (in file order) consume c1, c2, ... object identifiers, the i-th property's reference list consists of the identifiers at positions c1+...+c(i-1) onward, ci of them, each resolved through the object's mapping table, in order. So the elements, contents and texts that are shown are those the stored references name.", "quantifier": "every object with pairwise distinct property identifiers, every property", "why_tests_cant": "offsets depend on every preceding property of an unbounded list, including nested sets", "anchors": ["src/one/property/object_reference.rs: ObjectReference::parse, parse_vec, get_offset, count_references", "src/one/property/references.rs: References::get_predecessors"]}
{"id": "C18", "title": "Object space references resolve like object references", "statement": "The i-th object-space reference property resolves each of its identifiers to the cell recorded at that identifier's own position in the object-space stream (so a page series always yields its own pages). So the pages of a series that are shown are those the stored references name.", "quantifier": "every object, every object-space reference property", "why_tests_cant": "requires objects with several reference properties and repeated compact ids in every arrangement", "anchors": ["src/one/property/object_space_reference.rs: ObjectSpaceReference::parse_vec", "src/onestore/mapping_table.rs: MappingTable::get_object_space"]}
{"id": "C19", "title": "Each note tag and text run resolves its own references", "statement": "When an object carries an array of nested property sets (note tags, text run data), the references of the k-th nested set are resolved from the k-th set's own slice of the object's identifier stream.", "quantifier": "every object with an array of nested property sets, every k", "why_tests_cant": "arrays of every length with every mix of reference counts", "anchors": ["src/one/property_set/note_tag_container.rs: Data::parse, get_object_ids", "src/one/property_set/text_run_data.rs: parse, get_object_ids"]}
{"id": "C20", "title": "Identifier mapping lookup", "statement": "Resolving a compact id through an object's mapping table returns the full identifier recorded for it: if the compact id was recorded once that entry regardless of position, if several times the entry at the asked position, otherwise nothing; it never returns an identifier recorded for a different compact id.", "quantifier": "every list of recorded entries, every compact id and position", "why_tests_cant": "all multiplicities and positions", "anchors": ["src/onestore/mapping_table.rs: MappingTable::from_entries, get_object, get_object_space"]}
{"id": "C21", "title": "The newest revision of every object wins", "statement": "An object space parsed from a chain of revisions contains, for each object identifier, the object declared by the newest revision that declares it, and contains exactly the identifiers declared somewhere along the chain.", "quantifier": "every chain length, every assignment of objects to revisions", "why_tests_cant": "histories of arbitrary length", "anchors": ["src/onestore/object_space.rs: ObjectSpace::parse", "src/onestore/revision.rs: Revision::parse, parse_group"]}
{"id": "C22", "title": "The newest revision's roots win", "statement": "The content root and metadata root of an object space are those declared by the newest revision that declares them.", "quantifier": "every chain of revisions, every root declaration", "why_tests_cant": "histories of arbitrary length", "anchors": ["src/onestore/revision.rs: Revision::parse", "src/onestore/object_space.rs: content_root, metadata_root"]}
{"id": "C23", "title": "Reading a revision history terminates", "statement": "Assembling an object space from its revision chain terminates for every file.", "quantifier": "every storage index and every set of revision manifests, including cyclic base references", "why_tests_cant": "non-termination on a cycle cannot be observed by a terminating test", "anchors": ["src/onestore/object_space.rs: ObjectSpace::parse (while loop)", "src/onestore/revision.rs: Revision::parse (base_rev)"]}
{"id": "C24", "title": "Parsing is deterministic", "statement": "Parsing the same bytes twice gives the same result: the outcome does not depend on the (randomised) iteration order of the hash maps used internally. This holds for sections and for whole notebooks.", "quantifier": "every file and every pair of hash iteration orders", "why_tests_cant": "hash seeds are random per process; a passing run says nothing about other seeds", "anchors": ["src/fsshttpb/data_element/mod.rs: find_storage_index, find_storage_manifest, find_objects", "src/fsshttpb/data_element/storage_index.rs: find_revision_mapping_by_serial", "src/onestore/mod.rs: parse_store", "src/onestore/types/prop_set.rs: values, values_with_index"]}
{"id": "C25", "title": "Section and notebook files are never confused", "statement": "parse_section and parse_section_buffer return a section only for files whose schema GUID is the section schema, and parse_notebook a notebook only for the table-of-contents schema; a readable file of another schema is reported as not a section / not a table of contents.", "quantifier": "every byte string", "why_tests_cant": "negative claim over all files", "anchors": ["src/onenote/mod.rs: Parser::parse_notebook, parse_section_buffer, parse_section"]}
{"id": "C26", "title": "No input makes the section parser panic", "statement": "parse_section_buffer returns Ok or Err for every byte string; it never panics through an out-of-range index, slice, division or arithmetic underflow.", "quantifier": "every byte string", "why_tests_cant": "fuzzing samples, it cannot exclude", "anchors": ["src/onenote/rich_text.rs: parse_rich_text", "src/one/property_set/number_list_node.rs: parse_list_format", "src/onenote/ink.rs: parse_ink_path", "src/fsshttpb/packaging.rs", "src/reader.rs"]}
{"id": "C27", "title": "Ink path numbers decode to the encoded numbers", "statement": "A list of signed integers written in the multi-byte ink encoding decodes to exactly that list, and bytes after the announced number of integers are ignored.", "quantifier": "every list of integers of magnitude below 2^63, every trailing byte string", "why_tests_cant": "unbounded lists over a 64-bit range", "anchors": ["src/shared/multi_byte.rs: decode_signed, decode, decode_uint"]}
{"id": "C28", "title": "Truncated or over-long ink numbers are rejected", "statement": "If the ink path data ends inside a multi-byte integer, or an integer does not fit in 64 bits, decoding reports malformed data rather than returning some number. So a file with such a stroke is not shown as if it had other points.", "quantifier": "every byte string", "why_tests_cant": "all truncation points of all encodings", "anchors": ["src/shared/multi_byte.rs: decode_uint"]}
{"id": "C29", "title": "Ink strokes split into coordinates without loss or overrun", "statement": "For a stroke with d dimensions whose path holds n numbers, the points are the pairs (x_i, y_i), i < n div d, taken from the blocks belonging to the x and y dimensions; no number outside those blocks is read; strokes without an x or y dimension are rejected.", "quantifier": "every path length, every dimension list and position of x and y", "why_tests_cant": "index arithmetic over all (n, d, i, j)", "anchors": ["src/onenote/ink.rs: parse_ink_path"]}
{"id": "C30", "title": "Ink scaling and pen size use their own fields", "statement": "The horizontal scale of an ink container is its x-scaling property and the vertical scale its y-scaling property; a stroke's width and height are the stroke's width and height properties. So a drawing is shown with the stored proportions and pens.", "quantifier": "every ink container and stroke object", "why_tests_cant": "must hold for every pair of values; samples use equal values", "anchors": ["src/one/property_set/ink_container.rs: parse", "src/one/property_set/stroke_properties_node.rs: parse", "src/onenote/ink.rs: parse_ink, parse_ink_stroke"]}
{"id": "C31", "title": "Text decodes as UTF-16", "statement": "A string property is decoded as little-endian UTF-16 up to the first NUL (or the end): encoding any text without NUL and decoding it returns the text, an odd trailing byte is ignored, and an unpaired surrogate is an error.", "quantifier": "every Unicode string, every byte string", "why_tests_cant": "all scalar values and surrogate arrangements", "anchors": ["src/utils.rs: Utf16ToString::utf16_to_string", "src/one/property/simple.rs: parse_string"]}
{"id": "C32", "title": "Table-of-contents entries cannot escape the notebook directory", "statement": "Every path that parse_notebook opens because of a table-of-contents entry is the notebook's directory followed by one or more ordinary file names: it never contains a parent-directory, root or drive component, and if it exists its resolved location lies inside the notebook directory.", "quantifier": "every entry name a file can contain, every directory layout including symbolic links", "why_tests_cant": "attack strings are unbounded", "anchors": ["src/onenote/mod.rs: resolve_entry_path, Parser::parse_notebook"]}
{"id": "C33", "title": "Notebook entries come in table-of-contents order", "statement": "The names listed by a notebook are the names reachable in its table of contents, in order of ordering id, entries with equal ids in traversal order; none is invented and none lost except repeats.", "quantifier": "every table-of-contents tree", "why_tests_cant": "trees of every shape with every tie pattern", "anchors": ["src/onenote/notebook.rs: parse_toc, parse_toc_entry", "src/one/property_set/toc_container.rs: parse"]}
{"id": "C34", "title": "No section is listed twice", "statement": "A name that occurs several times in the table of contents is listed once by the notebook. So no notebook shows one section file twice.", "quantifier": "every table-of-contents tree", "why_tests_cant": "requires every arrangement of duplicates", "anchors": ["src/onenote/notebook.rs: parse_toc"]}
{"id": "C35", "title": "Notebook entries are parsed one for one", "statement": "Every existing entry other than the recycle bin becomes exactly one section (if it is a file) or section group (if it is a directory), in order; missing entries are skipped; the first failing entry fails the notebook with its own error.", "quantifier": "every file system state and every entry list", "why_tests_cant": "every combination of existing/missing/failing entries", "anchors": ["src/onenote/mod.rs: Parser::parse_notebook, parse_section_group"]}
{"id": "C36", "title": "Section display name", "statement": "A section's display name is its stored display name, or the file name when none is stored, without a trailing .one extension; a name not ending in .one is returned unchanged.", "quantifier": "every stored name and file name", "why_tests_cant": "all strings", "anchors": ["src/onenote/section.rs: parse_section"]}
{"id": "C37", "title": "Colours decode to their components", "statement": "A colour property decodes to the red, green, blue (and alpha) bytes that were stored; a colour reference is automatic exactly for marker 0xFF, manual for marker 0, and an error otherwise.", "quantifier": "every 32-bit value", "why_tests_cant": "2^32 values", "anchors": ["src/one/property/color.rs: Color::parse", "src/one/property/color_ref.rs: ColorRef::parse"]}
{"id": "C38", "title": "Layout alignment decodes to its fields", "statement": "A layout alignment word decodes to the horizontal and vertical alignment and margin anchors stored in its bit fields; a word whose top bit says the alignment is unset gives no alignment; unknown horizontal codes are errors.", "quantifier": "every 32-bit value", "why_tests_cant": "2^32 values", "anchors": ["src/one/property/layout_alignment.rs: LayoutAlignment::parse"]}
{"id": "C39", "title": "Note tag fields decode to their values", "statement": "Note tag shapes, item types, item status bits and definition status bits decode to the documented values; different shape codes give different shapes and codes outside the table are errors.", "quantifier": "every 16-bit value of each field", "why_tests_cant": "whole 16-bit tables", "anchors": ["src/one/property/note_tag_shape.rs: NoteTagShape::parse", "src/one/property/note_tag.rs: ActionItemStatus::parse, ActionItemType::parse", "src/one/property/note_tag_property_status.rs"]}
{"id": "C40", "title": "Page and content order is preserved", "statement": "Pages of a section, contents of a page, items of an outline, rows of a table, cells of a row and strokes of an ink drawing appear in exactly the order and multiplicity of the references stored in the file.", "quantifier": "every object graph", "why_tests_cant": "arbitrary tree shapes", "anchors": ["src/onenote/section.rs: parse_section", "src/onenote/page_series.rs: parse_page_series", "src/onenote/page.rs: parse_page", "src/onenote/outline.rs", "src/onenote/table.rs", "src/onenote/ink.rs: parse_ink_data"]}
{"id": "C41", "title": "Assembling a document terminates", "statement": "Building the section from the parsed store terminates for every file, including files whose objects refer to themselves.", "quantifier": "every object graph, including cyclic ones", "why_tests_cant": "non-termination on a cycle cannot be observed by a terminating test", "anchors": ["src/onenote/outline.rs: parse_outline_item, parse_outline_element", "src/onenote/table.rs: parse_cell", "src/onenote/notebook.rs: parse_toc_entry"]}
{"id": "C42", "title": "Any path to a notebook opens it", "statement": "A notebook can be opened by any path that names its table of contents: absolute, relative, or the bare file name in the current directory (as the crate's own usage example does). All of them give the same notebook.", "quantifier": "every notebook directory, every two spellings of the path to it, every file system", "why_tests_cant": "tests open notebooks by one fixed path; the spellings of a path are unbounded and their meaning depends on the file system", "anchors": ["src/lib.rs: usage example", "src/onenote/mod.rs: Parser::parse_notebook, resolve_entry_path"]}
{"id": "C43", "title": "A parsed document shows exactly what the stored properties say", "statement": "A section can be obtained from a file exactly if it is what the objects of the file say: every value the API shows (names, levels, sizes, offsets, fonts, colours, alignments, tags, text, strokes, contents of files and images, ...) is the value of the property with the documented identifier and type of the object that is referenced, converted as documented, and the documented default if the property is absent (with the exceptions that are the subject of C30 and C44: the vertical scale of a drawing, the size of a pen and the type of the page size). Nothing else is shown, nothing is taken from a different property or object, and a document all of whose required properties are there is not rejected.", "quantifier": "for every store (of every file), file name and section; for every object space, object and outline, text, image, attached file and drawing in it", "why_tests_cant": "There are about 150 properties in 30 kinds of objects with independent presence, types and values, nested without bound; a test compares a few documents, but a swapped property or a wrong default only shows when that property is present or absent.", "anchors": ["src/onenote/section.rs::parse_section", "src/onenote/page.rs::parse_page", "src/onenote/outline.rs::parse_outline", "src/onenote/rich_text.rs::parse_rich_text", "src/onenote/image.rs::parse_image", "src/onenote/embedded_file.rs::parse_embedded_file", "src/onenote/ink.rs::parse_ink", "src/onenote/table.rs::parse_table", "src/onenote/list.rs::parse_list", "src/onenote/note_tag.rs::parse_note_tags", "src/one/property_set/*.rs::parse"]}
{"id": "C44", "title": "A property can be stored in the type its identifier declares", "statement": "The identifier of a property declares the type of its value. A document that stores a property in that type is not rejected because of the type; in particular a page that stores its page size can be read.", "quantifier": "for every property with a single value that is read from a document, and every page", "why_tests_cant": "the sample files do not contain every property; a reader that expects another type than the identifier declares is only noticed with a file that has the property", "anchors": ["src/one/property/page_size.rs::PageSize::parse", "src/one/property/mod.rs::PropertyType", "src/one/property_set/page_node.rs::parse"]}
{"id": "C45", "title": "Only well-formed containers are accepted", "statement": "A file is accepted by the container reader only if it is a well-formed container (correct GUIDs, versions, start and end headers, field encodings, and nothing missing), and the result then holds exactly the data elements written in it.", "quantifier": "every byte string", "why_tests_cant": "the claim is about every byte string that is accepted; no set of malformed samples exhausts the ways a file can be wrong", "anchors": ["src/fsshttpb/packaging.rs: OneStorePackaging::parse", "src/fsshttpb/data_element/mod.rs: DataElementPackage::parse", "src/fsshttpb/data/serial_number.rs: SerialNumber::parse", "src/fsshttpb/data_element/data_element_fragment.rs: DataElement::parse_data_element_fragment"]}
{"id": "C46", "title": "The object store of a file is exactly what its data elements say", "statement": "The store read from a container shows the schema, the header, the data root and all other non-empty object spaces that the storage index and storage manifest name, each with exactly the objects and roots of its revision history (the object of the newest group that declares it), and nothing else. A file is rejected at this level exactly if it does not describe such a store, and the description determines the store.", "quantifier": "every container that was accepted, every order of the hash maps; exactness for all files without ambiguities", "why_tests_cant": "the claim is an equivalence over all packages: every object, root and space of every history, including those that must be absent", "anchors": ["src/onestore/mod.rs::parse_store", "src/onestore/object_space.rs::ObjectSpace::parse", "src/onestore/revision.rs::Revision::parse", "src/onestore/object.rs::Object::parse", "src/onestore/header.rs::StoreHeader::parse"]}
{"id": "C47", "title": "A section file shows exactly what is written in its bytes", "statement": "parse_section_buffer returns a section exactly if the bytes begin with a container whose data elements describe an object store with the section schema, whose objects describe that section: every title, page, outline, text run, picture, attachment, table and ink stroke of the result is stored in the file, nothing that is stored in a place the API shows is left out, and the bytes determine the result.", "quantifier": "every byte string, every file name, every order of the hash maps; completeness and uniqueness for files without ambiguities", "why_tests_cant": "it is an equivalence between all byte strings and all documents, through three layers of format", "anchors": ["src/onenote/mod.rs::Parser::parse_section_buffer", "src/fsshttpb/packaging.rs::OneStorePackaging::parse", "src/onestore/mod.rs::parse_store", "src/onenote/section.rs::parse_section"]}
{"id": "C48", "title": "A notebook shows exactly what is written in its files", "statement": "Parsing a notebook from the path of a table of contents returns a notebook exactly if that notebook is what the bytes of the files describe: the table of contents in its container, its names sorted by their keys without repeats, each name a relative path that stays inside the directory, one entry for each path that exists and is not the recycle bin, a section for each file and a section group for each directory, to any depth. Nothing is invented, nothing that is written is lost, and the files describe at most one notebook.", "quantifier": "every file system (any directories, any file contents), every path and every notebook; for the converse every file system whose files leave no choice to hash map iteration, and every iteration order", "why_tests_cant": "A test compares a few notebooks with expected values; it cannot show that no byte of any file of any notebook is misread or that every well written notebook is read.", "anchors": ["src/onenote/mod.rs: Parser::parse_notebook, Parser::parse_section_group", "src/onenote/notebook.rs", "src/onenote/section.rs", "src/one/property_set/toc_container.rs", "src/fsshttpb/packaging.rs", "src/onestore/mod.rs"]}
{"id": "C49", "title": "The arrangement of data elements does not matter", "statement": "What a section file shows depends only on its data elements: not on how they are encoded, on the other fields of the container or on what follows it; not on the order of the elements as long as no two of a type have the same identifier; and not on elements that no element in use refers to. The same holds for notebooks and all of their files.", "quantifier": "all files, all lists of data elements, all orders of them, all sets of unreferenced elements, all hash map orders", "why_tests_cant": "A test compares some arrangements of some files. A reader that depends on the order of elements in one of its tables agrees with all files written by one program.", "anchors": ["src/fsshttpb/data_element/mod.rs: DataElementPackage::parse", "src/onestore/mod.rs: parse_store"]}
{"id": "C50", "title": "Attachments and images byte for byte", "statement": "The contents of every attachment and of every image of a parsed section, however deep in outlines, tables and titles, are an uninterrupted part of the bytes of the section file, and so never longer than the file. In a notebook they are a part of one of its files, however deep in section groups.", "quantifier": "every byte string that parses, every page, outline, table and attachment of the result; every file system and notebook", "why_tests_cant": "A test compares the attachments of a few files; a reader that cuts, joins or pads the data of some files agrees with it.", "anchors": ["src/onenote/embedded_file.rs: parse_embedded_file", "src/onenote/image.rs: parse_image", "src/onestore/object.rs: Object::parse", "src/fsshttpb/data_element/object_data_blob.rs"]}
{"id": "C51", "title": "A small file shows a small document", "statement": "The document returned for a section file is not much larger than the file: the number of its outline groups and elements is bounded by a (low) power of the number of bytes. In particular no single list in it is longer than the file, and if the file refers to no part of a page twice, then each page has at most as many parts as the file has bytes and the whole section at most the third power of it.", "quantifier": "all byte strings that are accepted as a section, all file names and hash map orders; for the refutation every depth n < 2^31", "why_tests_cant": "Sample files written by OneNote never refer to an object twice; the growth is exponential in the depth of a crafted file, so a test can neither enumerate the files nor finish on the bad ones.", "anchors": ["src/onenote/outline.rs: parse_outline_group, parse_outline_item, parse_outline_element", "src/onenote/mod.rs: Parser::parse_section_buffer"]}
{"id": "C52", "title": "A page is called by the first text the reader sees", "statement": "Page::title_text returns the text of the first paragraph of the first outline in the title field, if that text is not empty. Otherwise it returns the text of the first outline in the body of the page, in page order, that starts with a paragraph with a text. It returns nothing exactly when there is no such text, and never an empty text.", "quantifier": "for every page", "why_tests_cant": "A page is a tree of any shape; tests show a few shapes of titles, not that no shape yields an empty or a later text.", "anchors": ["src/onenote/page.rs: Page::title_text, Page::outline_text", "src/onenote/page_content.rs: PageContent::outline", "src/onenote/outline.rs: OutlineItem::element", "src/onenote/content.rs: Content::rich_text"]}
{"id": "C53", "title": "A section is looked for under the name it was listed under", "statement": "A table of contents stores a plus sign in a file name as ^M and a comma as ^J. Parser::parse_notebook opens the file whose name was stored, for every file name.", "quantifier": "for every file name and every table of contents that lists it", "why_tests_cant": "The two replacements run one after the other over arbitrary names; tests with a few names do not show that they never produce or destroy each other's marks, nor which names are affected.", "anchors": ["src/one/property_set/toc_container.rs: parse", "src/onenote/notebook.rs: parse_toc_entry", "src/onenote/mod.rs: Parser::parse_notebook"]}
{"id": "C54", "title": "The command line program shows the file it is given", "statement": "The program onenote-parse, given the path of a table of contents, shows the notebook; given the path of a section file, it shows the section; and it never ends successfully without showing one.", "quantifier": "for every list of arguments and every state of the file system", "why_tests_cant": "Which parser runs depends on the text of the path alone; tests try a few names.", "anchors": ["src/bin/onenote-parse.rs: main", "src/onenote/mod.rs: Parser::parse_notebook, Parser::parse_section"]}
{"id": "C55", "title": "Content of a kind the library does not know is shown as unknown", "statement": "The document has an Unknown variant for the contents of a page and of an outline element. A section whose pages hold an object of a kind that the library does not know is still read, and the object is shown as Unknown.", "quantifier": "for every kind number, every place on a page and every section file", "why_tests_cant": "There are four billion kind numbers; tests try the ones that are in the sample files.", "anchors": ["src/onenote/content.rs: parse_content", "src/onenote/page_content.rs: parse_page_content", "src/one/property_set/mod.rs: PropertySetId"]}
{"id": "C56", "title": "Damage to one page does not affect the other pages", "statement": "When one page of a section is damaged, the other pages of the section are still shown, and as before.", "quantifier": "for every section, every page in it and every damage within the object space of that page", "why_tests_cant": "The damage is arbitrary; tests damage a few pages in a few ways.", "anchors": ["src/onenote/page_series.rs: parse_page_series", "src/onenote/section.rs: parse_section", "src/onenote/page.rs: parse_page"]}
{"id": "C57", "title": "A text can be split at its run positions", "statement": "RichText::text_run_indices are the character positions where the runs of RichText::text end: they are in order, none is beyond the text, and there is one more format than positions.", "quantifier": "for every section file and every text shown from it", "why_tests_cant": "Text, positions and formats are stored independently of each other and may hold any values and any characters.", "anchors": ["src/onenote/rich_text.rs: RichText::text, RichText::text_run_indices, RichText::text_run_formatting, parse_rich_text"]}
{"id": "C58", "title": "A table has the size it says, and its locked columns are found as documented", "statement": "Table::rows is the number of rows in Table::contents, Table::cols is the number of cells of each row and of the column widths, and the calculation given in the documentation of Table::cols_locked says for each column whether its width is locked.", "quantifier": "for every section file, every table shown from it and every column", "why_tests_cant": "Counts, rows, cells and lock bits are stored independently of each other; tests look at a few tables, mostly with few columns.", "anchors": ["src/onenote/table.rs: Table::rows, Table::cols, Table::contents, Table::cols_locked, parse_table", "src/one/property_set/table_node.rs: parse"]}
{"id": "C59", "title": "Objects that nothing refers to do not matter", "statement": "What a page shows, and the error it is rejected with, depends only on the stored objects that can be got to from the roots of the page by following the references that objects hold. Objects that are still stored but that nothing refers to any more, as a deleted paragraph, are not shown, and adding, replacing or removing such objects changes nothing. The same holds for sections and tables of contents.", "quantifier": "all pairs of object spaces and stores that agree on the objects that can be got to, all sets of removed objects, all contents of all pages", "why_tests_cant": "It speaks about every graph of objects and every way in which the unreferenced part can differ; tests see some graphs.", "anchors": ["src/onenote/page.rs: parse_page", "src/onenote/page_content.rs: parse_page_content", "src/onenote/outline.rs: parse_outline", "src/onenote/section.rs: parse_section", "src/onenote/notebook.rs: parse_toc", "src/onestore/object_space.rs: ObjectSpace::get_object", "src/onestore/mapping_table.rs: MappingTable"]}
{"id": "C60", "title": "A note tag shows its own definition", "statement": "Where a paragraph, picture, attachment or table that is shown carries note tags, one tag is shown for each stored tag, in order, with the completion time and the status stored for it, and each tag shows the label, shape and colours of the definition that is stored for that tag.", "quantifier": "all section files, all texts, images, attachments and tables shown on their pages, all stored note tags and their positions", "why_tests_cant": "It must hold for any number of tags on an object and any references that stand before them; tests have one tag on an object.", "anchors": ["src/one/property_set/note_tag_container.rs: parse", "src/one/property_set/note_tag_container.rs: get_object_ids", "src/onenote/note_tag.rs: parse_note_tags", "src/one/property/object_reference.rs: ObjectReference::parse", "src/onestore/mapping_table.rs: MappingTable::get_object"]}
{"id": "C61", "title": "Overwritten versions are not shown", "statement": "A section shows its newest version. What the file still holds of earlier versions, where a later version has replaced it, changes neither what is shown nor whether the file is accepted, whatever it is, even if it is unreadable. The same holds for notebooks and all of their files.", "quantifier": "all section files and tables of contents, all histories of revisions of any length, all contents of the overwritten object groups", "why_tests_cant": "It compares every file with every file that differs from it in overwritten parts; tests compare a few files.", "anchors": ["src/onestore/object_space.rs: ObjectSpace::parse", "src/onestore/revision.rs: Revision::parse", "src/onestore/revision.rs: parse_objects", "src/fsshttpb/data_element/object_group.rs: ObjectGroup", "src/onenote/mod.rs: Parser::parse_section_buffer"]}
{"id": "C62", "title": "A paragraph shows its text", "statement": "The text of every paragraph in a parsed section is exactly the text stored for it in the file: the UTF-16 text if there is one, otherwise the single-byte text, otherwise nothing.", "quantifier": "every byte string the section parser accepts, every hash iteration order, every paragraph in the result at any depth", "why_tests_cant": "Whether a text is shown depends on the formats of its runs, on two alternative encodings and on the position of the terminating NUL; tests contain only paragraphs that are all text or all ink.", "anchors": ["src/onenote/rich_text.rs: parse_rich_text, RichText::text", "src/one/property_set/rich_text_node.rs: parse", "src/one/property/simple.rs: parse_string, parse_ascii"]}
{"id": "C63", "title": "GUIDs and their texts", "statement": "A GUID read from a file is printed as Windows prints it, from the numbers that are stored: in braces, in groups of 8, 4, 4, 4 and 12 upper case digits. Different GUIDs are printed differently, and a printed GUID is read back as the same GUID. A text is read as a GUID exactly if it denotes one (32 digits, grouped, in braces, or as a URN, in either case); anything else is reported as an invalid GUID. Every GUID written in the source is valid, so its use cannot panic.", "quantifier": "all 16-byte strings, all GUIDs, all texts; all GUID literals of the source", "why_tests_cant": "There are 2^128 GUIDs and the stored byte order is mixed; a test prints one of them.", "anchors": ["src/shared/guid.rs: Guid::from_str, Guid::parse, Display for Guid", "src/macros.rs: guid!", "src/onenote/mod.rs", "src/onestore/mod.rs", "src/onestore/revision_role.rs", "src/fsshttpb/packaging.rs", "src/onenote/ink.rs"]}
{"id": "C64", "title": "Ink coordinates are the stored numbers, correctly rounded", "statement": "Every x and y of a stroke that InkPoint::x and InkPoint::y return is the stored integer as the nearest f32, times the scale of the drawing (if one is stored), correctly rounded. Without a scale all integers up to 2^24 in size are returned exactly; with a scale the exact product of such an integer and the scale is rounded only once. Rounding never reverses the order of two coordinates of a stroke (for positive scales), nor does it move a point across the left or top limit of the drawing's box, and the width and height of its box are the rounded difference of the rounded limits times the scale, rounded; without a scale the width and height of a box with limits up to 2^24 are exact.", "quantifier": "all stored paths (all bytes), dimensions, scales and boxes", "why_tests_cant": "There are 2^64 numbers and 2^32 scales; rounding errors, ties and overflow occur at few of them.", "anchors": ["src/onenote/ink.rs: parse_ink_path, parse_ink_data, InkPoint, InkBoundingBox", "src/shared/multi_byte.rs: decode_signed"]}
{"id": "C65", "title": "Drawings have finite coordinates", "statement": "Every coordinate of a drawing in a section that is read without an error is a finite number, not NaN or infinite, so that a program can draw it.", "quantifier": "all section files that are accepted, all drawings on their pages", "why_tests_cant": "Needs scales that are NaN, infinite or very large; no program that writes ink produces them, but a damaged or hostile file does.", "anchors": ["src/onenote/ink.rs: parse_ink, parse_ink_data, parse_ink_path", "src/one/property_set/ink_container.rs: parse"]}
{"id": "C66", "title": "Attachments and images have plain file names", "statement": "EmbeddedFile::filename and Image::image_filename return names under which the data can be saved in a directory: not empty, not `.` or `..`, without path separators or NUL.", "quantifier": "all section files that are accepted, all attachments and images at any depth", "why_tests_cant": "Needs a file written to do harm; files written by the original program have plain names.", "anchors": ["src/onenote/embedded_file.rs: EmbeddedFile::filename, parse_embedded_file", "src/onenote/image.rs: Image::image_filename, parse_image", "src/one/property_set/embedded_file_node.rs: parse"]}
{"id": "C67", "title": "Formulas and drawings belong to their runs", "statement": "RichText::math_inline_objects has one object for each run whose formatting says that it is mathematical, in the order of the runs, with the values stored for that run. The k-th drawing of RichText::embedded_objects is the one the k-th stored reference leads to, whatever spaces and line breaks stand between them.", "quantifier": "all section files that are accepted, all texts at any depth, all runs", "why_tests_cant": "Formulas, other runs, drawings, spaces and line breaks can be mixed in any order and number; a shift shows up only in some mixtures.", "anchors": ["src/onenote/rich_text.rs: parse_rich_text, RichText::math_inline_objects, RichText::embedded_objects", "src/onenote/math_inline_object.rs: parse_math_inline_object"]}
{"id": "C68", "title": "Scaling the box of a drawing", "statement": "InkBoundingBox::scale multiplies each of the four numbers of the box by the factor and rounds the product correctly. Scaling by 1 changes nothing. A point that is not left of or above the box is not left of or above it after both are scaled by the same positive factor, and what is not wider or higher than the box is not after scaling.", "quantifier": "all boxes and factors (all bit patterns of f32)", "why_tests_cant": "2^32 factors times 2^128 boxes; rounding and overflow occur at few of them.", "anchors": ["src/onenote/ink.rs: InkBoundingBox::scale"]}
{"id": "C69", "title": "Every storable section can be stored in a file and is read back exactly", "statement": "For every section whose numbers fit the fields of the file format and whose texts can be encoded - any pages, titles, outlines, paragraphs with styles, formulas and note tags, tables, lists, images, attachments and drawings - there is a section file from which parsing returns exactly that section: nothing is dropped, reordered, merged or changed, and different sections have different files.", "quantifier": "all storable sections within the limits of the file format (less than 2^24 references of an object, 2^32 bytes of a text, 2^64 bytes of an attachment, 2^32 objects; every section with a file of less than 256 MB is), all file names, all iteration orders of the hash maps", "why_tests_cant": "Tests compare a few sample files with expected output; they cannot show that no combination of contents, depths and numbers is lost or confused with another one.", "anchors": ["src/onenote/mod.rs: Parser::parse_section_buffer", "src/onenote/section.rs: parse_section", "src/onenote/page.rs: parse_page", "src/onenote/outline.rs: parse_outline", "src/onenote/rich_text.rs: parse_rich_text", "src/onenote/table.rs: parse_table", "src/onenote/ink.rs: parse_ink", "src/onenote/image.rs: parse_image", "src/onenote/embedded_file.rs: parse_embedded_file"]}
{"id": "C70", "title": "Whatever is parsed can be stored again", "statement": "Every section the parser returns, from whatever bytes, satisfies the limits of the file format: its numbers fit their fields, its texts have no NUL (or are Latin-1), its formulas and embedded objects belong to runs of text, its drawings have one scale, its name does not end with .one. So it can be written to a file again, unless it is too large for one (C69), and reading that file gives the same section; the sections that can be parsed that are not too large are exactly the storable ones. The same holds for every section of a parsed notebook.", "quantifier": "all byte strings, all file names without NUL, all iteration orders; for notebooks all file systems", "why_tests_cant": "An invariant of the output over all inputs, including damaged and hostile files: a test can only look at the outputs of the files it has.", "anchors": ["src/onenote/mod.rs: Parser::parse_section_buffer, Parser::parse_notebook", "src/onenote/section.rs: parse_section", "src/onestore/mod.rs: parse_store"]}
{"id": "C71", "title": "A notebook saved on a disk is read back exactly", "statement": "Take any notebook whose sections can be stored (C69) and whose section groups have ordinary, different names. Save each section in a file, each section group in a directory of its name with a table of contents, and the notebook's names and color in a table of contents, under any file names that the sanitiser accepts. Opening the table of contents then returns exactly this notebook: the same sections and section groups in the same order at every depth, and the same color. It does not matter what else is on the disk, in which order directories are listed, or in which order hash maps are visited. Two notebooks with the same files are equal.", "quantifier": "all notebooks of any depth and size with storable sections, all file names, all file systems that hold the files, all iteration orders", "why_tests_cant": "A test saves one notebook by hand; the claim is about every notebook, every directory tree and every surrounding disk.", "anchors": ["src/onenote/mod.rs: Parser::parse_notebook, Parser::parse_section", "src/onenote/notebook.rs", "src/one/property_set/toc_container.rs"]}
{"id": "C72", "title": "Where a section file is does not matter, and its name only for the display name", "statement": "A section read from a path is the section read from the bytes of the file with the last component of the path as its name, and every section of a notebook, however deep in section groups, is the section read from its own file alone. Reading the same bytes under another name gives the same pages and color and the same error if there is one; the display name is the one stored in the file, whatever the name, or else the given name without its .one extension.", "quantifier": "every byte string, every pair of names, every file system, path and notebook", "why_tests_cant": "tests compare a few files; that acceptance, pages and color never depend on the name or the place holds for all bytes", "anchors": ["src/onenote/mod.rs: Parser::parse_section, Parser::parse_section_buffer, Parser::parse_notebook", "src/onenote/section.rs: parse_section"]}
{"id": "C73", "title": "Deleting sections leaves the rest of a notebook as it was", "statement": "Every entry of a notebook, at any depth, is the section in one file or the group in one directory that the tables of contents lead to. If section files or whole section group directories are deleted, while the tables of contents still list them, the notebook is read without an error, without the deleted entries and otherwise as before.", "quantifier": "all notebooks, all directory layouts, all sets of deleted paths that leave the tables of contents of the remaining directories, all hash map orders", "why_tests_cant": "It compares every disk with every disk left after a deletion; tests delete one file.", "anchors": ["src/onenote/mod.rs: Parser::parse_notebook", "src/onenote/mod.rs: resolve_entry_path", "src/onenote/mod.rs: Parser::parse_section_group"]}
{"id": "C74", "title": "The identifiers in a file do not matter", "statement": "If all identifiers in a file (of data elements, object spaces, revisions, objects, attachments) are replaced one for one by other identifiers, except the few with a meaning of their own (the empty one and the names of the roots), a section file still shows exactly the same section and a notebook, whose files may each be renamed differently, exactly the same notebook. Nothing a user sees depends on the order, the value or the GUID of an identifier.", "quantifier": "all section files and notebooks without ambiguous revisions, all one-to-one renamings of identifiers, all results, all hash map orders", "why_tests_cant": "It compares every file with all its renamed versions; tests keep the identifiers the files came with.", "anchors": ["src/fsshttpb/data/exguid.rs: ExGuid", "src/fsshttpb/data/cell_id.rs: CellId", "src/onestore/mapping_table.rs: MappingTable", "src/onestore/object_space.rs: ObjectSpace", "src/onestore/mod.rs: parse_store", "src/onenote/mod.rs: Parser::parse_notebook"]}
{"id": "C75", "title": "Properties that the library does not know, and the order of the others, do not matter", "statement": "If the stored properties of objects are written in another order, and further properties are added or left out that are not among those the library reads, every public entry point returns the same section or notebook as before (or fails as before). Properties that take references keep their order among each other, because references are handed out in that order; C94 is about those that move with their references and about unknown ones that take references.", "quantifier": "for every file, every choice of objects in it, every rearrangement of their properties and every set of unknown properties added to or removed from them (also in nested property sets: note tags and text run data), every iteration order of hash maps, and every notebook made of such files", "why_tests_cant": "The file format is extended by adding properties, so files written by later programs contain properties the library has never seen, in any order and any number; tests contain only the properties of a few sample files.", "anchors": ["src/onestore/types/prop_set.rs: PropertySet::parse, get", "src/onestore/types/object_prop_set.rs: ObjectPropSet::parse", "src/one/property_set/*.rs: parse", "src/one/property/*.rs", "src/lib.rs: Parser"]}
{"id": "C76", "title": "Parsing nests a bounded number of calls", "statement": "However deep the outlines, tables and property sets of a file are nested, parsing it needs only a bounded depth of nested calls, so no file can exhaust the stack. (Refuted: one level of nesting in the file is one level of nested calls, with no limit; a few hundred bytes of outline groups, or six bytes of nested property sets, cost one level. What holds is that the nested calls are exactly the nesting depth of the document and never more than the bytes of the file.)", "quantifier": "every section file and every number of nested calls", "why_tests_cant": "whether a stack suffices depends on the deepest file there is; tests only try files of the depth somebody thought of, and a stack overflow aborts the process instead of failing the test", "anchors": ["src/onenote/outline.rs: parse_outline_item, parse_outline_group, parse_outline_element", "src/onenote/table.rs: parse_cell", "src/onestore/types/prop_set.rs: PropertySet::parse", "src/onestore/types/property.rs: PropertyValue::parse"]}
{"id": "C77", "title": "Editing one page leaves the other pages as they were", "statement": "If a section file is saved again with further revisions for some of its pages (new data elements with identifiers of their own, a new storage index, everything else kept), then every page whose entry in the storage index did not change is shown exactly as before, with its title, author and all contents. More generally two section files that store the same history for a page show the same page, whatever else differs between them.", "quantifier": "all pairs of section files that can be read and have no ambiguities, all pages they have in common, all edits of the other pages, all positions of the page in the two sections, all hash map orders", "why_tests_cant": "tests compare a few saved files; they cannot try every edit of every other page", "anchors": ["src/onestore/object_space.rs: ObjectSpace::parse", "src/onestore/revision.rs: Revision::parse", "src/fsshttpb/data_element/mod.rs: resolve_cell_revision_manifest_id", "src/onenote/page_series.rs: parse_page_series", "src/onenote/page.rs: parse_page"]}
{"id": "C78", "title": "Editing sections of a notebook changes only these sections", "statement": "If section files of a notebook are replaced by other section files that can be read, the notebook is still read and shows the new sections exactly where those files are, at any depth of section groups. All other sections, the section groups with their names and order, and the color are as before.", "quantifier": "all notebooks that can be read, all sets of edited section files, all new contents, all depths of section groups, all hash map orders", "why_tests_cant": "tests try a few notebooks and a few edits; they cannot try every edit of every section of every notebook", "anchors": ["src/onenote/mod.rs: Parser::parse_notebook, Parser::parse_section, Parser::parse_section_group"]}
{"id": "C79", "title": "Damage to one section does not affect the other sections", "statement": "If one section file of a notebook is damaged, the other sections of the notebook are still shown. (Refuted: whatever the damage, if one section file at any depth cannot be read as a section, the result for the whole notebook is an error and nothing is shown. What holds is that a file the tables of contents do not lead to may be damaged.)", "quantifier": "all notebooks, all section files in them, all kinds of damage", "why_tests_cant": "tests damage a few files in a few ways; whether some damage to some section leaves the others readable is a question about all of them", "anchors": ["src/onenote/mod.rs: Parser::parse_notebook, Parser::parse_section, Parser::parse_section_group"]}
{"id": "C80", "title": "32-bit builds show the same as 64-bit builds", "statement": "A build for a 32-bit target (wasm32 for example) gives the same result as a 64-bit build for every file that fits into its memory. (Refuted: sizes are cut to 32 bits, so a file with a size of 2^32 + 3 in it is an error on 64 bits and a section on 32 bits; and references are counted modulo 2^32, so that other objects may be found. What holds is that every file a 64-bit build reads is read by a 32-bit build with the same contents, and that references agree as long as fewer than 2^32 are declared.)", "quantifier": "all byte strings, all sizes of usize, all objects and properties", "why_tests_cant": "tests run on one target; the difference is in sizes no test file has", "anchors": ["src/fsshttpb/data/binary_item.rs: BinaryItem::parse", "src/fsshttpb/data_element/data_element_fragment.rs: parse_data_element_fragment", "src/fsshttpb/packaging.rs: parse_packaging", "src/one/property/object_reference.rs: ObjectReference::count_references", "src/one/property/object_space_reference.rs: ObjectSpaceReference::count_references"]}
{"id": "C81", "title": "A notebook is shown as it was at one moment", "statement": "If other programs change files while parse_notebook is running, the notebook it returns is one that could be read from the disk as it was at some moment. (False: the files are read one after the other, so two sections that are saved together can be shown in versions that never existed together. What holds: every single section, at any depth, is shown as it was at one moment of the call; and on a disk that does not change, reading file operation by file operation gives exactly what all the other properties are about.)", "quantifier": "every disk, every way other programs change it between the file operations of the call, every notebook, every nesting", "why_tests_cant": "Tests run on a disk that nobody else writes to; the schedules of two programs cannot be enumerated.", "anchors": ["src/onenote/mod.rs: Parser::parse_notebook", "src/onenote/mod.rs: Parser::parse_section", "src/onenote/mod.rs: Parser::parse_section_group"]}
{"id": "C82", "title": "The notebook directory is not left while the disk changes", "statement": "What parse_notebook returns does not depend on any file outside the directory of the notebook (apart from what the onetoc2 files of section groups lead to, see C32), also if other programs change the disk while it runs. (False: where an entry leads to is checked first and the file is opened later by its path, so an entry that is replaced by a symbolic link in between is followed outside. What holds: as long as no path appears, vanishes or comes to lead elsewhere, contents of files and directories may change at any time and still nothing outside matters.)", "quantifier": "every two disks and every way they change that agree inside the directory at every moment, every notebook file and nesting", "why_tests_cant": "The window between the check and the use is a matter of scheduling; a test on a quiet disk never sees it.", "anchors": ["src/onenote/mod.rs: resolve_entry_path", "src/onenote/mod.rs: Parser::parse_notebook", "src/onenote/mod.rs: Parser::parse_section"]}
{"id": "C83", "title": "Every part of a notebook can be opened on its own and is shown as in the notebook", "statement": "For every section group that parse_notebook shows, at any depth, there is a directory below that of the notebook with the name of the group, and opening the first table of contents in that directory as a notebook succeeds and shows the entries of the group. For every section shown, at any depth, there is a file below the directory of the notebook that parse_section opens, with the same result.", "quantifier": "every disk, every notebook file that can be opened, every section group and section at any depth", "why_tests_cant": "A test opens one notebook; the claim is for every arrangement of groups at every depth.", "anchors": ["src/onenote/mod.rs: Parser::parse_notebook", "src/onenote/mod.rs: Parser::parse_section", "src/onenote/mod.rs: Parser::parse_section_group"]}
{"id": "C84", "title": "The kind of the error tells what is wrong", "statement": "A file whose container is damaged is reported with one of UnexpectedEof, MalformedData, MalformedFssHttpBData and MalformedOneStoreData, and NotASectionFile and NotATocFile are reported for intact files of another kind and for nothing else. Objects of which no section or table of contents can be made are reported with UnexpectedEof, MalformedOneNoteData, MalformedOneNoteFileData or Utf16Error. IO errors mean that a file or directory of the notebook cannot be read, TocFileMissing that a directory of the notebook has no table of contents, and InvalidPath that a table of contents lists a name that cannot be resolved in its directory. In a notebook the file or directory with the problem lies in the directory of the notebook.", "quantifier": "every disk, file and buffer, every error", "why_tests_cant": "There are hundreds of places where an error is made; a test sees the kind of one of them.", "anchors": ["src/errors.rs: ErrorKind", "src/onenote/mod.rs: Parser::parse_notebook", "src/onenote/mod.rs: Parser::parse_section", "src/onenote/mod.rs: Parser::parse_section_buffer", "src/onenote/mod.rs: Parser::parse_section_group"]}
{"id": "C85", "title": "Editing one part of a page leaves the other parts as they were", "statement": "Everything a parsed page shows (outlines, images, ink and files on it, the outlines of its title, the items, contents, table rows, cells and paragraphs in them, at any depth) is stored in one object for its place. If an object and everything that can be got to from it by references is the same in two versions of a page, it is shown the same in both, wherever it stands. So an edit of some objects changes only the places they are stored for, those that refer to them, and those below them.", "quantifier": "every two versions of a page or section file that parse, every set of edited objects, every place at every depth", "why_tests_cant": "Pages nest to any depth and any of their objects may be edited; a test edits one of them.", "anchors": ["src/onenote/page.rs: parse_page", "src/onenote/outline.rs: parse_outline", "src/onenote/outline.rs: parse_outline_item", "src/onenote/content.rs: parse_content", "src/onenote/table.rs: parse_table"]}
{"id": "C86", "title": "Errors name the file that is at fault", "statement": "If a notebook cannot be opened, the error tells which of its files is at fault. (False: errors for files that are unreadable, damaged or malformed name no file, and which of several sections is cut off cannot be told from the error. What holds: the errors for a file that is no section, a file that is no table of contents and a directory without a table of contents always name one, no others do, it is a file or directory of the notebook, and what the error says is true of it.)", "quantifier": "every file system, notebook and nesting of section groups; every section file and buffer", "why_tests_cant": "Any file at any depth of any notebook can be at fault in any way; a test damages one file of one notebook.", "anchors": ["src/errors.rs: ErrorKind", "src/onenote/mod.rs: Parser::parse_notebook", "src/onenote/mod.rs: Parser::parse_section", "src/onenote/mod.rs: Parser::parse_section_buffer", "src/onenote/mod.rs: Parser::parse_section_group"]}
{"id": "C87", "title": "A section is read exactly if its pages are, and shows edited pages in their places", "statement": "If a section file is saved again with edits to some of its pages and the list of its pages left alone, the section is read exactly if each of its pages can be read. It then shows the new pages where the edited ones were, and the name, the color, the arrangement in page series and all other pages as before. If a page cannot be read, the section is an error in every case.", "quantifier": "all pairs of section files without ambiguities of which the second is the first saved again, all sets of edited pages, all new contents of these pages, all hash map orders", "why_tests_cant": "A test edits some page of some section in some way; the claim is about every edit of any number of pages of any section, and about all that is not edited as well", "anchors": ["src/onenote/mod.rs: Parser::parse_section_buffer", "src/onenote/section.rs: parse_section", "src/onenote/page_series.rs: parse_page_series", "src/onenote/page.rs: parse_page", "src/onestore/mod.rs: parse_store"]}
{"id": "C88", "title": "On Windows too, table-of-contents entries cannot escape the notebook directory", "statement": "When a notebook is opened on Windows, each entry of its table of contents leads to a path that is the notebook's directory followed by one or more ordinary file names (no separators, no colons, not `.` or `..`), and if the path exists its resolved location lies inside the directory. Entries with a drive letter, a server name or a root in front, and entries with a piece `..` between slashes or backslashes, are errors.", "quantifier": "every entry text, base directory, Windows file system (any links) and every file name sanitiser that does not let colons pass", "why_tests_cant": "Windows paths have many forms (drives, shares, verbatim and device paths, two separators, colons in the middle); tests try some of them, and on one system.", "anchors": ["src/onenote/mod.rs: resolve_entry_path", "src/onenote/mod.rs: Parser::parse_notebook"]}
{"id": "C89", "title": "A notebook is the same on Windows and on other systems", "statement": "A notebook whose files are in the same places is read the same on Windows as on other systems. (False: an entry of the table of contents with a backslash, such as `g\\s`, leads to a file in a directory on Windows, and is an error elsewhere. What holds: if no name in the tables of contents, in the directories and in the path of the notebook contains backslashes or colons, the notebook is read the same, and also rejected with the same error.)", "quantifier": "every file system, every drive, every path and nesting of section groups, every sanitiser and order of the hash maps", "why_tests_cant": "It relates two platforms; a test suite runs on one of them at a time, with a few notebooks.", "anchors": ["src/onenote/mod.rs: Parser::parse_notebook", "src/onenote/mod.rs: Parser::parse_section", "src/onenote/mod.rs: resolve_entry_path"]}
{"id": "C90", "title": "A section is its heading and its list of pages, which can be changed freely", "statement": "A section file is read as a section exactly if the section has the name and the color that the file stores, and shows, for each entry of the list of pages in the file, the page that the file stores under that entry. So if a file is saved again with pages added to the list, taken off it, moved or listed more than once, it is read if each page now listed is an old page left alone or one that can be read; it then has the arrangement of the new list, and each old page left alone looks as it did before, wherever it is listed now.", "quantifier": "all pairs of section files without ambiguities of which the second is the first saved again, all old and new lists of pages, all file names, all hash map orders", "why_tests_cant": "A test moves or adds some page of some section; the claim is about every change of the list of pages of every section and about every page that is not touched by it", "anchors": ["src/onenote/mod.rs: Parser::parse_section_buffer", "src/onenote/section.rs: parse_section", "src/onenote/page_series.rs: parse_page_series", "src/onenote/page.rs: parse_page", "src/onestore/mod.rs: parse_store"]}
{"id": "C91", "title": "A notebook shows no more sections than it has files", "statement": "The number of sections of a notebook, at any depth, is at most the number of files in its directory. So a small notebook directory cannot make parse_notebook read and show more than there is. (False: if a table of contents lists a directory twice, or two links lead to it, all that is in the directory is read and shown again each time. In a chain of n directories this gives 2^n sections from 2n files; with two links from a directory to itself, from two files. What holds: if every table of contents lists ordinary file names, each once, and no two paths lead to the same place, then there are at most as many sections as files.)", "quantifier": "all file systems, notebooks, tables of contents, links and nestings of section groups; for the refutation all lengths n of the chain", "why_tests_cant": "A test opens some directories; the claim bounds the result for all directories and links, and the refutation is about growth without any limit", "anchors": ["src/onenote/mod.rs: Parser::parse_notebook", "src/onenote/mod.rs: Parser::parse_section_group", "src/onenote/mod.rs: resolve_entry_path", "src/onenote/notebook.rs: parse_toc"]}
{"id": "C92", "title": "Reading a file takes memory in proportion to its size", "statement": "The number of objects that are held in memory while a section or table of contents is read is in proportion to the size of the file: objects that several pages share are held once. (False: a revision that several cells share is read anew for each of them, so a file with n cells that share n objects makes the library hold n * n objects, even if the cells are not listed as pages and the section shows a single empty page. What holds: the objects held are at most a quarter of the square of the size of the file.)", "quantifier": "all files and iteration orders of hash maps; for the refutation all n below 2^31", "why_tests_cant": "A test measures some files; the claim is about how memory grows over all files, and no sample file shares revisions between cells", "anchors": ["src/onestore/mod.rs: parse_store", "src/onestore/object_space.rs: ObjectSpace::parse", "src/onestore/revision.rs: Revision::parse", "src/lib.rs: Parser"]}
{"id": "C93", "title": "Whatever notebook is parsed can be saved again", "statement": "From every notebook that parse_notebook returns, a directory can be made from which exactly the same notebook is read: the names of all section groups are ordinary file names that the sanitiser does not change, never that of the recycle bin and without NUL, ^M and ^J, all sections can be stored and the color fits. Conversely every notebook with these features can be parsed from some directory. (For notebooks within the limits of the file format: less than 2^24 entries in a directory, names shorter than 2^28 characters, and groups in the same directory with different names.)", "quantifier": "all file systems, paths and notebooks parsed from them, at any nesting of groups, all sanitisers that keep enough names, and all hash map orders", "why_tests_cant": "A test saves a few notebooks; the claim is that no directory, however damaged or crafted, yields a notebook that cannot be represented again", "anchors": ["src/onenote/mod.rs: Parser::parse_notebook", "src/onenote/mod.rs: Parser::parse_section_group", "src/onenote/mod.rs: resolve_entry_path", "src/onenote/notebook.rs: parse_toc", "src/one/property_set/toc_container.rs: parse"]}
{"id": "C94", "title": "Properties can be moved and added together with their references", "statement": "If the stored properties of objects are written in any other order, each together with the references to objects that it takes, and further properties are added or left out that are not among those the library reads, also with references of their own, every public entry point returns the same section or notebook as before (or fails as before).", "quantifier": "for every file, every choice of objects in it, every order of their properties and every set of unknown properties with any references added to or removed from them, every iteration order of hash maps, and every notebook made of such files", "why_tests_cant": "References are stored in one list for all properties of an object, so every property that is added or moved shifts the references of all others; tests contain only the orders that a few programs happened to write.", "anchors": ["src/one/property/object_reference.rs: ObjectReference::parse, parse_vec, get_offset, count_references", "src/one/property/references.rs: References::get_predecessors", "src/onestore/mapping_table.rs: MappingTable::get", "src/one/property_set/note_tag_container.rs: Data::parse", "src/lib.rs: Parser"]}
{"id": "C95", "title": "A copy of a notebook at another place shows the same notebook", "statement": "If the directory of a notebook, with everything in it, is copied or moved to another place or to another disk, Parser::parse_notebook returns the same notebook for the copy (the same section groups, sections and colours, in the same order), or fails with the same kind of error. Neither the path of the directory nor the order in which the operating system lists directories matters.", "quantifier": "for every notebook directory, every disk it is copied to, every path it has there (whatever names are in it), every order in which directories are listed, links inside of the directory included", "why_tests_cant": "Tests run at a few paths on one file system; what is listed first differs between file systems and after copying.", "anchors": ["src/onenote/mod.rs: Parser::parse_notebook, parse_section_group, resolve_entry_path"]}
{"id": "C96", "title": "The work to read a file is in proportion to its size", "statement": "The number of steps that reading a section or table of contents takes to assemble its objects is at most a constant times the size of the file in bytes, so that a small file cannot keep the parser busy for long.", "quantifier": "for every byte string handed to the parser, every hash order, whether it is read or rejected", "why_tests_cant": "Tests read files that OneNote wrote, whose revisions are not shared by many cells; the slow files are made on purpose, and the growth only shows for sizes that no test uses.", "anchors": ["src/onestore/mod.rs: parse_store", "src/onestore/object_space.rs: ObjectSpace::parse", "src/onestore/revision.rs: Revision::parse, Revision::parse_group"]}
{"id": "C97", "title": "Entries of a notebook can be moved, renamed, added and taken away", "statement": "If files and section groups in the directory of a notebook are renamed together with their names in the table of contents, listed in another order, added or taken away, or all of this at once, then the notebook can still be read if the added entries can. It has one entry for each name whose file or directory exists (without the recycle bin), in the order of the table of contents. An entry that was there before is the same as before, except for the name it is shown with if its file name is another one: a section group has the new name, a section the new name without .one, or still the name stored in the file.", "quantifier": "every notebook, every other table of contents with ordinary file names, every pair of disks on which the entries are copies of each other", "why_tests_cant": "A test renames or moves some entries of one notebook. That no entry depends on its neighbours, its position or the old name holds only if it is proved for all notebooks and all rearrangements.", "anchors": ["src/onenote/mod.rs: Parser::parse_notebook, parse_section_group, parse_section, resolve_entry_path", "src/onenote/notebook.rs: parse_toc", "src/onenote/section.rs: parse_section"]}
{"id": "C98", "title": "The number or bullet of a list item has the stored format", "statement": "The format that the API shows for the number or bullet of a list item is the text that the file stores for it: the stored UTF-16 units, as many as the stored length says. What is stored behind them is not shown, and units that are not a text are not shown as one.", "quantifier": "for every section file that can be read, every list item at any depth on any page, every hash order", "why_tests_cant": "Tests use files that OneNote wrote, in which the length counts all units. A difference shows only for stored lengths and units that no sample has.", "anchors": ["src/one/property_set/number_list_node.rs: parse_list_format", "src/onenote/list.rs: List::list_format, parse_list"]}
{"id": "C99", "title": "Arithmetic does not overflow in a 64-bit build", "statement": "A build with overflow checks, which panics when the result of an integer operation does not fit its type, reads every file of less than 4 GB in the same way as a release build: none of the additions, subtractions, multiplications, negations and shifts that the parser does with numbers from a file leaves the range of its type.", "quantifier": "every byte string, every object of a file and every object made of its nested property sets, every property, every drawing and text", "why_tests_cant": "Overflows need extreme values in particular combinations, such as counts that add up beyond the largest number. Tests run a few files; that no file can reach the limits is a statement about all of them.", "anchors": ["src/shared/multi_byte.rs: decode_uint, decode_signed", "src/one/property/object_reference.rs: count_references, parse_vec", "src/one/property/object_space_reference.rs: count_references", "src/onenote/ink.rs: parse_ink_path", "src/onenote/rich_text.rs: parse_rich_text", "src/one/property/color.rs: Color::parse", "src/fsshttpb/packaging.rs: parse_packaging", "src/onestore/object.rs: Object::parse"]}
{"id": "C100", "title": "A page that is marked as deleted is not shown", "statement": "A page whose metadata says that its content is deleted is not among the pages that the API shows for the section, and all other pages that the section lists are shown in their order.", "quantifier": "for every section file that can be read, every page it lists, every hash order", "why_tests_cant": "The sample files have no page that is listed and marked as deleted. Whether the mark has an effect anywhere is a question about all files that differ in it.", "anchors": ["src/one/property_set/page_metadata.rs: Data::is_deleted, parse", "src/onenote/page.rs: parse_page", "src/onenote/page_series.rs: parse_page_series"]}
{"id": "C101", "title": "The level of a page is the stored one", "statement": "The level that the API shows for a page, which tells subpages from pages, is the unsigned number stored with the page, or zero if none is stored. It is never negative.", "quantifier": "for every section file that can be read, every page it shows, every hash order", "why_tests_cant": "OneNote writes small levels only. A difference shows only for stored numbers that no sample has.", "anchors": ["src/one/property_set/page_metadata.rs: parse", "src/onenote/page.rs: Page::level, parse_page"]}
{"id": "C102", "title": "What is in the recycle bin is not shown", "statement": "OneNote moves deleted sections into the directory OneNote_RecycleBin of the notebook. What is in this directory has no influence on the notebook the API shows, nor on whether it can be opened.", "quantifier": "for every notebook directory on disk, every two states of its recycle bins, every table of contents", "why_tests_cant": "Tests have one recycle bin, listed under its usual name. Names that lead into it, and disks that ignore the case of letters, are not among them.", "anchors": ["src/onenote/mod.rs: Parser::parse_notebook", "src/onenote/mod.rs: resolve_entry_path"]}
{"id": "C103", "title": "Files that are not listed have no influence on a notebook", "statement": "If files or directories that no table of contents of a notebook lists are put into its directories (backups, thumbnails, files of the operating system), the notebook is opened as before, with the same result or the same error.", "quantifier": "for every notebook directory on disk, every set of added files with any names and contents, every place in the listings of the directories", "why_tests_cant": "The sample directories of tests contain nothing but notebooks. A file that disturbs shows only on disks that other programs write to.", "anchors": ["src/onenote/mod.rs: Parser::parse_notebook", "src/onenote/mod.rs: Parser::parse_section_group"]}
