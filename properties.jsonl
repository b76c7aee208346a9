{"id": "C01", "title": "Integers are big-endian on disk on every host", "statement": "For every integer width the API offers (UByte, UWord, Word, ULong, Long, ID): writing a value appends exactly its big-endian bytes, on little-endian and on big-endian hosts alike, and reading those bytes back yields the same value and leaves the stream right after them.", "quantifier": "all values of each width, both host byte orders, all stream contents after the value", "why_tests_cant": "2^32 values x 2 byte orders; tests run on one host with a handful of values", "anchors": ["src/libiff/io.c: IFF_readUByte..IFF_writeLong", "src/libiff/id.c: IFF_readId, IFF_writeId"]}
{"id": "C02", "title": "Integer reads succeed exactly when enough bytes remain", "statement": "Reading an N-byte integer returns TRUE iff at least N bytes remain, consuming exactly N; otherwise it returns FALSE, reports an error through the error callback, and consumes at most what remained.", "quantifier": "all stream contents (every truncation point), all widths, both byte orders", "why_tests_cant": "needs every possible remaining length and content", "anchors": ["src/libiff/io.c: IFF_readUByte, IFF_readUWord, IFF_readWord, IFF_readULong, IFF_readLong", "src/libiff/id.c: IFF_readId"]}
{"id": "C03", "title": "IDs and 4-character strings correspond one to one, in alphabetical order", "statement": "IFF_idToString and IFF_MAKEID are mutually inverse, and unsigned comparison of IDs (used to order registries) is the lexicographic order of their four characters.", "quantifier": "all 2^32 IDs / all 4-tuples of characters", "why_tests_cant": "2^64 pairs", "anchors": ["src/libiff/id.c: IFF_idToString", "src/libiff/id.h: IFF_MAKEID", "src/libiff/chunkregistry.c: compareChunkTypes, compareFormChunkTypes"]}
{"id": "C04", "title": "IFF_checkId accepts exactly the IFF-85 identifiers", "statement": "IFF_checkId returns TRUE iff all four characters are in 0x20..0x7e and the first is not a space; the verdict does not depend on whether plain char is signed; it reports an error iff it returns FALSE.", "quantifier": "all 2^32 IDs, both char signednesses", "why_tests_cant": "exhaustive domain, two ABIs", "anchors": ["src/libiff/id.c: IFF_checkId"]}
{"id": "C05", "title": "IFF_checkFormType accepts exactly the legal form types", "statement": "IFF_checkFormType returns TRUE iff the ID is valid, contains no lowercase letter and no punctuation mark, and is none of LIST, FORM, PROP, 'CAT ', JJJJ, LIS1-9, FOR1-9, CAT1-9 (doc/IFF.asc: lower case letters and punctuation marks are forbidden).", "quantifier": "all 2^32 IDs", "why_tests_cant": "exhaustive domain", "anchors": ["src/libiff/form.c: IFF_checkFormType", "doc/IFF.asc"]}
{"id": "C06", "title": "A field that does not fit in its chunk is neither read nor written", "statement": "The field functions transfer a field iff the field lies completely inside the declared chunk size; otherwise they return IFF_FIELD_LAST and touch neither the stream, nor the value, nor the processed-bytes counter.", "quantifier": "all chunk sizes, processed counts and field widths, all stream contents, 32 and 64 bit size_t", "why_tests_cant": "arithmetic boundary over 2^64 pairs with mixed signed/unsigned conversion", "anchors": ["src/libiff/field.c: fieldDoesNotFitInChunk and all IFF_read*Field / IFF_write*Field"]}
{"id": "C07", "title": "Registry lookup finds the registered handler", "statement": "For a registry whose arrays are sorted by ID without duplicates, IFF_findChunkType returns the entry registered for the chunk ID in the node chain of the form type (nearest node first), or in the global chain when the form type is not registered, and the default chunk type when the chain has no entry.", "quantifier": "all registries (any number of form types, nodes, entries), all form types and chunk IDs", "why_tests_cant": "unbounded registry shapes; binary search boundary errors hide in rare sizes", "anchors": ["src/libiff/chunkregistry.c: IFF_findChunkType, getFormChunkTypes, getChunkType"]}
{"id": "C08", "title": "The default registry treats FORM, CAT, LIST and PROP as groups and everything else as raw data, in any context", "statement": "With the default registry (NULL), the handler chosen depends only on the chunk ID.", "quantifier": "all form types and chunk IDs", "why_tests_cant": "2^64 pairs", "anchors": ["src/libiff/defaultregistry.c", "src/libiff/iff.c: selectChunkRegistry"]}
{"id": "C09", "title": "IFF_write emits the IFF-85 encoding of the hierarchy", "statement": "For every hierarchy whose declared sizes are consistent, IFF_writeFd returns TRUE on a stream with room and appends exactly: ID, big-endian size, body, and a zero pad byte when the size is odd, recursively, with the PROPs of a LIST before its other members.", "quantifier": "all chunk hierarchies (any depth, width, data), both byte orders, all registries that dispatch consistently", "why_tests_cant": "unbounded trees", "anchors": ["src/libiff/chunk.c: IFF_writeChunk", "src/libiff/group.c: IFF_writeGroup", "src/libiff/list.c: IFF_writeList", "src/libiff/rawchunk.c: IFF_writeRawChunk"]}
{"id": "C10", "title": "Read after write returns the same hierarchy", "statement": "Reading what IFF_write produced for a consistent hierarchy yields a hierarchy equal in every field, consuming exactly the written bytes.", "quantifier": "all consistent hierarchies, all following stream contents, both byte orders, any size_t width of at least 32 bits, any consistently dispatching registry", "why_tests_cant": "unbounded trees", "anchors": ["src/libiff/chunk.c: IFF_readChunk, IFF_writeChunk", "src/libiff/group.c", "src/libiff/list.c", "src/libiff/rawchunk.c"]}
{"id": "C11", "title": "Written length is what the parent accounts for", "statement": "The number of bytes written for a consistent chunk is 8 + chunkSize, plus 1 if chunkSize is odd - always even - and is exactly what IFF_incrementChunkSize adds to the parent's size.", "quantifier": "all consistent hierarchies", "why_tests_cant": "unbounded trees", "anchors": ["src/libiff/group.c: IFF_incrementChunkSize", "src/libiff/chunk.c: IFF_writeChunk"]}
{"id": "C12", "title": "Reading and checking together recognise exactly the IFF-85 grammar", "statement": "For inputs shorter than 2 GiB: IFF_read returns a hierarchy that passes IFF_check iff the input starts with a byte string derivable from the IFF-85 grammar for that hierarchy (a PROP may appear anywhere among the members of a LIST, and a pad byte may have any value).", "quantifier": "all byte strings below 2 GiB", "why_tests_cant": "infinitely many byte strings, including adversarial ones", "anchors": ["src/libiff/iff.c: IFF_readFd, IFF_check", "src/libiff/chunk.c: IFF_readChunk, IFF_checkChunk"]}
{"id": "C13", "title": "Reading then writing a valid file only normalises it", "statement": "If a file is read and passes IFF_check, writing it back gives a file of the same length that reads back as the same hierarchy; if pad bytes are zero and PROPs come first in every LIST it is byte-identical.", "quantifier": "all byte strings below 2 GiB", "why_tests_cant": "infinitely many byte strings", "anchors": ["src/libiff/iff.c: IFF_readFd, IFF_writeFd, IFF_check"]}
{"id": "C14", "title": "Truncated files are rejected", "statement": "For every valid file and every proper prefix of it, IFF_read returns NULL.", "quantifier": "all valid hierarchies and all cut points (crash point of a writer)", "why_tests_cant": "all cut points of all files", "anchors": ["src/libiff/iff.c: IFF_readFd", "src/libiff/io.c: IFF_skipUnknownBytes, IFF_readPaddingByte", "src/libiff/rawchunk.c: IFF_readRawChunk"]}
{"id": "C15", "title": "The reader always terminates", "statement": "On every finite input, IFF_read terminates; every chunk read consumes at least its 8 header bytes, so at most length/8 chunks are created and nesting depth is at most length/8 too.", "quantifier": "all byte strings, including ones with negative, zero or lying sizes, all registries", "why_tests_cant": "termination on all inputs cannot be tested", "anchors": ["src/libiff/chunk.c: IFF_readChunk", "src/libiff/group.c: readGroupSubChunks", "src/libiff/list.c: readListSubChunks"]}
{"id": "C16", "title": "Reading never executes undefined behaviour", "statement": "On every finite input, IFF_read with the default registry executes no signed overflow and no invalid memory access.", "quantifier": "all byte strings", "why_tests_cant": "adversarial inputs", "anchors": ["src/libiff/group.c: IFF_incrementChunkSize, readGroupSubChunks", "src/libiff/chunk.c: readChunkBody"]}
{"id": "C17", "title": "Trailing bytes do not change the result", "statement": "If a hierarchy is read from a stream, the same hierarchy is read when arbitrary bytes follow; a warning is reported iff at least one byte follows.", "quantifier": "all byte strings and all suffixes", "why_tests_cant": "all suffixes", "anchors": ["src/libiff/iff.c: IFF_readFd"]}
{"id": "C18", "title": "Chunk data is exactly the declared size", "statement": "Every raw chunk in a hierarchy returned by IFF_read has a non-negative declared size and exactly that many data bytes, which occur contiguously in the input; no declared negative size ever yields a raw chunk.", "quantifier": "all byte strings, all registries", "why_tests_cant": "adversarial inputs", "anchors": ["src/libiff/rawchunk.c: IFF_createRawChunk, IFF_readRawChunk"]}
{"id": "C19", "title": "A TRUE result from IFF_write means the file is complete; after FALSE it holds a prefix", "statement": "If IFF_write returns TRUE the medium holds the complete encoding; if it returns FALSE the medium holds a proper prefix of it (no garbage).", "quantifier": "all hierarchies, all media capacities (every failure point), all stream buffer sizes", "why_tests_cant": "every failure point", "anchors": ["src/libiff/iff.c: IFF_writeFile, IFF_writeFd", "src/libiff/chunk.c: IFF_writeChunk", "src/libiff/io.c: IFF_write*"]}
{"id": "C20", "title": "IFF_check decides IFF-85 conformance", "statement": "IFF_check returns TRUE iff the hierarchy is a FORM, CAT or LIST whose IDs, form types, contents types, nesting (PROP only directly in LIST, only data chunks in PROP, only FORM/CAT/LIST in CAT and LIST) and group sizes are all legal, at every level.", "quantifier": "all hierarchies of consistent layout with total size below 2 GiB", "why_tests_cant": "unbounded trees", "anchors": ["src/libiff/iff.c: IFF_check", "src/libiff/group.c: IFF_checkGroup", "src/libiff/form.c", "src/libiff/cat.c", "src/libiff/list.c", "src/libiff/prop.c"]}
{"id": "C21", "title": "The -1 failure marker of the size computation never collides with a real size", "statement": "IFF_checkGroupSubChunks never returns -1 for a group whose sub chunks are all valid, even when sizes are negative or wrap around.", "quantifier": "all lists of sub chunks, all 32-bit sizes", "why_tests_cant": "needs wrap-around sums", "anchors": ["src/libiff/group.c: IFF_checkGroupSubChunks, IFF_incrementChunkSize", "src/libiff/list.c: checkListPropChunks"]}
{"id": "C22", "title": "A rejected hierarchy is always explained, an accepted one never", "statement": "With the default registry, IFF_check reports at least one error through the error callback iff it returns FALSE.", "quantifier": "all hierarchies", "why_tests_cant": "unbounded trees", "anchors": ["src/libiff/iff.c: IFF_check", "src/libiff/error.c: IFF_error"]}
{"id": "C23", "title": "IFF_compare is an equivalence and means equal files", "statement": "IFF_compare is reflexive, symmetric and transitive, and two consistent hierarchies compare equal iff IFF_write produces identical bytes for them.", "quantifier": "all hierarchies", "why_tests_cant": "unbounded trees and pairs/triples of them", "anchors": ["src/libiff/iff.c: IFF_compare", "src/libiff/group.c: IFF_compareGroup", "src/libiff/list.c: IFF_compareList", "src/libiff/rawchunk.c: IFF_compareRawChunk"]}
{"id": "C24", "title": "IFF_searchForms returns all forms of the requested types", "statement": "The result lists, in document order and without duplicates, all FORM chunks with a requested form type that are reachable through FORM, CAT and LIST chunks.", "quantifier": "all hierarchies and all arrays of requested types", "why_tests_cant": "unbounded trees", "anchors": ["src/libiff/group.c: IFF_searchForms, IFF_searchFormsFromArray, IFF_searchFormsInGroup", "src/libiff/form.c: IFF_searchFormsInForm, IFF_mergeFormArray"]}
{"id": "C25", "title": "Property lookup follows IFF-85 inheritance", "statement": "IFF_getChunkFromForm returns the first chunk with the ID in the form itself; otherwise the one in the PROP of the form's type in the nearest enclosing LIST that has it; otherwise NULL.", "quantifier": "all hierarchies, all forms at any depth, all IDs", "why_tests_cant": "unbounded nesting", "anchors": ["src/libiff/form.c: IFF_getChunkFromForm, searchProperty, searchList, IFF_getDataChunkFromForm", "src/libiff/list.c: IFF_getPropFromList", "src/libiff/prop.c: IFF_getChunkFromProp"]}
{"id": "C26", "title": "IFF_getChunksFromForm returns all direct members with the ID", "statement": "The result is the sub-sequence of the form's members with that ID, in order; its first element, if any, is what IFF_getChunkFromForm returns.", "quantifier": "all forms and IDs", "why_tests_cant": "unbounded member lists", "anchors": ["src/libiff/form.c: IFF_getChunksFromForm"]}
{"id": "C27", "title": "Adding chunks keeps sizes consistent", "statement": "Building a hierarchy bottom-up with the create and add functions, in any order and shape, always gives groups whose declared size is the encoded size of their contents, as long as it fits in 31 bits.", "quantifier": "all sequences of create/add operations", "why_tests_cant": "all operation histories", "anchors": ["src/libiff/group.c: IFF_addToGroup", "src/libiff/list.c: IFF_addPropToList", "src/libiff/form.c", "src/libiff/cat.c", "src/libiff/prop.c"]}
{"id": "C28", "title": "Automatic contents type is the common type or JJJJ", "statement": "After adding one or more FORM/CAT/LIST chunks to an empty CAT or LIST with the ...AndUpdateContentsType functions, its contents type is the group type of the members if they all agree, and JJJJ otherwise.", "quantifier": "all sequences of additions", "why_tests_cant": "all histories", "anchors": ["src/libiff/cat.c: IFF_addToCATAndUpdateContentsType, updateContentsType", "src/libiff/list.c: IFF_addToListAndUpdateContentsType"]}
{"id": "C29", "title": "IFF_updateChunkSizes repairs all enclosing sizes", "statement": "If a chunk's size changed and everything outside its chain of enclosing groups is consistent, calling IFF_updateChunkSizes on it makes the whole hierarchy consistent, and changes nothing but the sizes on that chain.", "quantifier": "all hierarchies, all positions, all size changes", "why_tests_cant": "unbounded depth", "anchors": ["src/libiff/group.c: IFF_updateChunkSizes, IFF_updateGroupChunkSizes", "src/libiff/list.c: IFF_updateListChunkSizes"]}
{"id": "C30", "title": "iffjoin output is valid and contains the inputs in order", "statement": "If all inputs are readable and valid and the total stays below 2 GiB, iffjoin exits with 0 and writes a valid CAT whose members are exactly the input hierarchies in order; if some input is unreadable or invalid it exits with 1 and leaves the output file untouched.", "quantifier": "all lists of input files with any contents, both output destinations", "why_tests_cant": "unbounded lists of files", "anchors": ["src/iffjoin/join.c: IFF_join"]}
{"id": "C31", "title": "iffpp prints exactly the accepted files", "statement": "iffpp exits with 0 and prints the hierarchy iff the file is readable and (valid or -c was given); otherwise it prints nothing to standard output and exits with 1.", "quantifier": "all files, both option settings", "why_tests_cant": "all inputs", "anchors": ["src/iffpp/pp.c: IFF_prettyPrint"]}
{"id": "C32", "title": "The hex dump of a data chunk is faithful", "statement": "The bytes shown for a raw (non TEXT) chunk are exactly its data, two lowercase hex digits each, ten to a line: the data can be recovered from the text.", "quantifier": "all data lengths and contents", "why_tests_cant": "unbounded data", "anchors": ["src/libiff/rawchunk.c: IFF_printRaw"]}
{"id": "C33", "title": "A failed read leaks nothing", "statement": "Whenever IFF_read returns NULL - at whatever byte of the input and whatever allocation it failed - every block it allocated has been freed.", "quantifier": "all byte strings, all allocation-failure schedules, all registries that dispatch consistently", "why_tests_cant": "every failure point x every input", "anchors": ["src/libiff/chunk.c: readChunkBody, IFF_freeChunk", "src/libiff/rawchunk.c: IFF_createRawChunk, IFF_freeRawChunk", "src/libiff/group.c: IFF_freeGroup", "src/libiff/list.c: IFF_freeList"]}
{"id": "C34", "title": "IFF_free releases a hierarchy exactly once", "statement": "Freeing a hierarchy returned by IFF_read, or built with the API, frees each of its blocks exactly once (no double free, no use after free, no leak) and no other block.", "quantifier": "all hierarchies, all heap contents around them", "why_tests_cant": "unbounded trees", "anchors": ["src/libiff/iff.c: IFF_free", "src/libiff/chunk.c: IFF_freeChunk", "src/libiff/group.c: IFF_freeGroup", "src/libiff/list.c: IFF_freeList"]}
{"id": "C35", "title": "Parent links are correct", "statement": "In every hierarchy returned by IFF_read or built with the add functions, each member's parent is the group that contains it, and the root's parent is NULL.", "quantifier": "all byte strings; all add histories", "why_tests_cant": "unbounded trees", "anchors": ["src/libiff/group.c: IFF_attachToGroup", "src/libiff/list.c: addPropToList", "src/libiff/chunk.c: IFF_createChunk"]}
{"id": "C36", "title": "The pointer-level reader builds the hierarchy the format describes", "statement": "When no allocation fails, the linked structure IFF_read builds on the heap represents exactly the hierarchy determined by the bytes, and no older heap block is modified.", "quantifier": "all byte strings, all initial heaps", "why_tests_cant": "all inputs", "anchors": ["src/libiff/chunk.c: IFF_readChunk", "src/libiff/group.c: IFF_attachToGroup, readGroupSubChunks", "src/libiff/list.c: readListSubChunks"]}
{"id": "C37", "title": "Out of memory is reported, not fatal", "statement": "When an allocation fails while reading or building, the API reports failure (NULL) instead of executing undefined behaviour.", "quantifier": "all inputs and all allocation-failure schedules", "why_tests_cant": "every failure schedule", "anchors": ["src/libiff/group.c: IFF_attachToGroup", "src/libiff/list.c: addPropToList", "src/libiff/chunk.c: IFF_createChunk", "src/libiff/rawchunk.c: IFF_createRawChunk"]}
{"id": "C38", "title": "Setting text data replaces the chunk's contents", "statement": "After IFF_setTextData the chunk's size is the text length and its data the text, and the previous data is not leaked.", "quantifier": "all chunks and texts", "why_tests_cant": "all texts; leaks are invisible to functional tests", "anchors": ["src/libiff/rawchunk.c: IFF_setTextData, IFF_setRawChunkData, IFF_copyDataToRawChunkData"]}
{"id": "C39", "title": "Searching does not leak", "statement": "After freeing the array returned by IFF_searchForms, no block allocated by the search is left.", "quantifier": "all hierarchies", "why_tests_cant": "leaks are invisible to functional tests", "anchors": ["src/libiff/group.c: IFF_searchFormsInGroup", "src/libiff/form.c: IFF_mergeFormArray, IFF_searchFormsInForm"]}
{"id": "C40", "title": "Application registries still parse nested group chunks", "statement": "With a registry that registers form-specific chunk types (as in README and tests), CAT and LIST chunks of that type and nested groups are still handled as groups, and no operation accesses a chunk through the wrong struct type.", "quantifier": "all registries, all byte strings", "why_tests_cant": "all registries x inputs", "anchors": ["src/libiff/chunkregistry.c: IFF_findChunkType", "README.md: Creating an application format interface", "tests/test.c"]}
{"id": "C41", "title": "Application chunks tolerate truncated and extended sizes", "statement": "A field-wise application chunk whose declared size is smaller or larger than its full layout is written and read back with the fields that fit unchanged, the others at their defaults, and unknown trailing bytes skipped.", "quantifier": "all field layouts, values and declared sizes", "why_tests_cant": "unbounded layouts and sizes", "anchors": ["src/libiff/field.c", "src/libiff/io.c: IFF_skipUnknownBytes, IFF_writeZeroFillerBytes", "tests/hello.c", "tests/bye.c"]}
{"id": "C42", "title": "Option parsing of iffjoin uses the given output file", "statement": "iffjoin writes to the file named by its output option and joins the remaining arguments (Visual C++ option parser).", "quantifier": "all argument vectors", "why_tests_cant": "all argument vectors", "anchors": ["src/iffjoin/main.c: main (_MSC_VER branch)"]}
{"id": "C43", "title": "Every diagnostic passes arguments that match its format", "statement": "Each error message call passes variadic arguments of the types its format string requires.", "quantifier": "all diagnostic call sites", "why_tests_cant": "passes silently on common ABIs, undefined behaviour in general", "anchors": ["src/libiff/group.c:92", "src/libiff/list.c:105", "src/libiff/io.c:217,239"]}
{"id": "C44", "title": "Byte swapping is free of undefined shifts", "statement": "The byte swaps in the integer I/O functions only perform shifts that ISO C defines.", "quantifier": "all values of each width", "why_tests_cant": "2^32 values; compilers mask the problem", "anchors": ["src/libiff/io.c: IFF_readLong, IFF_writeLong, IFF_readULong, IFF_writeULong"]}
{"id": "C45", "title": "A chunk's declared size is a virtual end of file for its contents", "statement": "While reading the contents of a group chunk, no byte beyond the group's declared size is consumed, even if its members are malformed (doc/IFF.asc: programs must respect every chunk's ckSize as a virtual end-of-file).", "quantifier": "all byte strings", "why_tests_cant": "adversarial inputs", "anchors": ["src/libiff/group.c: readGroupSubChunks", "src/libiff/list.c: readListSubChunks", "src/libiff/field.c: fieldDoesNotFitInChunk"]}
{"id": "C46", "title": "Filler chunks are accepted", "statement": "A valid file stays valid when filler chunks (ID of four spaces, doc/IFF.asc) are inserted in a FORM.", "quantifier": "all valid hierarchies", "why_tests_cant": "all hierarchies", "anchors": ["src/libiff/id.c: IFF_checkId", "doc/IFF.asc"]}
{"id": "C47", "title": "PROPs after other LIST members are rejected", "statement": "IFF_read followed by IFF_check accepts a LIST only if its PROP chunks precede all other members (doc/IFF.asc: LIST ::= ContentsType PROP* (FORM | LIST | CAT)*).", "quantifier": "all byte strings", "why_tests_cant": "all inputs", "anchors": ["src/libiff/list.c: readListSubChunks, IFF_checkList", "doc/IFF.asc"]}
{"id": "C48", "title": "iffpp prints the file named on its command line", "statement": "iffpp (Visual C++ option parser) opens the argument that is not an option, or standard input if there is none, and disables the check iff /c is given - in whatever order they stand.", "quantifier": "all argument vectors with at most one file name", "why_tests_cant": "the Visual C++ branch is not compiled on the test platforms; all argument orders", "anchors": ["src/iffpp/main.c: main"]}
{"id": "C49", "title": "No operation fails silently", "statement": "Whenever IFF_read or IFF_readFd returns NULL, the last diagnostic emitted says that the file cannot be opened or its main chunk cannot be read. IFF_write, IFF_writeFd and IFF_check return FALSE exactly if the call emitted at least one diagnostic.", "quantifier": "all registries, inputs, hierarchies (with inconsistent sizes too), streams that fail after any number of bytes, allocators that refuse raw data", "why_tests_cant": "all failure positions; the sentinel -1 of the size computation could coincide with a wrapped-around sum", "anchors": ["src/libiff/iff.c: IFF_readFd, IFF_writeFd, IFF_check", "src/libiff/group.c: IFF_checkGroupSubChunks, IFF_incrementChunkSize", "src/libiff/io.c", "src/libiff/id.c"]}
{"id": "C50", "title": "Checking, comparing and printing only look at the hierarchy", "statement": "IFF_check, IFF_compare and IFF_print access only blocks of the hierarchies they are given, each as the struct it is and within its bounds, allocate and free nothing and leave the memory unchanged; their results, diagnostics and output depend on the hierarchies alone, not on where in memory they are.", "quantifier": "all hierarchies in memory, all registries, all memories, addresses and indentation levels", "why_tests_cant": "all shapes of hierarchies and of the heap around them; an invalid read usually goes unnoticed", "anchors": ["src/libiff/iff.c: IFF_check, IFF_compare, IFF_print", "src/libiff/chunk.c", "src/libiff/group.c", "src/libiff/list.c", "src/libiff/rawchunk.c"]}
{"id": "C51", "title": "Writing leaves the hierarchy in memory as it is", "statement": "IFF_writeFd accesses only blocks of the hierarchy it is given and its own buffer of filler bytes, which it frees on all paths; the memory afterwards is the memory before, and what is written depends on the hierarchy alone. When the filler bytes cannot be allocated the result is FALSE.", "quantifier": "all hierarchies in memory, all registries, all allocators and all streams", "why_tests_cant": "allocation failure inside the writer and write errors at every position", "anchors": ["src/libiff/iff.c: IFF_writeFd", "src/libiff/io.c: IFF_writeZeroFillerBytes", "src/libiff/chunk.c: IFF_writeChunk"]}
{"id": "C52", "title": "iffpp frees what it reads", "statement": "Whenever IFF_prettyPrint returns, whatever the file contains, with and without the check and whatever requests the allocator refuses, it has freed everything it allocated and nothing else. If no request is refused its status, output and diagnostics depend on the file alone.", "quantifier": "all files, both settings of the check, all allocators and all memories before the call", "why_tests_cant": "all paths of the reader, the checker and the printer with all patterns of allocation failure", "anchors": ["src/iffpp/pp.c: IFF_prettyPrint", "src/libiff/iff.c: IFF_readFile, IFF_check, IFF_print, IFF_free"]}
{"id": "C53", "title": "iffjoin frees what it reads and builds", "statement": "Whenever IFF_join is called, it returns, and has then freed everything it allocated and nothing else: the concatenation, the inputs that were added to it, and the input that made it give up. If no request is refused its status, the output file and the diagnostics depend on the inputs alone.", "quantifier": "all lists of input files, all destinations, all allocators and all memories before the call", "why_tests_cant": "all combinations of valid, invalid and unreadable inputs with all patterns of allocation failure", "anchors": ["src/iffjoin/join.c: IFF_join", "src/libiff/cat.c: IFF_createEmptyCAT, IFF_addToCATAndUpdateContentsType", "src/libiff/iff.c: IFF_free"]}
{"id": "C54", "title": "The reader's demands on the allocator are bounded by the file", "statement": "Reading a file makes at most three allocation requests per eight bytes of the file, and never asks for more bytes of chunk data than the file contains.", "quantifier": "all files, registries, allocators and memories before the call", "why_tests_cant": "all files, including hostile ones, with all patterns of allocation failure", "anchors": ["src/libiff/chunk.c: IFF_readChunk", "src/libiff/rawchunk.c: IFF_createRawChunk, IFF_readRawChunk", "src/libiff/group.c: IFF_readGroup", "src/libiff/list.c: IFF_readList"]}
{"id": "C55", "title": "The tools do what their command line means", "statement": "With getopt and with getopt_long, every command line of iffjoin and iffpp has exactly one meaning, and the tool acts on it: iffjoin writes to the last output file named and joins the other arguments in order, iffpp disables the check iff asked and prints the first file or standard input; help and version requests exit with 0, wrong uses print the usage and exit with 1.", "quantifier": "all argument vectors, and whether the tool's own allocation succeeds", "why_tests_cant": "all argument vectors, with all abbreviations, clusters and orders of options", "anchors": ["src/iffjoin/main.c: main", "src/iffpp/main.c: main"]}
{"id": "C56", "title": "The printed text determines the hierarchy", "statement": "IFF_print and iffpp show a hierarchy in a fixed layout from which every ID, size, type and data byte can be recovered: two hierarchies with the same text are the same, two files for which iffpp prints the same hold the same hierarchy, and IFF_compare says TRUE exactly if the texts are the same.", "quantifier": "all hierarchies of the default registry whose data chunks hold the bytes they declare (all that are read), all files, all levels of indentation", "why_tests_cant": "pairs of arbitrary hierarchies; texts may contain anything that looks like the layout", "anchors": ["src/libiff/chunk.c: IFF_printChunk", "src/libiff/group.c: IFF_printGroup", "src/libiff/list.c: IFF_printList", "src/libiff/rawchunk.c: IFF_printRawChunk", "src/libiff/util.c: IFF_printIndent", "src/iffpp/pp.c: IFF_prettyPrint"]}
{"id": "C57", "title": "The tools change the file their command line names, and nothing else", "statement": "Whenever iffjoin ends, no file has changed but the output file named on the command line, and that only if all inputs were readable and valid. If they were and the result fits (2 GiB, medium), the output is the CAT of the inputs as they were at the start, even if the output file is one of the inputs, and iffpp of it prints the texts of the inputs in order. iffpp changes no file.", "quantifier": "all command lines (getopt and getopt_long), all contents of all files, all media", "why_tests_cant": "all combinations of options, file names (also repeated ones and the output among the inputs) and contents", "anchors": ["src/iffjoin/main.c: main", "src/iffjoin/join.c: IFF_join", "src/iffpp/main.c: main", "src/iffpp/pp.c: IFF_prettyPrint", "src/libiff/iff.c: IFF_readFile, IFF_writeFile, IFF_read, IFF_write"]}
{"id": "C58", "title": "The diagnostics are lines of text that determine what was reported", "statement": "Every diagnostic of the library sends exactly one line to standard error, the same on every platform, and the text of a run determines the sequence of diagnostics with everything they mention; in particular the text of IFF_check determines its verdict and is empty exactly if the hierarchy is valid.", "quantifier": "all sequences of diagnostics whose attribute and file names have no line breaks; all hierarchies, inputs and media for the runs of IFF_check, IFF_readFd and IFF_writeFd with the default registry; both signednesses of char", "why_tests_cant": "Two different reports with the same text, or a message whose line is not finished, show only for particular contents (IDs with quotes, negative sizes, signed characters); a test compares a few texts.", "anchors": ["src/libiff/error.c: IFF_error, IFF_errorId, IFF_readError, IFF_writeError", "src/libiff/id.c: IFF_checkId", "src/libiff/group.c: IFF_checkGroupChunkSize", "src/libiff/iff.c: IFF_readFd, IFF_check"]}
{"id": "C59", "title": "The library and the tools behave the same on every platform", "statement": "Consider two machines that differ in the width of size_t (at least 32 bits), in byte order and in the signedness of char, and whose streams and allocators answer alike to the requests both can express (below 2 GiB). On both, IFF_readFd gives the same hierarchy, stream position and diagnostics for every input; IFF_writeFd the same bytes, result and diagnostics for every hierarchy that the structs can represent; IFF_compare the same answer; IFF_check the same verdict and the same text on standard error; undefined behaviour occurs on both or on none. The programs iffjoin and iffpp leave the same files, standard output, standard error and exit status for every command line and every state of the files.", "quantifier": "all pairs of machines, all inputs, all hierarchies, all registries whose chunks have less than 2 GiB of fields, all command lines and file contents", "why_tests_cant": "A test suite runs on one machine; size computations in size_t, byte swaps and char comparisons that go wrong only on another width, byte order or signedness are not executed, and the inputs that expose them (negative or huge sizes, bytes above 0x7f) are not in the test data.", "anchors": ["src/libiff/field.c:31-39", "src/libiff/io.c:53-207", "src/libiff/rawchunk.c:30-102", "src/libiff/group.c:270", "src/libiff/id.c:45-72", "src/libiff/form.c:93-114", "src/iffjoin/join.c:31-61", "src/iffpp/pp.c:25-55"]}
{"id": "C60", "title": "The text of the reader does what the model of the reader does", "statement": "Run by the C semantics, the syntax trees of IFF_readFd and IFF_free (and of everything they call: all read and free functions of the chunk types, the registry lookup, creation and attachment of chunks, field and ID input) return what the heap model returns, with the same memory, the same rest of the input and the same IFF_error calls, whenever the model has a defined result. Hence for the default registry the text of IFF_readFd always returns if no array is refused and no group size is negative, builds the encoded hierarchy, and IFF_free releases every block; and the text has the two defects of C16 and C37.", "quantifier": "all inputs up to 4 GiB, all registries whose types are linked consistently, all allocators, all platforms, all states of the rest of the program", "why_tests_cant": "a statement about the program text under every allocator and platform", "anchors": ["src/libiff/iff.c: IFF_readFd, IFF_free", "src/libiff/chunk.c: IFF_readChunk, IFF_freeChunk", "src/libiff/group.c", "src/libiff/list.c", "src/libiff/rawchunk.c", "src/libiff/chunkregistry.c", "src/libiff/io.c", "src/libiff/field.c"]}
{"id": "C61", "title": "The text of the writer and of the comparison does what the model does", "statement": "Run by the C semantics, the syntax trees of IFF_writeFd and IFF_compare (and of everything they call) return what the heap model returns, with the same memory, the same bytes on the stream and the same IFF_error calls, whenever the model has a defined result. Hence, for a consistent hierarchy of standard chunks, the text of IFF_writeFd writes the encoding and returns 1 if and only if the stream takes all of it; the text of IFF_compare returns 1 if and only if two consistent hierarchies are equal; and reading a file and writing the result, both as text, copies it byte for byte.", "quantifier": "all hierarchies in memory, all registries whose types are linked consistently, all allocators, platforms and streams, all states of the rest of the program", "why_tests_cant": "a statement about the program text under every allocator, stream and platform", "anchors": ["src/libiff/iff.c: IFF_writeFd, IFF_compare", "src/libiff/chunk.c: IFF_writeChunk, IFF_compareChunk", "src/libiff/group.c", "src/libiff/list.c", "src/libiff/rawchunk.c", "src/libiff/io.c", "src/libiff/id.c"]}
{"id": "C62", "title": "The text of the checker does what the model does", "statement": "Run by the C semantics, the syntax trees of IFF_check (and of everything it calls) return what the heap model returns, with the same IFF_error calls and the memory unchanged, whenever the model has a defined result. Hence, for a hierarchy of standard chunks whose encoding is below 2 GiB, the text of IFF_check returns 1 if and only if the hierarchy conforms to the standard, reports nothing if it does and at least one error if it does not; reading a file and checking the result, both as text, accepts exactly the conforming hierarchies.", "quantifier": "all hierarchies in memory, all registries whose types are linked consistently, all platforms, all states of the rest of the program", "why_tests_cant": "a statement about the program text for every hierarchy, of any size and depth", "anchors": ["src/libiff/iff.c: IFF_check", "src/libiff/chunk.c: IFF_checkChunk", "src/libiff/group.c: IFF_checkGroup, IFF_checkGroupSubChunks, IFF_checkGroupChunkSize", "src/libiff/list.c: IFF_checkList", "src/libiff/form.c", "src/libiff/cat.c", "src/libiff/prop.c", "src/libiff/id.c: IFF_checkId"]}
{"id": "C63", "title": "The text of the pretty printer does what the model does", "statement": "Run by the C semantics, the syntax trees of IFF_print (and of everything it calls) print what the heap model prints, with the memory unchanged, whenever the model has a defined result and the nesting can be counted by an unsigned int. Hence, for a hierarchy of standard chunks whose raw chunks have their data, the text of IFF_print prints exactly the specified text of the hierarchy; reading a file and printing the result, both as text, prints the specified text of what is in the file.", "quantifier": "all hierarchies in memory, all registries whose types are linked consistently, all levels of indentation, all platforms, all states of the rest of the program", "why_tests_cant": "a statement about the program text for every hierarchy, of any size and depth", "anchors": ["src/libiff/iff.c: IFF_print", "src/libiff/chunk.c: IFF_printChunk", "src/libiff/group.c: IFF_printGroup, IFF_printGroupSubChunks, IFF_printGroupType", "src/libiff/list.c: IFF_printList, printListPropChunks", "src/libiff/form.c", "src/libiff/cat.c", "src/libiff/prop.c", "src/libiff/rawchunk.c: IFF_printRawChunk, IFF_printText, IFF_printRaw", "src/libiff/id.c: IFF_printId"]}
{"id": "C64", "title": "The text of property lookup does what the model does", "statement": "Run by the C semantics, the syntax trees of IFF_getChunkFromForm, IFF_getDataChunkFromForm, IFF_getChunkFromProp and IFF_getPropFromList return the pointer the heap model returns and change nothing, whenever the model has a defined result, parent pointers point to groups and the memory fits the address space. Hence, for a group anywhere in a hierarchy of well-typed chunks, the text of IFF_getChunkFromForm returns the chunk that applies: the member of the group, else that of the PROP of its type in the nearest enclosing LIST that has one. Reading a file and looking up, both as text, finds what the IFF standard says for every group in the file.", "quantifier": "all memories, all hierarchies, all positions in them, all IDs, all platforms, all states of the rest of the program", "why_tests_cant": "a statement about the program text for every hierarchy, of any size and depth", "anchors": ["src/libiff/form.c: IFF_getChunkFromForm, IFF_getDataChunkFromForm, searchList, searchProperty", "src/libiff/prop.c: IFF_getChunkFromProp", "src/libiff/list.c: IFF_getPropFromList"]}
{"id": "C65", "title": "The text of IFF_updateChunkSizes does what the model does", "statement": "Run by the C semantics, the syntax tree of IFF_updateChunkSizes (and of everything it calls) leaves the memory the heap model leaves, whenever the model has a defined result. Hence, for a chunk anywhere in a hierarchy whose other parts have consistent sizes, the text corrects the sizes of the chunk and of all groups around it, so that the whole hierarchy is consistent, and changes no other struct and nothing but sizes.", "quantifier": "all memories, all hierarchies, all positions in them, all platforms, all states of the rest of the program", "why_tests_cant": "a statement about the program text for every hierarchy, of any size and depth", "anchors": ["src/libiff/group.c: IFF_updateChunkSizes, IFF_incrementChunkSize", "src/libiff/group.c: IFF_updateGroupChunkSizes", "src/libiff/list.c: IFF_updateListChunkSizes", "src/libiff/form.c: IFF_updateFormChunkSizes", "src/libiff/cat.c: IFF_updateCATChunkSizes", "src/libiff/prop.c: IFF_updatePropChunkSizes"]}
{"id": "C66", "title": "The text of the functions that build hierarchies does what the model does", "statement": "Run by the C semantics, the syntax trees of the functions an application builds hierarchies with do what the heap model does, whenever the model has a defined result: creating FORMs, CATs, LISTs, PROPs and raw chunks, filling raw chunks with data or text, adding chunks to groups and PROPs to lists, updating contents types, reading, updating sizes and freeing. This extends to sequences of calls: every program of such calls that has a defined result in the model ends in the same state when the text is executed, as long as the arrays of pointers stay below 4 GiB; if the calls are allowed (no chunk is put into two groups or into itself), parent pointers are correct in the end.", "quantifier": "all sequences of calls, all allocators (including failing ones), all platforms, all data, all states of the rest of the program", "why_tests_cant": "a statement about the program text for programs of any length, under every allocator", "anchors": ["src/libiff/group.c: IFF_createEmptyGroup, IFF_addToGroup", "src/libiff/form.c: IFF_createEmptyForm, IFF_addToForm", "src/libiff/cat.c: IFF_createEmptyCAT, IFF_addToCAT, updateContentsType, IFF_addToCATAndUpdateContentsType", "src/libiff/prop.c: IFF_createEmptyProp, IFF_addToProp", "src/libiff/list.c: IFF_createEmptyList, IFF_addToList, IFF_addPropToList, IFF_addToListAndUpdateContentsType", "src/libiff/rawchunk.c: IFF_createRawChunk, IFF_copyDataToRawChunkData, IFF_setTextData, IFF_setRawChunkData"]}
{"id": "C67", "title": "The text of the searches does what the model does", "statement": "Run by the C semantics, the syntax trees of IFF_searchFormsFromArray, IFF_searchForms and IFF_getChunksFromForm return the pointer, store the length and leave the memory that the heap model does, whenever the model has a defined result and the result has less than 2^29 elements. Hence, where arrays of the needed length are not refused, the text of the searches returns an array of the outermost FORMs of the requested types in document order, the text of IFF_getChunksFromForm one of all members with the ID, and no existing struct or array changes. As C39 says of the model, the text leaks: unless the searched chunk itself is a requested FORM, a search that finds something leaves a block behind after its result has been freed.", "quantifier": "all memories, all hierarchies, all form types and IDs, all platforms, all allocators that do not refuse arrays of the needed length, all states of the rest of the program", "why_tests_cant": "a statement about the program text for every hierarchy, of any size and depth", "anchors": ["src/libiff/form.c: IFF_mergeFormArray, IFF_searchFormsInForm, IFF_getChunksFromForm", "src/libiff/group.c: IFF_searchFormsInGroup, IFF_searchFormsFromArray, IFF_searchForms", "src/libiff/cat.c: IFF_searchFormsInCAT", "src/libiff/list.c: IFF_searchFormsInList"]}
{"id": "C68", "title": "The text of the tools does what the model does", "statement": "Run by the C semantics, the syntax trees of IFF_prettyPrint, IFF_join, IFF_read and IFF_write, on named files and on the standard streams, return the status, print and write the bytes, make the diagnostics and leave the memory that the heap model does, whenever the model has a defined result. Hence, where no request that is not much larger than the input is refused: the text of IFF_prettyPrint, on any file below 2 GiB without negative group sizes, returns 0 and has printed the specified text of the hierarchy if the file is readable and (valid or the check is disabled), otherwise returns 1 and has printed nothing, and has freed all it allocated; the text of IFF_join, on any such files, writes the CAT of the inputs if all are valid, and otherwise returns 1 and writes nothing. As C53 says of the model, the text of IFF_join leaks an input that IFF_check rejects, and dereferences NULL if the CAT is refused.", "quantifier": "all files, lists of files and destinations, both option settings, all memories, all platforms, all allocators (the consequences: that serve the requests), all states of the rest of the program", "why_tests_cant": "a statement about the program text for every file and every number of files", "anchors": ["src/iffpp/pp.c: IFF_prettyPrint", "src/iffjoin/join.c: IFF_join", "src/libiff/iff.c: IFF_readFile, IFF_read, IFF_writeFile, IFF_write"]}
{"id": "C69", "title": "The text of the main functions does what the command line says", "statement": "Run by the C semantics from the start of the program, the syntax trees of the main functions of iffpp and iffjoin, with getopt and with getopt_long, do for every command line what C55 says it means: they print the usage or the version and return 0, print the usage and return 1 for an undeclared option or a missing argument, return 1 if iffjoin has no input, and otherwise call IFF_prettyPrint or IFF_join with the option, the file, the inputs in order and the output that the command line names, and return its status. Hence, with C68: iffpp, on any file below 2 GiB without negative group sizes, and if the requests for memory are served, prints the specified text of the hierarchy and returns 0, or prints nothing and returns 1, and has nothing allocated at the end; iffjoin, on any such files, writes their CAT and returns 0 with nothing allocated, or returns 1. iffjoin leaks an input that IFF_check rejects (C53), and dereferences NULL if the array of the file names is refused.", "quantifier": "all command lines of at most 2^31-2 arguments, all names of the program, all files, destinations and standard inputs, both option parsers, all platforms, all allocators (the consequences: that serve the requests)", "why_tests_cant": "a statement about the program text for every command line and all contents of the files", "anchors": ["src/iffpp/main.c: main, printUsage, printVersion", "src/iffjoin/main.c: main, printUsage, printVersion"]}
{"id": "C70", "title": "The text of the main functions for Visual C++ does what C42 and C48 say", "statement": "Run by the C semantics from the start of the program, the syntax trees of the main functions of iffpp and iffjoin, as the preprocessor leaves them for Visual C++, do for every command line what the models of C42 and C48 say, and this has a closed form: the first of the arguments /? and /v, wherever it is, makes them print the usage or the version and return 0; otherwise as many arguments are skipped at the start as there are options /c or /o, whatever these arguments are, and the next one is iffpp's file, and all the next ones are iffjoin's inputs. iffpp's check is disabled if and only if /c is an argument. With an option /o, the output of iffjoin is a file with the name /o, never the one that the usage promises: if such a file cannot be opened, iffjoin writes nothing and returns 1, whatever files are named. Without options the consequences of C69 for the programs hold here too.", "quantifier": "all command lines of at most 2^31-2 arguments, all names of the program, all files, destinations and standard inputs, all platforms, all allocators (the consequences: that serve the requests)", "why_tests_cant": "a statement about the program text for every command line; this variant is not even compiled by the usual build", "anchors": ["src/iffpp/main.c: main, printUsage, printVersion", "src/iffjoin/main.c: main, printUsage, printVersion"]}
{"id": "C71", "title": "The text of the functions for the fields of application-defined chunks", "statement": "Run by the C semantics, the syntax trees of the twelve functions of field.c (and of the functions of io.c and id.c that they call) do the following, on every platform, for every chunk and every bytesProcessed that is not negative. A field that fits in the chunk and is in the file is read: the object gets the number that the bytes denote, most significant byte first (for the signed types in two's complement), exactly these bytes are consumed, bytesProcessed advances by their number, and IFF_FIELD_MORE is returned; if the file ends before, nothing is stored, bytesProcessed stays, there is one message, and IFF_FIELD_FAILURE is returned. Writing is likewise, and what is written on one platform is read on any other as the same number. A field that does not fit in a chunk that is at least as large as the field is neither read nor written, nothing changes, and IFF_FIELD_LAST is returned; but in a chunk that is smaller than the field, in particular one with a negative size, the field is transferred wherever it starts, beyond the end of the chunk.", "quantifier": "all platforms (byte orders, pointers of 4 or 8 bytes), all six kinds of fields and all values, all chunks, all chunk sizes, all bytesProcessed from 0 to 2^31-1 less the size of the field, all heaps, stacks, inputs and capacities of the output", "why_tests_cant": "a statement about the program text for all values of all types, positions and platforms; one machine has one byte order", "anchors": ["src/libiff/field.c: IFF_readUByteField, IFF_readUWordField, IFF_readWordField, IFF_readULongField, IFF_readLongField, IFF_readIdField, IFF_writeUByteField, IFF_writeUWordField, IFF_writeWordField, IFF_writeULongField, IFF_writeLongField, IFF_writeIdField, fieldDoesNotFitInChunk, increaseBytesProcessed", "src/libiff/io.c: IFF_readUByte, IFF_writeUByte, IFF_readUWord, IFF_writeUWord, IFF_readWord, IFF_writeWord, IFF_readULong, IFF_writeULong, IFF_readLong, IFF_writeLong", "src/libiff/id.c: IFF_readId, IFF_writeId"]}
{"id": "C72", "title": "The text of an application's chunks and functions", "statement": "Run by the C semantics in a program linked with the library, the syntax trees of tests/hello.c, tests/bye.c and tests/test.c do what the model says of an application. The static variables of test.c are the registry of the model: the HELO and BYE chunks, inside of FORMs of type TEST. Whenever the heap model with that registry has a result, TEST_read, TEST_write, TEST_free, TEST_check, TEST_print and TEST_compare return it and have the same effects. TEST_createHello and TEST_createBye return a new chunk with fields of zero. TEST_read of the encoding of a consistent hierarchy returns a pointer to that hierarchy; a program that reads it, writes it and frees it has copied the file byte for byte and holds no memory; TEST_compare returns 1 exactly for equal hierarchies; TEST_check returns 1 exactly for those that conform to the standard and whose HELO chunks in FORMs of type TEST have a c of at most 1024. Reading is defined for every input.", "quantifier": "all platforms, allocators, heaps, stacks, inputs, outputs and diagnostics before; all hierarchies of standard chunks and HELO and BYE chunks of any size", "why_tests_cant": "a statement about the program text of an application and the library together for all files, all hierarchies and all behaviours of the allocator", "anchors": ["tests/hello.c: TEST_createHello, TEST_createHelloChunk, TEST_readHello, TEST_writeHello, TEST_checkHello, TEST_freeHello, TEST_printHello, TEST_compareHello", "tests/bye.c: TEST_createBye, TEST_createByeChunk, TEST_readBye, TEST_writeBye, TEST_checkBye, TEST_freeBye, TEST_printBye, TEST_compareBye", "tests/test.c: TEST_read, TEST_write, TEST_free, TEST_check, TEST_print, TEST_compare, chunkRegistry"]}
{"id": "C73", "title": "Everything that is released has one owner", "statement": "On any heap, also one that does not hold a proper hierarchy: if IFF_free returns, then every chunk that is reached from the released chunk through the arrays of members and of PROPs was allocated, is reached along one path only, and is released, and nothing that remains has changed. So a chunk that was added twice, or to two groups of the same hierarchy, a group inside of itself, and a pointer to a chunk that has been released already, all make IFF_free run into undefined behaviour instead of returning. The library does not prevent this: adding a chunk twice succeeds.", "quantifier": "all heaps with nothing at the address NULL, chunks, registries, paths and nesting depths", "why_tests_cant": "a statement about all heaps, including those that no test would build because releasing them is undefined", "anchors": ["src/libiff/chunk.c: IFF_freeChunk", "src/libiff/group.c: IFF_freeGroup, IFF_addToGroup, IFF_attachToGroup", "src/libiff/list.c: IFF_freeList", "src/libiff/iff.c: IFF_free"]}
{"id": "C74", "title": "The test programs decide what they are meant to decide", "statement": "Run by the C semantics from their main functions, linked with the library: tests/validiff.c ends with status 0 if the named file (or the standard input) begins with a well-formed encoding of a hierarchy that conforms to the standard, and with status 1 otherwise, also if the file cannot be opened; tests/invalidiff.c ends with the opposite status. Both print nothing, write nothing, and hold no memory at the end. tests/checkextension.c, on the encoding of a hierarchy with the chunks of the tests' application, ends with status 1 if the hierarchy conforms to the standard and its HELO chunks have a c of at most 1024, and with status 0 otherwise. tests/ppextension.c prints such a hierarchy in the specified layout, and ends with status 0.", "quantifier": "all platforms, allocators that serve requests up to the length of the file plus 256 bytes, command names and arguments; for validiff and invalidiff all files and standard inputs below 2 GiB without groups of negative size; for checkextension and ppextension all encodings of consistent hierarchies with the chunks of the application", "why_tests_cant": "the repository runs each program on a handful of fixtures; the statement is about every file", "anchors": ["tests/validiff.c: main", "tests/invalidiff.c: main", "tests/checkextension.c: main", "tests/ppextension.c: main"]}
{"id": "C75", "title": "The text of an application's hierarchies is laid out as specified, and determines them", "statement": "With any registry that is sorted, whose types have a list of printed field names: IFF_print of a hierarchy whose chunks have the forms that the registry gives them prints the header lines with ID and size, the form or contents type, the raw data in rows of hexadecimal bytes, the fields of application-defined chunks one per line as name, equals sign, value and semicolon (bytes as they are, numbers in decimal), and the members, each level indented by two spaces more. Two such hierarchies with the same text are equal, in every ID, size, type, byte and field. For the tests' application the names are a, b and c in HELO chunks, and one and two in BYE chunks.", "quantifier": "all sorted registries with named fields, all hierarchies that fit the registry, all indentation levels", "why_tests_cant": "a statement about the texts of all hierarchies and all pairs of hierarchies, for all registries", "anchors": ["src/libiff/chunk.c: IFF_printChunk", "src/libiff/group.c: IFF_printGroup", "src/libiff/list.c: IFF_printList", "src/libiff/rawchunk.c: IFF_printRawChunk", "tests/hello.c: TEST_printHello", "tests/bye.c: TEST_printBye"]}
{"id": "C76", "title": "Every consistent hierarchy can be built with the functions of the library", "statement": "For every consistent hierarchy of raw chunks, FORMs, CATs, LISTs and PROPs, with the PROPs of a LIST apart from its other members, there is a sequence of calls, one to create each chunk and one to add each chunk to its parent, such that executing the text of these functions one after another returns each time without undefined behaviour, and leaves the memory holding exactly this hierarchy, with its sizes, and what it held before. With room in the output file IFF_writeFd then returns 1 and has written exactly the encoding of the hierarchy, and after IFF_free no block of memory is in use.", "quantifier": "all platforms, all consistent hierarchies of standard chunks (of any depth and number of members), all allocators that serve requests up to the length of the file plus 256 bytes", "why_tests_cant": "the tests build a few hierarchies by hand; that the interface suffices for every file is a statement about all of them", "anchors": ["src/libiff/group.c: IFF_addToGroup", "src/libiff/list.c: IFF_addPropToList", "src/libiff/list.c: IFF_addToList", "src/libiff/form.c: IFF_createEmptyForm", "src/libiff/cat.c: IFF_createEmptyCATWithContentsType", "src/libiff/prop.c: IFF_createEmptyProp", "src/libiff/list.c: IFF_createEmptyListWithContentsType", "src/libiff/rawchunk.c: IFF_createRawChunk", "src/libiff/iff.c: IFF_writeFd", "src/libiff/iff.c: IFF_free"]}
{"id": "C77", "title": "The test programs write their files and recognise them", "statement": "For each of the five pairs of programs writeform/readform, writeform-pad/readform-pad, writecat/readcat, writenestedform/readnestedform and writelist/readlist, executing the text of main with the text of the test data and of the library: the writing program never has undefined behaviour, frees all memory, and returns 0 with exactly the intended bytes in the file if the file can be opened and takes all of them, and otherwise returns 1 (with the first of the bytes in the file, if it could be opened). The reading program never has undefined behaviour, frees all memory, writes nothing, and returns 0 if and only if the file can be opened and begins with an encoding of the intended hierarchy, whatever else it holds.", "quantifier": "all platforms, all allocators that serve requests up to the length of the file plus 1024 bytes, all capacities of the written file, all files below 2 GiB without negative group sizes, all command lines", "why_tests_cant": "each test program is run on one file: the one its counterpart wrote; what it does on other files, on a full device, and on other platforms is not tested", "anchors": ["tests/formdata.c: IFF_createTestForm", "tests/formdata-pad.c: IFF_createTestForm", "tests/catdata.c: IFF_createTestCAT", "tests/nestedformdata.c: IFF_createTestForm", "tests/listdata.c: IFF_createTestList", "tests/writeform.c: main", "tests/readform.c: main", "tests/writeform-pad.c: main", "tests/readform-pad.c: main", "tests/writecat.c: main", "tests/readcat.c: main", "tests/writenestedform.c: main", "tests/readnestedform.c: main", "tests/writelist.c: main", "tests/readlist.c: main", "src/libiff/iff.c: IFF_compare"]}
{"id": "C78", "title": "The test programs that search find what they are meant to find", "statement": "Executing the text of the mains of searchforms-form, searchforms-cat and searchforms-nestedform with the text of the library never has undefined behaviour, writes and prints nothing, frees all memory, and returns 0 if and only if the file can be opened and read and has exactly 1, 2 and 2 FORMs of type TEST, respectively, that are not inside another such FORM; otherwise it returns 1. Executing that of lookupproperty-simple never has undefined behaviour, writes and prints nothing, frees all memory, and returns 0 if and only if the file can be opened and read and is a FORM with a member HELO; otherwise it returns 1.", "quantifier": "all platforms, all allocators that serve requests up to the length of the file plus 1024 bytes, all files below 2 GiB without negative group sizes, all command lines", "why_tests_cant": "each test program is run on one file that has what it looks for; a program that returned 0 on every file, or one that leaks, would pass the test suite", "anchors": ["tests/searchforms-form.c: main", "tests/searchforms-cat.c: main", "tests/searchforms-nestedform.c: main", "tests/lookupproperty-simple.c: main", "src/libiff/iff.c: IFF_searchForms", "src/libiff/form.c: IFF_getChunkFromForm"]}
{"id": "C79", "title": "The test programs that look for inherited chunks find what applies", "statement": "Executing the text of the mains of lookupproperty-prop, lookupproperty-override and lookupproperty-nested with the text of the library never has undefined behaviour, writes and prints nothing, frees all memory, and returns 0 or 1. lookupproperty-prop returns 0 if and only if list.TEST can be opened and read, has a FORM of type TEST that is not inside another such FORM, and a chunk HELO applies to the first one: a member of the FORM, or else a member of the PROP of type TEST of the nearest LIST around it that has one. lookupproperty-override returns 0 if and only if lookupproperty-override.TEST can be opened and read, has exactly two such FORMs, and the chunk HELO that applies to the first one has the contents 1, 2, 3, 4. lookupproperty-nested returns 0 if and only if lookupproperty-nested.TEST can be opened and read, has exactly two such FORMs, and chunks HELO and BYE apply to the second one, with the contents 1, 2, 3, 4 and q, w, e, r.", "quantifier": "all platforms, all allocators that serve requests up to the length of the file plus 1024 bytes, all files below 2 GiB without negative group sizes, all command lines", "why_tests_cant": "each test program is run on one file that has what it looks for; one that returned 0 on every file, one that compared the contents of the shared chunk instead of the FORM's own, or one that leaks, would pass", "anchors": ["tests/lookupproperty-prop.c: main", "tests/lookupproperty-override.c: main", "tests/lookupproperty-nested.c: main", "src/libiff/iff.c: IFF_searchForms", "src/libiff/form.c: IFF_getChunkFromForm"]}
{"id": "C80", "title": "The programs of the test suite pass on what the programs before them have written", "statement": "Executing the text of the mains of the five test programs that write (writeform, writeform-pad, writecat, writenestedform, writelist), each returns 0 and writes its file if the file takes all bytes; and on any machine where that file is then found, each of the programs that the Makefile runs on it afterwards returns 0: the program that reads it, searchforms-form and lookupproperty-simple on hello.TEST, searchforms-cat on cat.TEST, searchforms-nestedform on nestedform.TEST, and lookupproperty-prop on list.TEST. The searching programs return 0 on every file that begins with an encoding of the same hierarchy.", "quantifier": "all pairs of platforms (word sizes, byte orders), all allocators that serve requests of up to 1024 bytes (writing) and 1280 bytes (reading), all amounts of room for the file that are enough", "why_tests_cant": "the suite is run on one machine, with its own malloc; a file with the byte order of the machine, or a program that depends on where blocks are placed, would pass there", "anchors": ["tests/Makefile.am: TESTS", "tests/writeform.c: main", "tests/writelist.c: main", "tests/searchforms-form.c: main", "tests/lookupproperty-simple.c: main", "tests/lookupproperty-prop.c: main"]}
