# A Lean 4 model of svanderburg/libiff

The subject is the C code in `/repo`: the library `src/libiff`, the tools `src/iffjoin` and
`src/iffpp`, and the application format of `tests/` (the same as in `README.md`) as an example of
an application. The properties are in `properties.jsonl`, the theorems that prove them are listed
per property in `MANIFEST.json`, wrong programs the theorems were tried against in
`seeded/LOG.jsonl`. Everything is built by `lake build` in `lean/`.

## Layers

1. **C arithmetic and outcomes** (`Verif/Model/C.lean`). A piece of C has one of three outcomes: a
   value, undefined behaviour (`Out.ub`, with its kind: signed overflow, access through the wrong
   struct type, out of bounds, NULL, use after free, bad free), or `Out.loop`, which means that the
   recursion budget of the model was used up (theorems show that it does not occur). `IFF_Long`
   values are `Int`s in the 32-bit range. The platform is a parameter `Env`: width of `size_t`
   (at least 32), byte order, signedness of plain `char`, whether `malloc(n)` succeeds for the data
   of a raw chunk, whether the input can seek. Theorems quantify over it.
2. **Value model** (`Verif/Model/`): a chunk hierarchy is a finite tree `Chunk` whose constructor
   is the C struct it was allocated as. An input `FILE*` is the list of bytes still to be read, an
   output `FILE*` accepts a limited number of bytes, the error callback is a log of messages.
3. **Heap model** (`Verif/Heap/`): blocks, pointers and an arbitrary allocator (any addresses, any
   pattern of refused requests, addresses may be reused). The functions that allocate, link, change
   or free chunks are modelled on it a second time; refinement theorems (C36, C27_heap_add, C25,
   C26, C24, C29) tie them to the value model and to the specifications.
4. **C sources** (`Verif/Src/`): the functions of the library as syntax trees (`Src/Code/`), printed
   by the parser `tools/c2lean.py` from the text of `/repo`, and a semantics of the C they use
   (`Src/Syntax.lean`, `Src/Sem.lean`): integer types and conversions, structs, arrays, pointers into
   heap, stack and static blocks, function pointers, calls, loops, the library functions. Theorems
   (C60 ff.) say that running the text does what the heap model says, so that for these functions
   the heap model is not trusted, and the other theorems hold of the text.
5. **Specifications** (`Verif/Spec/`): written from doc/IFF.asc and the property statements without
   the functions of the model: big-endian digits, the encoding `encode` of a consistent hierarchy,
   the IFF-85 grammar `Encodes` as a relation between bytes and hierarchies, `Conforms`/`Legal`,
   the registry relation `HandlerFor`, paths in trees, represented hierarchies in memory (`In`).
6. **Property theorems** in `Verif/Props/`, with an example next to each that satisfies the
   hypotheses; more such cases in `Props/Instances.lean` and `Props/InstancesHeap.lean`; lemmas in
   `Verif/Proofs/`.

## How each property is proved

| id | modelled code | main proof idea |
|----|---------------|-----------------|
| C01 C02 C44 | io.c, id.c on byte streams, byte swaps as bit operations (also with the shifts of ISO C) | bit extensionality; cases on the remaining bytes |
| C03 C04 C05 | id.c, form.c decision functions over all 32-bit IDs | base-256 digits, arithmetic |
| C06 C41 | field.c with its `size_t` conversions | modular arithmetic; counterexample where the subtraction wraps |
| C07 C08 C40 | chunkregistry.c, bsearch as in glibc | loop invariant on sorted arrays; type confusion witness for the README registry |
| C09 C10 C11 C19 | writer on a stream with limited room | induction on the tree against `encode`; "writes a prefix" invariant |
| C12 C13 C45 C47 | reader and checker against the grammar | induction on the fuel (reader to grammar) and on the tree (grammar to reader) |
| C14 C17 | reader | locality of reading: what is read depends on the bytes consumed |
| C15 C16 C18 | reader with fuel | every chunk takes 8 bytes; the counter stays below the input length |
| C20 C21 C22 C46 | checker | induction on the tree against `Conforms`; a parity invariant for C21 |
| C23 | comparer | simultaneous induction on two trees |
| C24 C25 C26 C39 | form.c, group.c, list.c search functions on the heap | contexts (zippers) in represented hierarchies |
| C27 C28 C29 C35 C38 | create, add, update functions on values and on the heap | invariants over all histories of API calls (`History`) |
| C49 | every failure is reported | "fails iff it says so" as a predicate transformer over the writers and checkers; the sums that `IFF_check` compares with the sentinel -1 are even |
| C30 C31 C32 C42 C48 | tools | composition of the above; the dump is parsed back |
| C33 C34 C36 C37 | heap model of the reader and of `IFF_free` | simulation with the value model, for every allocator |
| C43 | table of all diagnostic call sites | finite case analysis over the constructors of `Msg` |
| C50 C51 | heap model of the checker, comparer, printer and writer | refinement of the value model: same outcome, same memory |
| C52 C53 | heap model of the tools | refinement of the tools on values; invariant of the loop of `IFF_join` |
| C54 | reader on the heap | potential function: requests against bytes consumed; grammar of accepted files |
| C55 | command lines with getopt, getopt_long | every command line has exactly one meaning in a grammar; the model computes it |
| C56 | printing, iffpp | specified layout; prefix-code argument by structural induction (members are indented deeper than the end of their array) |
| C57 | whole tools on named files | refinement to the tools on contents (C30, C31), command lines (C55), layout (C56) |
| C58 | diagnostics | text of `vfprintf`; prefix-free beginnings, then a parser per kind; the messages of all runs by a predicate on the log |
| C59 | platform independence of library and tools | equality of the reader, writer and comparison in two environments; relational simulation of the checker and of the tools up to the value of a char in a diagnostic |
| C60 | Each function is executed symbolically from its syntax tree; recursion by induction on the fuel of the model (Proofs/SrcRead, SrcReadChunk, SrcFree, SrcIff). |
| C61 | As C60 (Proofs/SrcWalk, SrcWriteIo, SrcWrite, SrcCompare). |
| C62 | the text of `IFF_check` refines `Heap.check` (`C62_check`); with C20, C22, C50 it decides `Conforms` (`C62_check_decides`), with C60 on files (`C62_reads_and_checks`) |
| C63 | the text of `IFF_print` refines `Heap.print` (`C63_print`); with C50 and C56 it prints `layout` (`C63_layout`), with C60 on files (`C63_reads_and_prints`) |
| C64 | the text of the lookup functions refines `Heap.getChunk` etc. (`C64_get_chunk`, `C64_get_data`, `C64_get_prop`); with C25 it finds the chunk that applies (`C64_lookup`), with C60 on files (`C64_reads_and_looks_up`) |
| C65 | the text of `IFF_updateChunkSizes` refines `Heap.updateSizes` (`C65_update`); with C29 it repairs a hierarchy (`C65_update_repairs`) |
| C66 | the text of each call refines the model's (`C66_call`, `C66_set_text`), and so does every program of calls (`C66_programs`); with C35 parent links are correct (`C66_links`) |
| C67 | the text of the searches refines `Heap.searchForms`, `Heap.getChunks` (`C67_search`, `C67_search_type`, `C67_get_chunks`); with C24, C26 and C39 it finds the outermost forms (`C67_finds_outermost`, `C67_finds_outermost_of_type`), all members (`C67_finds_members`), and leaks (`C67_search_leaks`) |
| C68 | the text of the tools refines `Heap.prettyPrint`, `Heap.join` (`C68_read`, `C68_write`, `C68_pretty_print`, `C68_join`); with C52, C31, C56 it prints the specified text and frees everything (`C68_pp_frees`, `C68_pp_same_result`, `C68_pp_prints`); with C53, C30 it joins (`C68_join_frees`, `C68_join_same_result`, `C68_join_joins`); it leaks a rejected input (`C68_join_leaks`, `C68_join_runs`) and dereferences NULL (`C68_join_null`) |
| C69 | symbolic execution of the text: the option loop follows the list of results of `getopt` (`C69_pp_main`, `C69_join_main`), then composition with C68 (`C69_pp_program`, `C69_join_program`, `C69_join_leaks`); the array of names is on the heap, and a simulation moves a static array there; without memory for it NULL is dereferenced (`C69_join_refused`) |
| C70 | induction over the loop over the arguments in the text (`C70_pp_main`, `C70_join_main`), agreement of the closed form with the models of C42 and C48 (`C70_means`), composition with C68 (`C70_pp_program`, `C70_join_program`); the output option does not work (`C70_output_false`) |
| C71 | symbolic execution of the text of every function to the model of C01, C02 and C06, for all states (`C71_read`, `C71_truncated`, `C71_write`, `C71_last`, `C71_overrun`); composition of a writing and a reading platform (`C71_exchange`) |
| C72 | symbolic execution of the text of the chunk functions to the model of application chunks, inside the simulation of C60 to C63 for the whole library; the static initialisers evaluated to the registry (`C72_registry`); composition with C36, C10, C09, C51, C34, C23, C20 for registries |
| C73 | induction on the nesting depth: a release that returns has released a list of allocated blocks without repetition, and the lists of the members are disjoint parts of it |
| C74 | the mains of four test programs, with the library's text: validiff/invalidiff decide whether the file begins with a well-formed, conforming hierarchy (`ValidFile`, for every file), checkextension decides conformance with the application's rule, ppextension prints the specified layout; no memory is left |
| C75 | print of hierarchies with application-defined chunks: the text is the specified layout (`layoutApp`), and hierarchies with the same text are equal, for every sorted registry with named fields; the names of the tests' application |
| C76 | create and add: for every consistent standard hierarchy the calls that create its chunks and add them to one another build exactly it, in the model and in the text; writing it gives its encoding, and freeing it leaves no memory |
| C77 | symbolic execution of the mains and of the functions that build the test data, each call of the library replaced by its result (C66, C68, C61); the bytes are the encoding of the hierarchy (`C77_writes`), with C12, C20, C23 the reading programs decide `Begins` (`C77_reads_partial`), and recognise what was written on another platform (`C77_round_trip`) |
| C78 | symbolic execution of the mains, each call of the library replaced by its result (C68, C67, C64, C73); the number of FORMs is a function of the hierarchy alone and at most an eighth of the length of the file (C54), so that it fits in the variable (`C78_searches_partial`, `C78_looks_up`); with C12 for files that begin with an encoding of a conforming hierarchy (`C78_finds`) |
| C79 | what applies is specified on hierarchies alone, from the top down, as what a LIST hands to its members (Spec/TestLookup); by induction on the hierarchy it is what the pointers upwards in memory lead to (C67, `applied_found`); symbolic execution of the mains, each call of the library replaced by its result (`C79_prop_partial`, `C79_override_partial`, `C79_nested_partial`); with C12 for files that begin with an encoding of a conforming hierarchy (`C79_prop_finds`, `C79_override_finds`, `C79_nested_finds`, `C79_after_writelist`) |
| C80 | composition of C77, C78 and C79: the bytes written are an encoding of the conforming hierarchy of the test data, in which the number of outermost FORMs and the chunks that apply are computed (`C80_searches`, `C80_looks_up`, `C80_suite`) |

## What is false of the code

The following are statements of `properties.jsonl` that do not hold. Each has a theorem with a
concrete witness (or a general negative statement) and a `_partial` theorem for the part that holds.

| id | fact about the code | theorem |
|----|---------------------|---------|
| C05, C12, C20 | of the punctuation marks only '.' is rejected in form types; 'A!BC' is accepted | C05_false, C12_false, C20_false |
| C06, C41 | field.c:31 computes `chunkSize - fieldSize` in `size_t`: in a chunk smaller than the field it wraps around and the field is transferred | C06_false, C06_small_chunk_partial, C41_false |
| C14, C17 | `IFF_skipUnknownBytes` seeks past the end of the file without noticing (application chunks only) | C14_false_with_application_chunks, C17_false_with_application_chunks |
| C16, C30, C31 | a group with a negative size makes `IFF_incrementChunkSize` overflow an `int` in its parent | C16_false, C30_false, C31_false |
| C19 | the result of `fclose` is ignored: a full medium is not noticed with a buffered stream | C19_false |
| C23 | fields behind the end of an application chunk are compared but not written | C23_false_with_application_chunks |
| C24 | the search does not descend into a form of a requested type | C24_false |
| C37 | no result of `realloc` is checked in `IFF_attachToGroup`, `addPropToList` | C37_false, C37_add_refused |
| C38 | `IFF_setTextData` leaks the old data and does not check `malloc` | C38_false, C38_refused |
| C39 | `IFF_mergeFormArray` does not free the arrays of the members | C39_leak, C39_false |
| C40 | the registries of README.md and of the tests end with NULL instead of the global node, so that groups inside the form type are raw data; checking such a CAT accesses the wrong struct | C40_false |
| C42, C48 | the option loops for Visual C++ take the option itself for the file name and miscount | C42_false, C48_false |
| C43 | two diagnostics pass a pointer for `%d`, one a `long` for `%d`, one a `size_t` for `%u` | C43_false |
| C44 | `IFF_readLong`/`IFF_writeLong` shift a byte of 0x80 and above into the sign bit | C44_false |
| C45 | a group's size is not enforced while its members are read; there is only a warning afterwards (never a false alarm, never omitted: C45_overrun_reported_partial, C45_no_false_alarm) | C45_false |
| C46 | the ID of filler chunks (four spaces) is rejected by `IFF_checkId` | C46_filler_rejected, C46_false |
| C47 | PROPs are accepted anywhere in a LIST | C47_false |
| C51 | `IFF_writeZeroFillerBytes` does not check `calloc` | C51_false |
| C53 | `IFF_join` does not free an input that `IFF_check` rejects | C53_leaks, C53_false |
| C53 | `IFF_join` does not check `IFF_createEmptyCAT` | C53_refused |
| C54 | the reader asks for the declared size of a data chunk before it has seen the data: an 8-byte file requests 2 GiB | C54_false |
| C55 | `main` of iffjoin does not check the `malloc` of its array of file names | C55_false |
| C58 | the arguments of four diagnostics do not match their formats, so their text is not defined | C58_false |
| C72 | `TEST_read` is defined for every input: a PROP in a LIST of type TEST is a raw chunk for the registry of test.c, and list.c casts it to the larger `IFF_Prop` | C72_false |
| C77 | `IFF_compare` does not compare the sizes of PROPs: readlist returns 0 on a file with a PROP of a wrong size, which is not an encoding of the LIST | C77_false |
| C78 | the programs that search do not free the array that `IFF_searchForms` returns: whenever one of them returns 0, memory is left | C78_leaks, C78_false |
| C79 | lookupproperty-nested has no `else` for a missing chunk BYE: it returns 0 if none applies to the second FORM | C79_nested_false |
| C79 | none of the programs frees the array that `IFF_searchForms` returns: memory is left whenever one of them returns 0, also on the files that they are tested with | C79_prop_false, C79_override_false, C79_nested_false |

Further observations made while modelling, for which there is no separate property:
`IFF_skipUnknownBytes` reports "Cannot skip" when it succeeded and nothing when it failed;
`IFF_createUnparsedList` ignores its
chunk ID, so that a registry that maps another ID to the list functions creates lists that it later
frees as something else (`ListsConsistent` excludes these registries); `IFF_getPropFromList` looks at the first PROP of a type only (as doc/IFF.asc
allows only one); the README calls `IFF_createRawChunk` with one argument.

## Trusted base

* Lean 4.33.0's kernel, and the statements of the theorems with the definitions they mention.
* Axioms: only `propext`, `Classical.choice` and `Quot.sound`. No axioms of our own, no `sorry`, no
  `native_decide` or `bv_decide`, no `implemented_by`, no `unsafe`. The axioms of every property
  theorem are listed at the end.
* That the definitions in `Verif/Model` and `Verif/Heap` describe the C code. They were written by
  reading it; each cites the lines it models. The code was not compiled or run.
  For the functions covered by C60 ff. this is proved from the syntax trees of the sources; what is
  trusted there is `Verif/Src/Syntax.lean` and `Sem.lean` (the meaning of C) and that
  `tools/c2lean.py` parses C correctly. The generated trees are committed, one Lean definition per
  function with its lines, and can be compared with the sources by eye. Translated are the library,
  the mains and helpers of iffpp and iffjoin, the application of the tests (hello.c, bye.c, test.c),
  four test programs (validiff.c, invalidiff.c, checkextension.c, ppextension.c), the files of test data
  (formdata.c, formdata-pad.c, catdata.c, nestedformdata.c, listdata.c), the ten programs that write and
  read them (write*.c and read*.c for form, form-pad, cat, nestedform, list) and seven that search them
  (searchforms-form.c, searchforms-cat.c, searchforms-nestedform.c, lookupproperty-simple.c,
  lookupproperty-prop.c, lookupproperty-override.c, lookupproperty-nested.c).  Functions and arrays that
  have the same name in several of these files get a prefix; `Cfg.LinkedData` says that the arrays of test
  data are initialised.  Not translated: updatechunksizes.c (it calls `realloc` on the bytes of a chunk; the
  semantics has `realloc` for arrays of pointers only), the four extensiondata*.c and the eight programs that
  write and read them.
  `Verif/Fixtures.lean` (printed by `tools/fixtures.py`) runs the model on the data of the
  repository's own tests and compares with their expected results; these are tests of the model,
  not proofs, and no theorem depends on them.
* That `Verif/Spec` says what the English statements say.

### What is modelled

| source | model |
|--------|-------|
| ifftypes.h.in, C semantics | Model/C.lean |
| io.c | Model/Io.lean, Model/Shift.lean |
| id.c, `IFF_checkFormType` | Model/Id.lean |
| field.c | Model/Field.lean |
| chunkregistry.c, defaultregistry.c | Model/Registry.lean |
| chunk.c, rawchunk.c, group.c, form.c, cat.c, list.c, prop.c: reading | Model/Read.lean, Heap/Read.lean |
| ... writing | Model/Write.lean, Heap/Write.lean |
| ... checking | Model/Check.lean, Heap/Check.lean |
| ... comparing | Model/Compare.lean, Heap/Compare.lean |
| ... printing, util.c | Model/Print.lean, Heap/Print.lean |
| ... freeing | Heap/Read.lean |
| ... creating, adding, setting data | Model/Build.lean, Heap/Build.lean |
| ... updating sizes | Heap/Update.lean |
| ... looking up and searching | Heap/Lookup.lean, Heap/Search.lean |
| iff.c | Model/File.lean, Heap/Read.lean |
| error.c and all diagnostics | Model/Msg.lean, Model/ErrCalls.lean, Model/ErrText.lean (values, `vfprintf` of the conversions used) |
| iffjoin/join.c, iffpp/pp.c, the Visual C++ option loops of main.c | Model/Tools.lean, Heap/Tools.lean |
| the getopt option loops of main.c, getopt, getopt_long | Model/Getopt.lean |
| the tools as programs on named files | Model/Program.lean |
| all of src/libiff, join.c, pp.c, both main.c as syntax trees | Src/Code/*.lean (generated), Src/Sem.lean |
| tests/hello.c, bye.c, test.c (the application format) | Model/TestApp.lean, Src/Code/Hello.lean, Bye.lean, Test.lean (generated) |
| tests/validiff.c, invalidiff.c, checkextension.c, ppextension.c | Src/Code/Validiff.lean, Invalidiff.lean, Checkextension.lean, Ppextension.lean (generated) |
| tests/formdata.c, formdata-pad.c, catdata.c, nestedformdata.c, listdata.c; write*.c and read*.c for these | Src/Code/Formdata.lean, Formdatapad.lean, Catdata.lean, Nestedformdata.lean, Listdata.lean, Write*.lean, Read*.lean (generated) |
| tests/searchforms-*.c, lookupproperty-*.c | Src/Code/Searchforms*.lean, Lookupproperty*.lean (generated) |

### Wrong programs

`seeded/LOG.jsonl` has one line per attempt: a definition is changed in a scratch copy, everything that
depends on it is built again, and a theorem is listed under `failed` if it is missing or `#print axioms`
shows that its proof is broken. Theorems for which this could not be found out (their module needs too much
time or memory with the wrong definition) are listed under `undetermined`. The first version of the script did
not make this distinction: if one module could not be built, it listed every theorem as failed. The 42
results concerned were withdrawn; they are replaced by those of a second run where there is one, and otherwise
have a `note` and count for nothing. The corrected script reports no failures for an unchanged copy.

### What is not modelled, and simplifications

* The C library: `fread`, `fwrite`, `fgetc`, `fseek`, `malloc`, `realloc`, `free`, `memcpy`, `memcmp`, `strlen`,
  `bsearch`, `printf` are given by their specification (`bsearch` by the algorithm of glibc). Read
  errors of the medium look like the end of the file (as they do to the code). Writing to stdout does
  not fail in the print functions. The memory of `FILE` objects is not part of the heap.
* Streams: a seek beyond the end of a seekable file succeeds; on a pipe it fails.
* Application chunks: the functions of an application's chunk type read, write, check and compare a
  fixed sequence of fields the way README.md and tests/ do; the check is an arbitrary predicate on
  the field values; the print function prints unsigned bytes as
  characters (`%c`) and the other fields as decimals; the free function does nothing. For the chunk
  types of tests/ this is proved from the text (C72).
* C semantics (`Verif/Src/Sem.lean`): a block holds one value per scalar member or element, and a
  scalar is read with the type it was written with (no access to the bytes of an object except through
  `fread`, `fwrite` and the byte order of `Env`); operands are evaluated from left to right; a left
  shift of an `int` and a conversion to a signed type are modulo 2^32 (what GCC and Clang do); the
  calls of `IFF_error` are a list of format strings with their arguments; everything that is not
  supported is undefined behaviour, so a theorem that a run returns also says that it does not happen.
  Files: at most one stream is open for reading and one for writing; `fopen` for reading takes the
  contents from the configuration or fails, for writing empties the output and sets its capacity;
  the bytes written to the standard output and the text printed to it are kept apart; `fclose`
  returns an indeterminate value (the code does not use it); the text on standard error is not kept.
  Programs: `main` starts with two blocks on the stack, one for `optind`, `optarg` and the state of
  `getopt`, and `argv`. `getopt` and `getopt_long` take all arguments apart on their first call (by
  the model of C55, which has the permutation of `getopt_long`), deliver the results one by one, and
  set `optind` and permute `argv` on the last call; the tools look at `optind` and at `argv` only
  then. The variants of `main` that the preprocessor selects are separate syntax trees. `puts` and
  `strcmp` are given by their specification.
* Registries: the chain of parents is finite.
* Heap: pointers point to the start of a block; a block has one type from allocation to release;
  member counts do not wrap around at 2^32; uninitialised bytes and pointers are represented, and
  reading an uninitialised pointer is undefined.
* Value model: struct allocations succeed (the heap model covers their failure); `indentLevel` does
  not wrap around.
* Stack depth is unlimited (C15 bounds the recursion depth by the input length).
* Threads, signals, locales, Visual C++ text mode and the build system are not modelled; getopt and
  getopt_long themselves are modelled after POSIX.1-2008 and the GNU manual (`POSIXLY_CORRECT` unset),
  not after the source of a C library.
* File system (Model/Program.lean, C57): different names mean different files, and nobody else changes
  files while a tool runs. A file that is being written is replaced as a whole when it is closed; the
  tools do not read between opening and closing it.
* The messages "Cannot open IFF file!" of iffpp and "No IFF input files given!" of iffjoin on standard
  error are not modelled, nor are those of `getopt`.

## Axioms per theorem

`p` is `propext`, `c` is `Classical.choice`, `q` is `Quot.sound`.

| property | status | theorems (axioms) |
|---|---|---|
| C01 | proved | C01_write_big_endian (pq), C01_read_big_endian (pq), C01_round_trip (pq) |
| C02 | proved | C02_read_iff_enough (pq) |
| C03 | proved | C03_idToString_makeId (pcq), C03_makeId_idToString (pcq), C03_characters (pcq), C03_order (pcq) |
| C04 | proved | C04_checkId (pcq), C04_platform_independent (pcq) |
| C05 | partial | C05_false (pcq), C05_checkFormType_partial (pcq), C05_legal_accepted_partial (pcq) |
| C06 | partial | C06_false (pq), C06_read_partial (pcq), C06_write_partial (pcq), C06_small_chunk_partial (pq) |
| C07 | proved | C07_lookup (pcq) |
| C08 | proved | C08_default_registry (pcq) |
| C09 | proved | C09_write_encodes (pcq), C09_write_encodes_default (pcq) |
| C10 | proved | C10_read_after_write (pcq), C10_consumes_exactly (pcq), C10_read_after_write_default (pcq) |
| C11 | proved | C11_written_length (pcq) |
| C19 | partial | C19_false (pcq), C19_write_partial (pcq) |
| C14 | partial | C14_valid_file_truncated (pcq), C14_truncated_rejected (pcq), C14_truncated_rejected_default (pcq), C14_false_with_application_chunks (pq) |
| C15 | proved | C15_terminates (pcq), C15_budget_irrelevant (pcq), C15_progress (pcq), C15_size_and_depth (pcq) |
| C16 | partial | C16_only_overflow (pcq), C16_no_undefined_behaviour_partial (pcq), C16_false (pq) |
| C17 | partial | C17_same_hierarchy (pcq), C17_trailing_bytes (pcq), C17_trailing_bytes_default (pcq), C17_false_with_application_chunks (pq) |
| C18 | proved | C18_data_as_declared (pcq) |
| C12 | partial | C12_recognises_partial (pcq), C12_legal_accepted_partial (pcq), C12_false (pq), C12_unambiguous (pcq) |
| C13 | proved | C13_normalises (pcq) |
| C20 | partial | C20_check_decides_partial (pcq), C20_check_decides_registry_partial (pcq), C20_legal_accepted_partial (pcq), C20_false (pcq) |
| C21 | proved | C21_marker_means_invalid (pcq), C21_marker_means_invalid_props (pcq), C21_other_sizes_mean_valid (pq), C21_other_sizes_mean_valid_props (pq) |
| C22 | proved | C22_explained (pcq) |
| C45 | partial | C45_exact_partial (pcq), C45_overrun_reported_partial (pcq), C45_no_false_alarm (pcq), C45_false (pq) |
| C46 | partial | C46_filler_rejected (pcq), C46_false (pq) |
| C47 | partial | C47_false (pcq), C12_recognises_partial (pcq) |
| C23 | partial | C23_equivalence (pcq), C23_equal (pcq), C23_equal_files (pcq), C23_false_with_application_chunks (pcq) |
| C40 | partial | C40_groups_partial (pcq), C40_linked_registries (pcq), C40_false (pq) |
| C41 | partial | C41_sizes_partial (pcq), C41_false (pcq) |
| C43 | partial | C43_proper_partial (pcq), C43_valid_files (pcq), C43_false (pcq) |
| C44 | partial | C44_words_partial (pcq), C44_long_partial (pcq), C44_false (pq) |
| C27 | proved | C27_add (pcq), C27_add_prop (pcq), C27_built_consistent (pcq), C27_heap_add (pcq) |
| C28 | proved | C28_contents_type (pcq) |
| C30 | partial | C30_joins_partial (pcq), C30_rejects (pcq), C30_not_opened (pq), C30_only_overflow (pcq), C30_outcome (pcq), C30_false (pq) |
| C31 | partial | C31_prints_partial (pcq), C31_total (pcq), C31_false (pcq) |
| C32 | proved | C32_dump (pcq), C32_recover (pcq), C32_lines (pcq) |
| C42 | partial | C42_options_partial (pq), C42_false (p), C42_false_witness (none) |
| C48 | partial | C48_options_first_partial (pq), C48_false (p) |
| C33 | proved | C33_failed_read_leaks_nothing (pcq), C33_failed_read_file (pcq), C33_default (pcq) |
| C36 | proved | C36_reader_builds_hierarchy (pcq), C36_same_failures (pcq), C36_builds_encoded (pcq) |
| C37 | partial | C37_read_partial (pcq), C37_read_only_null_store (pcq), C37_read_default_partial (pcq), C37_false (pq), C37_create (pq), C37_add_partial (pcq), C37_add_refused (pq) |
| C34 | proved | C34_read_then_free (pcq), C34_free_exactly (pcq), C34_built (pcq), C34_no_leak (pcq) |
| C24 | partial | C24_partial (pcq), C24_complete_partial (pcq), C24_forms (pq), C24_false (pcq) |
| C25 | proved | C25_lookup (pq), C25_own (pq), C25_inherited (pq), C25_null_iff (pq) |
| C26 | proved | C26_all_members (pq), C26_first (pq) |
| C29 | proved | C29_update_repairs (pcq), C29_no_change (pq) |
| C39 | partial | C39_partial (pcq), C39_old_blocks_partial (pcq), C39_leak (pcq), C39_false (pcq) |
| C35 | proved | C35_histories (pcq), C35_read (pcq), C35_new (pcq), C35_add (pcq), C35_add_prop (pcq), C35_add_auto (pcq) |
| C38 | partial | C38_partial (pcq), C38_false (pcq), C38_refused (p) |
| C49 | proved | C49_read (pcq), C49_read_file (pcq), C49_write (pcq), C49_write_file (pcq), C49_check (pcq) |
| C50 | proved | C50_check (pcq), C50_compare (pcq), C50_print (pcq), C50_check_decides (pcq), C50_compare_equal (pcq) |
| C51 | partial | C51_write_partial (pcq), C51_write_without_filler (pcq), C51_write_encodes (pcq), C51_memory_unchanged (pq), C51_false (pq) |
| C52 | proved | C52_frees_everything (pcq), C52_same_result (pcq) |
| C53 | partial | C53_frees_partial (pcq), C53_frees_on_success (pcq), C53_same_result (pcq), C53_joins (pcq), C53_leaks (pcq), C53_refused (pcq), C53_false (pq) |
| C54 | partial | C54_requests (pq), C54_requests_file (pq), C54_data (pcq), C54_false (pq) |
| C55 | partial | C55_join_long_partial (pcq), C55_join_posix_partial (pcq), C55_pp_long (pcq), C55_pp_posix (pcq), C55_false (pcq) |
| C56 | proved | C56_layout (pcq), C56_faithful (pcq), C56_files (pcq), C56_compare (pcq) |
| C57 | proved | C57_joins (pcq), C57_rejects (pcq), C57_frame (pcq), C57_prints (pcq), C57_join_then_print (pcq) |
| C58 | partial | C58_false (pcq), C58_lines_partial (pcq), C58_char (pcq), C58_unambiguous (pcq), C58_check (pcq), C58_read (pcq), C58_write (pcq) |
| C59 | proved | C59_read (pcq), C59_read_default (pcq), C59_write (pcq), C59_compare (pcq), C59_check (pcq), C59_check_exact (pcq), C59_join (pcq), C59_print (pcq) |
| C60 | proved | Src.C60_read (pcq), Src.C60_free (pcq), Src.C60_reader_is_safe (pcq), Src.C60_reader_builds (pcq), Src.C60_read_then_free (pcq), Src.C60_overflow (pcq), Src.C60_null_store (pcq) |
| C61 | proved | Src.C61_write (pcq), Src.C61_compare (pcq), Src.C61_writer_encodes (pcq), Src.C61_compare_equal (pcq), Src.C61_copies (pcq) |
| C62 | proved | Src.C62_check (pcq), Src.C62_check_decides (pcq), Src.C62_reads_and_checks (pcq) |
| C63 | proved | Src.C63_print (pcq), Src.C63_layout (pcq), Src.C63_reads_and_prints (pcq) |
| C64 | proved | Src.C64_get_chunk (pcq), Src.C64_get_data (pcq), Src.C64_get_prop (pcq), Src.C64_lookup (pcq), Src.C64_reads_and_looks_up (pcq) |
| C65 | proved | Src.C65_update (pcq), Src.C65_update_repairs (pcq) |
| C66 | proved | Src.C66_call (pcq), Src.C66_programs (pcq), Src.C66_links (pcq), Src.C66_set_text (pcq), Src.C66_create_sized (pcq) |
| C67 | proved | Src.C67_search (pcq), Src.C67_search_type (pcq), Src.C67_get_chunks (pcq), Src.C67_finds_outermost (pcq), Src.C67_finds_outermost_of_type (pcq), Src.C67_finds_members (pcq), Src.C67_search_leaks (pcq) |
| C68 | proved | Src.C68_read (pcq), Src.C68_write (pcq), Src.C68_pretty_print (pcq), Src.C68_join (pcq), Src.C68_pp_frees (pcq), Src.C68_pp_same_result (pcq), Src.C68_pp_prints (pcq), Src.C68_join_frees (pcq), Src.C68_join_same_result (pcq), Src.C68_join_joins (pcq), Src.C68_join_leaks (pcq), Src.C68_join_runs (pcq), Src.C68_join_null (pcq) |
| C69 | proved | Src.C69_pp_main (pcq), Src.C69_join_main (pcq), Src.C69_pp_program (pcq), Src.C69_join_program (pcq), Src.C69_join_leaks (pcq), Src.C69_join_refused (pcq) |
| C70 | proved | Src.C70_pp_main (pcq), Src.C70_join_main (pcq), Src.C70_means (pcq), Src.C70_pp_program (pcq), Src.C70_join_program (pcq), Src.C70_output_false (pcq) |
| C71 | proved | Src.C71_read (pcq), Src.C71_truncated (pcq), Src.C71_last (pcq), Src.C71_write (pcq), Src.C71_exchange (pcq), Src.C71_overrun (pcq) |
| C72 | partial | Src.C72_registry (pcq), Src.C72_read_partial (pcq), Src.C72_write (pcq), Src.C72_free (pcq), Src.C72_create (pcq), Src.C72_check (pcq), Src.C72_check_decides (pcq), Src.C72_print (pcq), Src.C72_compare (pcq), Src.C72_compare_equal (pcq), Src.C72_builds (pcq), Src.C72_copies (pcq), Src.C72_false (pcq) |
| C73 | proved | C73_one_owner (pcq), C73_shared (pcq), C73_dangling (pcq), C73_add_twice (pq), Src.C73_text (pcq) |
| C74 | proved | Src.C74_validiff (pcq), Src.C74_invalidiff (pcq), Src.C74_checkextension (pcq), Src.C74_ppextension (pcq) |
| C75 | proved | C75_layout (pcq), C75_faithful (pcq), C75_tests (pcq) |
| C76 | proved | C76_builds (pcq), Src.C76_text (pcq), Src.C76_program (pcq) |
| C77 | partial | Src.C77_writes (pcq), Src.C77_reads_partial (pcq), Src.C77_round_trip (pcq), Src.C77_false (pcq) |
| C78 | partial | Src.C78_searches_partial (pcq), Src.C78_finds (pcq), Src.C78_looks_up (pcq), Src.C78_leaks (pcq), Src.C78_false (pcq) |
| C79 | partial | Src.C79_prop_partial (pcq), Src.C79_override_partial (pcq), Src.C79_nested_partial (pcq), Src.C79_prop_finds (pcq), Src.C79_override_finds (pcq), Src.C79_nested_finds (pcq), Src.C79_after_writelist (pcq), Src.C79_prop_false (pcq), Src.C79_override_false (pcq), Src.C79_nested_false (pcq) |
| C80 | proved | Src.C80_suite (pcq), Src.C80_searches (pcq), Src.C80_looks_up (pcq) |
