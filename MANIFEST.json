{
 "claims": [
  {
   "property": "C01",
   "status": "proved",
   "theorems": [
    "Iff.C01_write_big_endian",
    "Iff.C01_read_big_endian",
    "Iff.C01_round_trip"
   ],
   "note": "All six integer types, both byte orders."
  },
  {
   "property": "C02",
   "status": "proved",
   "theorems": [
    "Iff.C02_read_iff_enough"
   ],
   "note": ""
  },
  {
   "property": "C03",
   "status": "proved",
   "theorems": [
    "Iff.C03_idToString_makeId",
    "Iff.C03_makeId_idToString",
    "Iff.C03_characters",
    "Iff.C03_order"
   ],
   "note": ""
  },
  {
   "property": "C04",
   "status": "proved",
   "theorems": [
    "Iff.C04_checkId",
    "Iff.C04_platform_independent"
   ],
   "note": ""
  },
  {
   "property": "C05",
   "status": "partial",
   "theorems": [
    "Iff.C05_false",
    "Iff.C05_checkFormType_partial",
    "Iff.C05_legal_accepted_partial"
   ],
   "note": "False of the code: only '.' is treated as punctuation (form.c:107). Proved: the negation with a witness, the exact set of accepted IDs, and that no legal form type is rejected."
  },
  {
   "property": "C06",
   "status": "partial",
   "theorems": [
    "Iff.C06_false",
    "Iff.C06_read_partial",
    "Iff.C06_write_partial",
    "Iff.C06_small_chunk_partial"
   ],
   "note": "False of the code: in a chunk smaller than the field, size_t wraps around (field.c:31-34) and the field is transferred. Proved: the negation, the property for all other chunks, and what happens in the remaining ones."
  },
  {
   "property": "C07",
   "status": "proved",
   "theorems": [
    "Iff.C07_lookup"
   ],
   "note": ""
  },
  {
   "property": "C08",
   "status": "proved",
   "theorems": [
    "Iff.C08_default_registry"
   ],
   "note": ""
  },
  {
   "property": "C09",
   "status": "proved",
   "theorems": [
    "Iff.C09_write_encodes",
    "Iff.C09_write_encodes_default"
   ],
   "note": ""
  },
  {
   "property": "C10",
   "status": "proved",
   "theorems": [
    "Iff.C10_read_after_write",
    "Iff.C10_consumes_exactly",
    "Iff.C10_read_after_write_default"
   ],
   "note": "Writer and reader may run on different hosts."
  },
  {
   "property": "C11",
   "status": "proved",
   "theorems": [
    "Iff.C11_written_length"
   ],
   "note": ""
  },
  {
   "property": "C19",
   "status": "partial",
   "theorems": [
    "Iff.C19_false",
    "Iff.C19_write_partial"
   ],
   "note": "False of the code: the result of fclose is ignored (iff.c:109), so with a buffered stream on a full medium IFF_write returns TRUE. Proved: the negation, the property for unbuffered streams or a large enough medium, and that the medium always holds a prefix."
  },
  {
   "property": "C14",
   "status": "partial",
   "theorems": [
    "Iff.C14_valid_file_truncated",
    "Iff.C14_truncated_rejected",
    "Iff.C14_truncated_rejected_default",
    "Iff.C14_false_with_application_chunks"
   ],
   "note": "Proved for the default registry, for every registry without application chunk types, and for every registry on streams that cannot seek. False for application chunks with filler bytes on seekable streams: fseek past the end of the file succeeds (io.c IFF_skipUnknownBytes)."
  },
  {
   "property": "C15",
   "status": "proved",
   "theorems": [
    "Iff.C15_terminates",
    "Iff.C15_budget_irrelevant",
    "Iff.C15_progress",
    "Iff.C15_size_and_depth"
   ],
   "note": ""
  },
  {
   "property": "C16",
   "status": "partial",
   "theorems": [
    "Iff.C16_only_overflow",
    "Iff.C16_no_undefined_behaviour_partial",
    "Iff.C16_false"
   ],
   "note": "False of the code: a negative group size lets bytesProcessed/size arithmetic overflow. Proved: overflow is the only undefined behaviour, and there is none for inputs below 2 GiB without negative group sizes."
  },
  {
   "property": "C17",
   "status": "partial",
   "theorems": [
    "Iff.C17_same_hierarchy",
    "Iff.C17_trailing_bytes",
    "Iff.C17_trailing_bytes_default",
    "Iff.C17_false_with_application_chunks"
   ],
   "note": "Same hierarchy: all registries. Warning: proved for the default registry, registries without application chunks and non-seekable streams; false for application chunks with truncated filler."
  },
  {
   "property": "C18",
   "status": "proved",
   "theorems": [
    "Iff.C18_data_as_declared"
   ],
   "note": ""
  },
  {
   "property": "C12",
   "status": "partial",
   "theorems": [
    "Iff.C12_recognises_partial",
    "Iff.C12_legal_accepted_partial",
    "Iff.C12_false",
    "Iff.C12_unambiguous"
   ],
   "note": "Exact characterisation for the form types the code accepts; the remaining difference to doc/IFF.asc is C05 (punctuation marks in form types)."
  },
  {
   "property": "C13",
   "status": "proved",
   "theorems": [
    "Iff.C13_normalises"
   ],
   "note": ""
  },
  {
   "property": "C20",
   "status": "partial",
   "theorems": [
    "Iff.C20_check_decides_partial",
    "Iff.C20_check_decides_registry_partial",
    "Iff.C20_legal_accepted_partial",
    "Iff.C20_false"
   ],
   "note": "IFF_check decides conformance with AcceptedFormType in place of LegalFormType (C05); all legal hierarchies are accepted. C20_check_decides_registry_partial is the same for hierarchies with chunks of an application, whose checks have to hold."
  },
  {
   "property": "C21",
   "status": "proved",
   "theorems": [
    "Iff.C21_marker_means_invalid",
    "Iff.C21_marker_means_invalid_props",
    "Iff.C21_other_sizes_mean_valid",
    "Iff.C21_other_sizes_mean_valid_props"
   ],
   "note": ""
  },
  {
   "property": "C22",
   "status": "proved",
   "theorems": [
    "Iff.C22_explained"
   ],
   "note": "For every registry."
  },
  {
   "property": "C45",
   "status": "partial",
   "theorems": [
    "Iff.C45_exact_partial",
    "Iff.C45_overrun_reported_partial",
    "Iff.C45_no_false_alarm",
    "Iff.C45_false"
   ],
   "note": "False of the code (only a warning is printed). Proved: files that IFF_check accepts, and files read without that warning, consist of chunks that take exactly the bytes they declare; the warning is never given for such files."
  },
  {
   "property": "C46",
   "status": "partial",
   "theorems": [
    "Iff.C46_filler_rejected",
    "Iff.C46_false"
   ],
   "note": "False of the code: IFF_checkId rejects the filler ID (leading space), so every file with a filler chunk is rejected."
  },
  {
   "property": "C47",
   "status": "partial",
   "theorems": [
    "Iff.C47_false",
    "Iff.C12_recognises_partial"
   ],
   "note": "False of the code: PROPs are accepted anywhere in a LIST; C12 states exactly what is accepted."
  },
  {
   "property": "C23",
   "status": "partial",
   "theorems": [
    "Iff.C23_equivalence",
    "Iff.C23_equal",
    "Iff.C23_equal_files",
    "Iff.C23_false_with_application_chunks"
   ],
   "note": "Equivalence and structural equality: every sorted registry. Equal files: default registry. False with application chunks whose declared size does not cover all fields (fields outside the file are compared)."
  },
  {
   "property": "C40",
   "status": "partial",
   "theorems": [
    "Iff.C40_groups_partial",
    "Iff.C40_linked_registries",
    "Iff.C40_false"
   ],
   "note": "False of the code for registries whose form chain does not end in the default chunk types (README and tests). Proved for registries that dispatch groups consistently, in particular linked registries."
  },
  {
   "property": "C41",
   "status": "partial",
   "theorems": [
    "Iff.C41_sizes_partial",
    "Iff.C41_false"
   ],
   "note": "False of the code for chunks smaller than the first field that does not fit (the unsigned comparison in io.c wraps). Proved for every other layout, value and size."
  },
  {
   "property": "C43",
   "status": "partial",
   "theorems": [
    "Iff.C43_proper_partial",
    "Iff.C43_valid_files",
    "Iff.C43_false"
   ],
   "note": "False of the code at four call sites; all others are proper, and valid files only trigger proper ones."
  },
  {
   "property": "C44",
   "status": "partial",
   "theorems": [
    "Iff.C44_words_partial",
    "Iff.C44_long_partial",
    "Iff.C44_false"
   ],
   "note": "False of the code: 32-bit swaps shift into the sign bit when the low byte is 128 or more; exact characterisation proved."
  },
  {
   "property": "C27",
   "status": "proved",
   "theorems": [
    "Iff.C27_add",
    "Iff.C27_add_prop",
    "Iff.C27_built_consistent",
    "Iff.C27_heap_add"
   ],
   "note": ""
  },
  {
   "property": "C28",
   "status": "proved",
   "theorems": [
    "Iff.C28_contents_type"
   ],
   "note": ""
  },
  {
   "property": "C30",
   "status": "partial",
   "theorems": [
    "Iff.C30_joins_partial",
    "Iff.C30_rejects",
    "Iff.C30_not_opened",
    "Iff.C30_only_overflow",
    "Iff.C30_outcome",
    "Iff.C30_false"
   ],
   "note": "False of the code only because reading an invalid input can overflow (C16). Proved: valid inputs are joined as stated; with an unreadable or invalid input every run that ends normally exits with 1 without opening the output; overflow is the only undefined behaviour; without negative group sizes there is none, and C30_outcome says exactly what happens."
  },
  {
   "property": "C31",
   "status": "partial",
   "theorems": [
    "Iff.C31_prints_partial",
    "Iff.C31_total",
    "Iff.C31_false"
   ],
   "note": "False of the code only because reading can overflow (C16). Proved as stated for all other runs, and totally for files below 2 GiB without negative group sizes."
  },
  {
   "property": "C32",
   "status": "proved",
   "theorems": [
    "Iff.C32_dump",
    "Iff.C32_recover",
    "Iff.C32_lines"
   ],
   "note": ""
  },
  {
   "property": "C42",
   "status": "partial",
   "theorems": [
    "Iff.C42_options_partial",
    "Iff.C42_false",
    "Iff.C42_false_witness"
   ],
   "note": "False of the code (Visual C++ branch): the output is never the named file, but a file called /o, and the output file is read as first input. Command lines without options are handled as stated."
  },
  {
   "property": "C48",
   "status": "partial",
   "theorems": [
    "Iff.C48_options_first_partial",
    "Iff.C48_false"
   ],
   "note": "False of the code (Visual C++ branch) for options after the file name; proved for options first."
  },
  {
   "property": "C33",
   "status": "proved",
   "theorems": [
    "Iff.C33_failed_read_leaks_nothing",
    "Iff.C33_failed_read_file",
    "Iff.C33_default"
   ],
   "note": "For every allocator (any pattern of refused requests) and every registry that releases lists as lists."
  },
  {
   "property": "C36",
   "status": "proved",
   "theorems": [
    "Iff.C36_reader_builds_hierarchy",
    "Iff.C36_same_failures",
    "Iff.C36_builds_encoded"
   ],
   "note": "For every allocator that refuses only what mallocOk refuses; existence of such an allocator: total_exists."
  },
  {
   "property": "C37",
   "status": "partial",
   "theorems": [
    "Iff.C37_read_partial",
    "Iff.C37_read_only_null_store",
    "Iff.C37_read_default_partial",
    "Iff.C37_false",
    "Iff.C37_create",
    "Iff.C37_add_partial",
    "Iff.C37_add_refused"
   ],
   "note": "False of the code: the result of realloc in IFF_attachToGroup and addPropToList is not checked (C37_false, C37_add_refused). Proved: refused struct and data requests are reported as NULL with the heap unchanged, for reading and for the create functions; the add functions return if the array is not refused."
  },
  {
   "property": "C34",
   "status": "proved",
   "theorems": [
    "Iff.C34_read_then_free",
    "Iff.C34_free_exactly",
    "Iff.C34_built",
    "Iff.C34_no_leak"
   ],
   "note": "C34_built is for the default registry; with application chunk types the registry has to select the functions that release the structs (hypothesis Released of C34_free_exactly)."
  },
  {
   "property": "C24",
   "status": "partial",
   "theorems": [
    "Iff.C24_partial",
    "Iff.C24_complete_partial",
    "Iff.C24_forms",
    "Iff.C24_false"
   ],
   "note": "False of the code: forms inside a requested form are not returned. Proved: the result is exactly the outermost requested forms in document order; all requested forms if none contains another."
  },
  {
   "property": "C25",
   "status": "proved",
   "theorems": [
    "Iff.C25_lookup",
    "Iff.C25_own",
    "Iff.C25_inherited",
    "Iff.C25_null_iff"
   ],
   "note": "If a LIST has several PROPs of the form's type, only the first one counts."
  },
  {
   "property": "C26",
   "status": "proved",
   "theorems": [
    "Iff.C26_all_members",
    "Iff.C26_first"
   ],
   "note": "For allocators that do not refuse arrays (realloc is not checked)."
  },
  {
   "property": "C29",
   "status": "proved",
   "theorems": [
    "Iff.C29_update_repairs",
    "Iff.C29_no_change"
   ],
   "note": "For hierarchies whose correct total size is below 2 GiB."
  },
  {
   "property": "C39",
   "status": "partial",
   "theorems": [
    "Iff.C39_partial",
    "Iff.C39_old_blocks_partial",
    "Iff.C39_leak",
    "Iff.C39_false"
   ],
   "note": "False of the code: IFF_mergeFormArray does not free the array it copies from; C39_leak shows that every search that finds a form below the root leaks."
  },
  {
   "property": "C35",
   "status": "proved",
   "theorems": [
    "Iff.C35_histories",
    "Iff.C35_read",
    "Iff.C35_new",
    "Iff.C35_add",
    "Iff.C35_add_prop",
    "Iff.C35_add_auto"
   ],
   "note": ""
  },
  {
   "property": "C38",
   "status": "partial",
   "theorems": [
    "Iff.C38_partial",
    "Iff.C38_false",
    "Iff.C38_refused"
   ],
   "note": "False of the code: the previous data block is never freed (C38_false, for every chunk and text), and the result of malloc is not checked (C38_refused). Proved: size and data are those of the text."
  },
  {
   "property": "C49",
   "status": "proved",
   "theorems": [
    "Iff.C49_read",
    "Iff.C49_read_file",
    "Iff.C49_write",
    "Iff.C49_write_file",
    "Iff.C49_check"
   ],
   "note": "The check function of an application-defined chunk is modelled as emitting a diagnostic when it rejects."
  },
  {
   "property": "C50",
   "status": "proved",
   "theorems": [
    "Iff.C50_check",
    "Iff.C50_compare",
    "Iff.C50_print",
    "Iff.C50_check_decides",
    "Iff.C50_compare_equal"
   ],
   "note": "Refinement: the functions on pointers have exactly the outcome of the functions on values, and the memory and the allocator are untouched."
  },
  {
   "property": "C51",
   "status": "partial",
   "theorems": [
    "Iff.C51_write_partial",
    "Iff.C51_write_without_filler",
    "Iff.C51_write_encodes",
    "Iff.C51_memory_unchanged",
    "Iff.C51_false"
   ],
   "note": "False of the code: the result of calloc in IFF_writeZeroFillerBytes is not checked (C51_false). Proved for allocators that grant the filler bytes, and for every allocator when none are needed (all consistent hierarchies of standard chunks); whenever the writer returns, the memory is unchanged."
  },
  {
   "property": "C52",
   "status": "proved",
   "theorems": [
    "Iff.C52_frees_everything",
    "Iff.C52_same_result"
   ],
   "note": "For files of n - 4 bytes, where n is the stack depth. Refused arrays end in the NULL dereference of C37 and are no returns."
  },
  {
   "property": "C53",
   "status": "partial",
   "theorems": [
    "Iff.C53_frees_partial",
    "Iff.C53_frees_on_success",
    "Iff.C53_same_result",
    "Iff.C53_joins",
    "Iff.C53_leaks",
    "Iff.C53_refused",
    "Iff.C53_false"
   ],
   "note": "False of the code: an input that IFF_check rejects is never freed (C53_leaks, C53_false), and the result of IFF_createEmptyCAT is not checked (C53_refused). Proved: otherwise everything is freed, and nothing else in any case; same result as on values."
  },
  {
   "property": "C54",
   "status": "partial",
   "theorems": [
    "Iff.C54_requests",
    "Iff.C54_requests_file",
    "Iff.C54_data",
    "Iff.C54_false"
   ],
   "note": "The number of requests is bounded for every run (C54_requests, C54_requests_file). The data bound is false of the code: IFF_readRawChunk requests the declared size before reading (C54_false); C54_data proves it for hierarchies that are returned."
  },
  {
   "property": "C55",
   "status": "partial",
   "theorems": [
    "Iff.C55_join_long_partial",
    "Iff.C55_join_posix_partial",
    "Iff.C55_pp_long",
    "Iff.C55_pp_posix",
    "Iff.C55_false"
   ],
   "note": "Complete for iffpp; for iffjoin if the malloc of the array of file names succeeds. It is unchecked in the code (C55_false). getopt and getopt_long are modelled after POSIX and the GNU manual."
  },
  {
   "property": "C56",
   "status": "proved",
   "theorems": [
    "Iff.C56_layout",
    "Iff.C56_faithful",
    "Iff.C56_files",
    "Iff.C56_compare"
   ],
   "note": "For all hierarchies of the default registry with exact data lengths; C56_files covers every file iffpp accepts."
  },
  {
   "property": "C57",
   "status": "proved",
   "theorems": [
    "Iff.C57_joins",
    "Iff.C57_rejects",
    "Iff.C57_frame",
    "Iff.C57_prints",
    "Iff.C57_join_then_print"
   ],
   "note": "Programs on a file system: a file may be input and output. Different names are taken to mean different files; runs that end (undefined behaviour of the reader: C16, of malloc in main: C55)."
  },
  {
   "property": "C58",
   "status": "partial",
   "theorems": [
    "Iff.C58_false",
    "Iff.C58_lines_partial",
    "Iff.C58_char",
    "Iff.C58_unambiguous",
    "Iff.C58_check",
    "Iff.C58_read",
    "Iff.C58_write"
   ],
   "note": "False of the code for four diagnostics whose arguments do not match their formats (C58_false, see C43). C58_lines_partial covers the other 23. The text of IFF_check is always defined (C58_check); C58_read and C58_write are for runs whose text is defined."
  },
  {
   "property": "C59",
   "status": "proved",
   "theorems": [
    "Iff.C59_read",
    "Iff.C59_read_default",
    "Iff.C59_write",
    "Iff.C59_compare",
    "Iff.C59_check",
    "Iff.C59_check_exact",
    "Iff.C59_join",
    "Iff.C59_print"
   ],
   "note": "Two arbitrary environments. Reading, writing and comparing are equal as functions; checking and the tools are related by a simulation whose states agree except for the numeric value of a char in a diagnostic, whose text agrees (C58)."
  },
  {
   "property": "C60",
   "status": "proved",
   "theorems": [
    "Iff.Src.C60_read",
    "Iff.Src.C60_free",
    "Iff.Src.C60_reader_is_safe",
    "Iff.Src.C60_reader_builds",
    "Iff.Src.C60_read_then_free",
    "Iff.Src.C60_overflow",
    "Iff.Src.C60_null_store"
   ],
   "note": "Covers reading and freeing. What is trusted is the C semantics and the parser that printed the syntax trees (DESIGN.md)."
  },
  {
   "property": "C61",
   "status": "proved",
   "theorems": [
    "Iff.Src.C61_write",
    "Iff.Src.C61_compare",
    "Iff.Src.C61_writer_encodes",
    "Iff.Src.C61_compare_equal",
    "Iff.Src.C61_copies"
   ],
   "note": "Covers writing and comparing. Rep: the stored sizes and lengths are those of C objects (Like of C60 on the memory)."
  },
  {
   "property": "C62",
   "status": "proved",
   "theorems": [
    "Iff.Src.C62_check",
    "Iff.Src.C62_check_decides",
    "Iff.Src.C62_reads_and_checks"
   ],
   "note": "Covers checking. Conforms is what C20 says the checker decides (C20_false: it is weaker than the grammar of the standard)."
  },
  {
   "property": "C63",
   "status": "proved",
   "theorems": [
    "Iff.Src.C63_print",
    "Iff.Src.C63_layout",
    "Iff.Src.C63_reads_and_prints"
   ],
   "note": "Covers printing. printf is a primitive of the C semantics with the conversions the sources use (%s %c %d %u %x); text printed is not bounded, output errors of stdout are not modelled here."
  },
  {
   "property": "C64",
   "status": "proved",
   "theorems": [
    "Iff.Src.C64_get_chunk",
    "Iff.Src.C64_get_data",
    "Iff.Src.C64_get_prop",
    "Iff.Src.C64_lookup",
    "Iff.Src.C64_reads_and_looks_up"
   ],
   "note": "Covers lookup of single chunks; the searches that return arrays are not in this property."
  },
  {
   "property": "C65",
   "status": "proved",
   "theorems": [
    "Iff.Src.C65_update",
    "Iff.Src.C65_update_repairs"
   ],
   "note": "The heap model has the library's quirk of following parent pointers; the corrected size must be below 2 GiB for the consequence, as in C29."
  },
  {
   "property": "C66",
   "status": "proved",
   "theorems": [
    "Iff.Src.C66_call",
    "Iff.Src.C66_programs",
    "Iff.Src.C66_links",
    "Iff.Src.C66_set_text",
    "Iff.Src.C66_create_sized"
   ],
   "note": "The library has no text for the chunk types of an application, so creating these is not among the calls. Data is copied from an array of the application that is not on the heap; text is a string literal. A raw chunk is not given the ID PROP."
  },
  {
   "property": "C67",
   "status": "proved",
   "theorems": [
    "Iff.Src.C67_search",
    "Iff.Src.C67_search_type",
    "Iff.Src.C67_get_chunks",
    "Iff.Src.C67_finds_outermost",
    "Iff.Src.C67_finds_outermost_of_type",
    "Iff.Src.C67_finds_members",
    "Iff.Src.C67_search_leaks"
   ],
   "note": "The form types are in an array outside the heap, the length is stored in a variable on the stack."
  },
  {
   "property": "C68",
   "status": "proved",
   "theorems": [
    "Iff.Src.C68_read",
    "Iff.Src.C68_write",
    "Iff.Src.C68_pretty_print",
    "Iff.Src.C68_join",
    "Iff.Src.C68_pp_frees",
    "Iff.Src.C68_pp_same_result",
    "Iff.Src.C68_pp_prints",
    "Iff.Src.C68_join_frees",
    "Iff.Src.C68_join_same_result",
    "Iff.Src.C68_join_joins",
    "Iff.Src.C68_join_leaks",
    "Iff.Src.C68_join_runs",
    "Iff.Src.C68_join_null"
   ],
   "note": "At most one file is open for reading and one for writing at a time, as in the tools; the text on standard error is not recorded."
  },
  {
   "property": "C69",
   "status": "proved",
   "theorems": [
    "Iff.Src.C69_pp_main",
    "Iff.Src.C69_join_main",
    "Iff.Src.C69_pp_program",
    "Iff.Src.C69_join_program",
    "Iff.Src.C69_join_leaks",
    "Iff.Src.C69_join_refused"
   ],
   "note": "getopt and getopt_long are modelled by their specification (C55); the Visual C++ variants of main are in C70; the messages on standard error are not recorded."
  },
  {
   "property": "C70",
   "status": "proved",
   "theorems": [
    "Iff.Src.C70_pp_main",
    "Iff.Src.C70_join_main",
    "Iff.Src.C70_means",
    "Iff.Src.C70_pp_program",
    "Iff.Src.C70_join_program",
    "Iff.Src.C70_output_false"
   ],
   "note": "The text is the one for which _MSC_VER is defined; the messages on standard error are not recorded; that the output option does not work is proved for all command lines, not only witnessed."
  },
  {
   "property": "C71",
   "status": "proved",
   "theorems": [
    "Iff.Src.C71_read",
    "Iff.Src.C71_truncated",
    "Iff.Src.C71_last",
    "Iff.Src.C71_write",
    "Iff.Src.C71_exchange",
    "Iff.Src.C71_overrun"
   ],
   "note": "The chunk is in a heap block that begins with the members of IFF_Chunk, the value that is read is in a heap block, and bytesProcessed is a local variable of the caller. Shifts of negative int values in the byte swap of IFF_readLong and IFF_writeLong are taken modulo 2^32 (C44 is about the strict reading)."
  },
  {
   "property": "C72",
   "status": "partial",
   "theorems": [
    "Iff.Src.C72_registry",
    "Iff.Src.C72_read_partial",
    "Iff.Src.C72_write",
    "Iff.Src.C72_free",
    "Iff.Src.C72_create",
    "Iff.Src.C72_check",
    "Iff.Src.C72_check_decides",
    "Iff.Src.C72_print",
    "Iff.Src.C72_compare",
    "Iff.Src.C72_compare_equal",
    "Iff.Src.C72_builds",
    "Iff.Src.C72_copies",
    "Iff.Src.C72_false"
   ],
   "note": "Reading is proved for inputs that do not contain the bytes PROP; it is false without (C72_false: a LIST of type TEST with a PROP makes the text access a struct that is larger than its block). C72_copies assumes that requests for filler bytes are granted or not needed (C51_false)."
  },
  {
   "property": "C73",
   "status": "proved",
   "theorems": [
    "Iff.C73_one_owner",
    "Iff.C73_shared",
    "Iff.C73_dangling",
    "Iff.C73_add_twice",
    "Iff.Src.C73_text"
   ],
   "note": "Stated of the heap model; the text of IFF_free refines it where it returns (C60_free). C73_add_twice and C73_text are the concrete case of a chunk that is added twice, in the heap model and in the text."
  },
  {
   "property": "C74",
   "status": "proved",
   "theorems": [
    "Iff.Src.C74_validiff",
    "Iff.Src.C74_invalidiff",
    "Iff.Src.C74_checkextension",
    "Iff.Src.C74_ppextension"
   ],
   "note": "Verif/Props/SrcTests.lean; specification of valid files in Verif/Spec/Valid.lean. validiff and invalidiff for every file below 2 GiB without groups of negative size (those run into the defects of C01); checkextension and ppextension for encodings of consistent hierarchies, of which reading back is proved."
  },
  {
   "property": "C75",
   "status": "proved",
   "theorems": [
    "Iff.C75_layout",
    "Iff.C75_faithful",
    "Iff.C75_tests"
   ],
   "note": "Verif/Props/LayoutApp.lean; layout in Verif/Spec/LayoutApp.lean, written without reference to the printing functions of the model."
  },
  {
   "property": "C76",
   "status": "proved",
   "theorems": [
    "Iff.C76_builds",
    "Iff.Src.C76_text",
    "Iff.Src.C76_program"
   ],
   "note": "Verif/Props/Construct.lean, Verif/Props/SrcConstruct.lean; the shape of the sequence of calls is specified in Verif/Spec/Construct.lean. It is the converse of C30 and C66, which say that what calls build is consistent."
  },
  {
   "property": "C77",
   "status": "partial",
   "theorems": [
    "Iff.Src.C77_writes",
    "Iff.Src.C77_reads_partial",
    "Iff.Src.C77_round_trip",
    "Iff.Src.C77_false"
   ],
   "note": "Verif/Props/SrcData.lean; the files and hierarchies are specified in Verif/Spec/TestData.lean. Missing, because it is false (C77_false): that readlist returns 1 on every file that does not begin with an encoding of its LIST. For the other four programs both directions are proved."
  },
  {
   "property": "C78",
   "status": "partial",
   "theorems": [
    "Iff.Src.C78_searches_partial",
    "Iff.Src.C78_finds",
    "Iff.Src.C78_looks_up",
    "Iff.Src.C78_leaks",
    "Iff.Src.C78_false"
   ],
   "note": "Verif/Props/SrcHunt.lean; what is to be found is specified in Verif/Spec/TestSearch.lean. Missing, because it is false (C78_leaks, C78_false): that the three programs that search free all memory. For lookupproperty-simple the whole statement is proved."
  },
  {
   "property": "C79",
   "status": "partial",
   "theorems": [
    "Iff.Src.C79_prop_partial",
    "Iff.Src.C79_override_partial",
    "Iff.Src.C79_nested_partial",
    "Iff.Src.C79_prop_finds",
    "Iff.Src.C79_override_finds",
    "Iff.Src.C79_nested_finds",
    "Iff.Src.C79_after_writelist",
    "Iff.Src.C79_prop_false",
    "Iff.Src.C79_override_false",
    "Iff.Src.C79_nested_false"
   ],
   "note": "Verif/Props/SrcLookupProp.lean; what applies is specified in Verif/Spec/TestLookup.lean. Missing, because it is false (C79_prop_false, C79_override_false, C79_nested_false): that the programs free all memory, and that lookupproperty-nested returns 1 if no chunk BYE applies."
  },
  {
   "property": "C80",
   "status": "proved",
   "theorems": [
    "Iff.Src.C80_suite",
    "Iff.Src.C80_searches",
    "Iff.Src.C80_looks_up"
   ],
   "note": "Verif/Props/SrcSuite.lean"
  }
 ]
}