{"id": "C01", "title": "Parsing a record never panics or hangs", "statement": "Calling parse_record (or parsing a Record) on any input data, with any ParseConfig and any endianness, returns: either a value or a ParseError. It never panics (no out-of-range slice, failed expect/assert, or unimplemented!) and never loops forever.", "quantifier": "every byte sequence, every way the ParseBuf splits it into non-empty chunks (borrowed or temporary), every config, every endianness, every header", "why_tests_cant": "Fuzzing samples a few byte strings; the claim ranges over an infinite set of inputs, chunkings and configurations.", "anchors": ["src/parse.rs:parse_record", "src/parse.rs:parse_record_impl", "src/parsebuf.rs:ParseBufCursor", "src/records/mod.rs:RecordVisitor"]}
{"id": "C02", "title": "Result does not depend on how the input is chunked", "statement": "Parsing the same bytes gives the same record (or the same error) whether they arrive as one borrowed slice, through a BufReader, or in arbitrarily many pieces split at arbitrary places.", "quantifier": "every byte content, every pair of ParseBufs that hold that content, every config and endianness", "why_tests_cant": "The number of chunkings is exponential in the input length and each parse routine has separate fast and slow paths.", "anchors": ["src/parse.rs:parse_array", "src/parse.rs:parse_bytes", "src/parse.rs:parse_slice", "src/parsebuf.rs:ParseBufCursor", "src/util/cow.rs"]}
{"id": "C03", "title": "The contiguous fast path is unobservable", "statement": "parse_record_with_header switches to a plain-slice parser when the record body is one borrowed slice; the value or error returned is the same as the one the general (cursor) parser would return for that body.", "quantifier": "every record body, header, config, endianness", "why_tests_cant": "Needs agreement of two code paths on all bodies of all 21 record types.", "anchors": ["src/parse.rs:parse_record_with_header", "src/parsebuf.rs:ParseBufCursor::as_slice"]}
{"id": "C04", "title": "A successfully parsed record consumes exactly header.size bytes", "statement": "After parse_record returns Ok, the parser stands exactly header.size bytes after where it started, whatever the record type and however few of the body bytes the record type used.", "quantifier": "every input, config, endianness, record type, header size", "why_tests_cant": "Fuzzing samples a few byte strings; the claim ranges over an infinite set of inputs, chunkings and configurations.", "anchors": ["src/parse.rs:parse_record", "src/parse.rs:split_at", "src/parsebuf.rs:ParseBufCursor::new"]}
{"id": "C05", "title": "A malformed body does not desynchronise the stream", "statement": "If the header is readable, its size is at least 8 and that many bytes are available, then parse_record leaves the parser exactly header.size bytes further on even when it returns an error because of the body, so the next call reads the next record.", "quantifier": "every input, config, endianness, every kind of body error", "why_tests_cant": "Fuzzing samples a few byte strings; the claim ranges over an infinite set of inputs, chunkings and configurations.", "anchors": ["src/parse.rs:parse_metadata_with_header_impl", "src/parse.rs:parse_record_with_header"]}
{"id": "C06", "title": "A truncated record is an end-of-input error, never a record", "statement": "If fewer bytes are available than the header announces (or fewer than a header), parse_record returns the buffer's end-of-input error and no record.", "quantifier": "every strict prefix of every record, every chunking, every config", "why_tests_cant": "Fuzzing samples a few byte strings; the claim ranges over an infinite set of inputs, chunkings and configurations.", "anchors": ["src/parse.rs:parse_record", "src/parsebuf.rs:ParseBufCursor::new", "src/parse.rs:parse_array"]}
{"id": "C07", "title": "A header size below 8 is rejected", "statement": "A header whose size field is smaller than the header itself yields an InvalidRecord error and consumes only the header.", "quantifier": "every header type/misc/size < 8, every following data", "why_tests_cant": "Fuzzing samples a few byte strings; the claim ranges over an infinite set of inputs, chunkings and configurations.", "anchors": ["src/parse.rs:parse_metadata_with_header_impl"]}
{"id": "C08", "title": "A record too small for its sample_id trailer is rejected", "statement": "With sample_id_all set, any record other than MMAP and SAMPLE whose body is shorter than the configured sample_id trailer yields InvalidRecord.", "quantifier": "every config with sample_id_all, every record type other than MMAP/SAMPLE, every body", "why_tests_cant": "Fuzzing samples a few byte strings; the claim ranges over an infinite set of inputs, chunkings and configurations.", "anchors": ["src/parse.rs:parse_metadata_with_header_impl", "src/records/mod.rs:SampleId::estimate_len"]}
{"id": "C09", "title": "A record's result depends only on its own bytes", "statement": "The value returned for a record is determined by its header.size bytes; bytes that follow it in the buffer never change the value or the error.", "quantifier": "every record bytes, every pair of continuations", "why_tests_cant": "Two-run (relational) property over unbounded suffixes.", "anchors": ["src/parse.rs:split_at", "src/parsebuf.rs:ParseBufCursor::new"]}
{"id": "C10", "title": "A stream of records decodes in order, completely", "statement": "Calling parse_record repeatedly on the concatenation of any number of well-formed records returns exactly those records, in order, and leaves the parser at the end of the data.", "quantifier": "every finite sequence of well-formed records of any types, any chunking", "why_tests_cant": "Quantifies over sequences of any length and every chunk boundary placement.", "anchors": ["src/parse.rs:parse_record", "src/parsebuf.rs"]}
{"id": "C11", "title": "Fixed-layout records round-trip", "statement": "For LOST, EXIT, FORK, THROTTLE, UNTHROTTLE, ITRACE_START, LOST_SAMPLES, AUX, BPF_EVENT, AUX_OUTPUT_HW_ID and SWITCH_CPU_WIDE: parsing the kernel's byte layout of any field values, in the source byte order, returns exactly those values (SWITCH_CPU_WIDE being Out iff the SWITCH_OUT misc bit is set).", "quantifier": "every value of every field, both byte orders, any chunking", "why_tests_cant": "2^128 and more combinations of field values per record; unit tests check one literal each.", "anchors": ["src/records/lost.rs", "src/records/exit.rs", "src/records/throttle.rs", "src/records/itrace_start.rs", "src/records/lost_samples.rs", "src/records/aux_record.rs", "src/records/bpf_event.rs", "src/records/aux_output_hw_id.rs", "src/records/switch_cpu_wide.rs"]}
{"id": "C12", "title": "Records with a name round-trip", "statement": "For MMAP, COMM, CGROUP and KSYMBOL: parsing the kernel layout (fixed fields, name, NUL padding) returns the same fields and the name without its NUL padding.", "quantifier": "every field value, every name of any length that does not end in NUL, every amount of padding (name and padding not both empty), both byte orders, any chunking", "why_tests_cant": "Unbounded name lengths and paddings.", "anchors": ["src/records/mmap.rs", "src/records/comm.rs", "src/records/cgroup.rs", "src/records/ksymbol.rs", "src/parse.rs:parse_rest_trim_nul"]}
{"id": "C13", "title": "MMAP2 decodes both detail layouts", "statement": "MMAP2 is decoded with the device/inode layout or, iff the MMAP_BUILD_ID misc bit is set, with the build-id layout; build_id() returns exactly the first `len` of the 20 stored bytes; a stored length above 20 is rejected with InvalidRecord; build_id() never panics on a parsed record.", "quantifier": "every field value, build-id length byte 0..255, misc, both byte orders, any chunking", "why_tests_cant": "All 256 length values combined with all payloads and misc flags.", "anchors": ["src/records/mmap2.rs:MmapDetail", "src/records/mmap2.rs:build_id"]}
{"id": "C14", "title": "NAMESPACES decodes and its accessors pick the right entry", "statement": "NAMESPACES returns all nr entries in order; network/uts/ipc/pid/user/cgroup return the entry at the kernel's fixed index for that namespace, or None if the record has fewer entries.", "quantifier": "every list of entries of any length, both byte orders, any chunking", "why_tests_cant": "Unbounded entry lists.", "anchors": ["src/records/namespaces.rs"]}
{"id": "C15", "title": "TEXT_POKE splits old and new bytes", "statement": "TEXT_POKE returns exactly the first old_len payload bytes as old_bytes and the following new_len bytes as new_bytes.", "quantifier": "every old/new byte strings (0..65535 bytes each), any chunking", "why_tests_cant": "Boundary lengths (0, exact fit) interact with whether the data is borrowed or owned.", "anchors": ["src/records/text_poke.rs", "src/util/cow.rs:split_at"]}
{"id": "C16", "title": "READ decodes exactly the fields read_format asks for", "statement": "A READ record/ReadValue decodes the value followed by exactly those optional fields (time_enabled, time_running, id, lost) whose read_format bit is set, in that order; accessors return Some exactly for those.", "quantifier": "every read_format without GROUP, every field value, both byte orders, any chunking", "why_tests_cant": "All format combinations times all values.", "anchors": ["src/records/read.rs:ReadValue"]}
{"id": "C17", "title": "SAMPLE round-trips for every sample_type", "statement": "For every sample_type combination the parser supports, parsing the kernel layout of a sample returns every requested field with its exact value and consumes all of it.", "quantifier": "every subset of the sample flags, every field value, every variable-length payload, both byte orders, any chunking", "why_tests_cant": "2^24 flag combinations with unbounded payloads.", "anchors": ["src/records/sample.rs:Sample"]}
{"id": "C18", "title": "A sample field is present iff it was requested", "statement": "On a parsed sample, an accessor returns Some exactly when the corresponding bit of sample_type (for id: ID or IDENTIFIER; for lbr_hw_index: BRANCH_STACK with BRANCH_HW_INDEX) is set.", "quantifier": "every config, every input that parses as a sample", "why_tests_cant": "All flag sets and all inputs.", "anchors": ["src/records/sample.rs", "src/macros.rs:option_struct"]}
{"id": "C19", "title": "Raw sample data is delimited and padded correctly", "statement": "PERF_SAMPLE_RAW yields exactly `size` bytes and the parser then skips to the next multiple of 8 from the start of the field, so the following fields are read at the right place.", "quantifier": "every raw size and payload, every following fields", "why_tests_cant": "Every residue of size mod 8 with arbitrary following data.", "anchors": ["src/parse.rs:parse_padded", "src/records/sample.rs"]}
{"id": "C20", "title": "User stack is cut to dyn_size", "statement": "PERF_SAMPLE_STACK_USER returns the first dyn_size bytes of the dumped stack; dyn_size greater than the dump is rejected with InvalidRecord; when the dump size is 0 no dyn_size is read.", "quantifier": "every size, dump and dyn_size", "why_tests_cant": "Unbounded sizes and hostile dyn_size values.", "anchors": ["src/records/sample.rs"]}
{"id": "C21", "title": "id() prefers ID over IDENTIFIER", "statement": "For samples and for sample_id trailers, id() is the ID field if PERF_SAMPLE_ID was requested, otherwise the IDENTIFIER field, and the two layouts (IDENTIFIER first in samples, last in trailers) do not shift any other field.", "quantifier": "every config and field value", "why_tests_cant": "All combinations of the flags and values.", "anchors": ["src/records/sample.rs", "src/records/mod.rs:SampleId"]}
{"id": "C22", "title": "The sample_id trailer length estimate is exact", "statement": "SampleId::estimate_len(config) is exactly the number of bytes parsing a SampleId consumes, for every config; with sample_id_all unset it is 0 and the SampleId is empty; with it set, the trailer's fields are returned; SampleId::from_sample of a sample has the sample's pid/tid/time/id/stream_id/cpu.", "quantifier": "every config, every trailer content", "why_tests_cant": "All 2^6 relevant flag combinations, embedded in all sample_type values.", "anchors": ["src/records/mod.rs:SampleId::estimate_len", "src/records/mod.rs:SampleId::parse"]}
{"id": "C23", "title": "Group reads return every counter", "statement": "A ReadGroup parsed from the kernel layout has len() == nr and entries() yields, in order, the value and the requested id/lost of each counter; get(i) is the i-th entry or None; get_by_id(id) is the first entry with that id, and None when ids were not requested.", "quantifier": "every list of counters of any length, every read_format with GROUP", "why_tests_cant": "Unbounded groups.", "anchors": ["src/records/read.rs:ReadGroup", "src/flags.rs:element_len"]}
{"id": "C24", "title": "Group iteration is a faithful double-ended iterator", "statement": "Any interleaving of next, next_back, nth and nth_back on entries() yields each entry at most once, from the two ends inward, as iterating the list of entries would; len/size_hint always equals the number left; count/last agree with it.", "quantifier": "every group, every finite history of iterator calls", "why_tests_cant": "Histories of any length.", "anchors": ["src/records/read.rs:GroupIter"]}
{"id": "C25", "title": "Single read and group read convert losslessly", "statement": "Converting a ReadValue to a ReadGroup gives a one-entry group with the same value/id/lost/times; converting that back gives a ReadValue with the same accessors; TryFrom fails exactly for groups whose number of entries is not one.", "quantifier": "every ReadValue and ReadGroup obtainable from the API", "why_tests_cant": "All formats and values.", "anchors": ["src/records/read.rs:TryFrom", "src/records/read.rs:From"]}
{"id": "C26", "title": "Unsupported read formats are refused, not misparsed", "statement": "If attr.read_format contains any bit this crate does not know, parsing a ReadValue or ReadGroup fails with UnsupportedConfig; a ReadValue is refused when GROUP is set and a ReadGroup when it is not.", "quantifier": "every 64-bit read_format", "why_tests_cant": "2^64 read formats pass through a packed 6-bit field.", "anchors": ["src/config.rs:set_read_format", "src/records/read.rs"]}
{"id": "C27", "title": "ParseConfig reports what the attr said", "statement": "For a ParseConfig made from a perf_event_attr, sample_type(), read_format(), regs_user(), regs_intr() and the sample_id_all and branch-hw-index decisions equal the attr's (for all sample_type below 2^40 and all read formats known to the crate), even though they are packed in one 64-bit word. ParseConfig::default() has nothing set.", "quantifier": "every attr", "why_tests_cant": "2^128 combinations of packed fields.", "anchors": ["src/config.rs:ConfigFlags"]}
{"id": "C28", "title": "Record misc bits never disturb the rest of the config", "statement": "Parsing a record under its header's misc changes only misc: all other settings are unchanged, and misc reads back exactly.", "quantifier": "every config and misc value", "why_tests_cant": "All 2^16 misc values times all configs.", "anchors": ["src/config.rs:set_misc", "src/config.rs:with_misc"]}
{"id": "C29", "title": "Endianness decoding is correct and is_native is truthful", "statement": "Little/Big/Dynamic decode integers of 2, 4 and 8 bytes as the value whose encoding in that order is those bytes, Native in the host's order; is_native() is true exactly if the source order is the host's.", "quantifier": "every byte array, both host byte orders", "why_tests_cant": "2^64 values on two kinds of hosts, one of which CI never runs.", "anchors": ["src/endian.rs"]}
{"id": "C30", "title": "Byte order of the source does not change the decoded value", "statement": "The same logical record encoded little endian and parsed with Little, or encoded big endian and parsed with Big, yields the same value on any host.", "quantifier": "every record, both hosts", "why_tests_cant": "Relational over all records; CI has no big endian host.", "anchors": ["src/endian.rs", "src/parse.rs"]}
{"id": "C31", "title": "parse_bytes returns exactly the next n bytes", "statement": "On non-exhausted input, parse_bytes(n) returns exactly the next n bytes and advances by n if they are available, and otherwise fails with the end-of-input error, in all of its borrowed, preallocated and incremental paths and for whatever remaining_hint says.", "quantifier": "every n, content, chunking, remaining_hint", "why_tests_cant": "Three code paths selected by chunk layout and hint.", "anchors": ["src/parse.rs:parse_bytes", "src/parse.rs:parse_bytes_slow", "src/parse.rs:parse_bytes_direct"]}
{"id": "C32", "title": "parse_rest and parse_rest_trim_nul", "statement": "parse_rest returns all remaining bytes and leaves nothing; parse_rest_trim_nul returns them without the trailing NULs (and only those), keeping interior NULs.", "quantifier": "every non-empty content and chunking", "why_tests_cant": "Unbounded contents and chunkings.", "anchors": ["src/parse.rs:parse_rest", "src/parse.rs:parse_rest_trim_nul"]}
{"id": "C33", "title": "parse_slice returns the same elements as element-wise parsing", "statement": "parse_slice(n) (which may reinterpret the buffer in place) returns the same n elements, and advances by the same amount, as parsing n elements one at a time.", "quantifier": "every n, content, chunking, address alignment, endianness and host", "why_tests_cant": "Depends on the runtime address of the buffer.", "anchors": ["src/parse.rs:parse_slice", "src/parse.rs:parse_slice_direct", "src/parse.rs:parse_repeated"]}
{"id": "C34", "title": "Preallocation is bounded by the input", "statement": "No single up-front allocation made while parsing a record exceeds max(16384, number of input bytes actually supplied), whatever lengths the data claims.", "quantifier": "every input, config, claimed length", "why_tests_cant": "Hostile length fields up to 2^64.", "anchors": ["src/parse.rs:safe_capacity_bound", "src/parse.rs:parse_repeated", "src/parse.rs:parse_bytes_slow", "tests/regression.rs"]}
{"id": "C35", "title": "remaining_hint is accurate", "statement": "Whenever a ParseBuf of this crate reports a remaining_hint, it equals the number of bytes left (the trait's safety contract).", "quantifier": "every buffer state reachable by chunk/advance", "why_tests_cant": "All histories of advance.", "anchors": ["src/parsebuf.rs:ParseBufCursor::remaining_hint", "src/parsebuf.rs:ParseBufCursor::advance"]}
{"id": "C36", "title": "A failed parse leaves the parser unmodified", "statement": "Documented on Parser::parse: if the type fails to parse then the parser is not modified.", "quantifier": "every type, every failing input", "why_tests_cant": "All failing inputs.", "anchors": ["src/parse.rs:parse"]}
{"id": "C37", "title": "The right visitor method is called, once", "statement": "parse_record calls exactly the visit method for the header's record type, with the record parsed from the body and the metadata (type, misc, sample_id) of that record; methods not overridden fall back to visit_unimplemented, except visit_mmap2 which falls back to visit_mmap with the common fields; unknown types go to visit_unknown with the whole body.", "quantifier": "every visitor, record type (2^32), body", "why_tests_cant": "All 2^32 type codes and all subsets of overridden methods.", "anchors": ["src/parse.rs:parse_record_impl", "src/visitor.rs:Visitor"]}
{"id": "C38", "title": "SWITCH records are delivered as SWITCH", "statement": "A PERF_RECORD_SWITCH record is delivered to visit_switch / parsed as Record::Switch.", "quantifier": "every SWITCH record, config", "why_tests_cant": "All configs and headers.", "anchors": ["src/parse.rs:parse_record_impl", "src/visitor.rs:visit_switch", "src/records/mod.rs:visit_switch"]}
{"id": "C39", "title": "perf_event_attr decodes every kernel version's layout", "statement": "Parsing the kernel's layout of a perf_event_attr of any published size returns each field that size contains and zero for the others.", "quantifier": "every field value, each published size, larger zero-extended sizes, both byte orders, any chunking", "why_tests_cant": "All sizes and field values.", "anchors": ["src/impls/perf_event_attr.rs"]}
{"id": "C40", "title": "perf_event_attr rejects sizes and fields it does not know", "statement": "A size that is neither a published size nor larger than the newest is rejected with InvalidRecord; a larger one with any non-zero unknown byte is rejected with UnsupportedData.", "quantifier": "every 32-bit size, every tail", "why_tests_cant": "2^32 sizes, unbounded tails.", "anchors": ["src/impls/perf_event_attr.rs"]}
{"id": "C41", "title": "Cow split_at and truncate behave as on slices", "statement": "Splitting or truncating copy-on-write data gives the same pieces as the slice operation, whether the data is borrowed or owned.", "quantifier": "every data and split point", "why_tests_cant": "All lengths and split points, both variants.", "anchors": ["src/util/cow.rs"]}
{"id": "C42", "title": "Optional-field storage never exposes uninitialised memory", "statement": "A struct with optional fields (Sample, SampleId) returns Some(v) from an accessor iff the field was constructed with Some(v); no accessor, clone or drop touches an uninitialised field and every initialised field is dropped exactly once; the default value has all fields None.", "quantifier": "every assignment of the optional fields", "why_tests_cant": "2^25 presence patterns.", "anchors": ["src/macros.rs:option_struct"]}
{"id": "C43", "title": "Build ids print as hexadecimal", "statement": "The Debug output of a build id is its bytes in hexadecimal, two digits per byte, high nibble first.", "quantifier": "every byte string", "why_tests_cant": "Every byte value.", "anchors": ["src/util/fmt.rs:HexStr"]}
{"id": "C44", "title": "Names print completely, once, for any bytes", "statement": "Debug-printing a name terminates without panicking for any bytes (valid UTF-8 or not) and prints every byte of it exactly once, in order, escaped.", "quantifier": "every byte string", "why_tests_cant": "All byte strings, including every malformed UTF-8 shape.", "anchors": ["src/util/fmt.rs:ByteStr"]}
{"id": "C45", "title": "Error kinds are honest", "statement": "A parse method of this crate never produces an External error itself: parsing fails with External only if the ParseBuf's own error was External; Eof is only reported when the buffer ended; UnsupportedData never comes from a record.", "quantifier": "every input, buffer error, config", "why_tests_cant": "All failure paths.", "anchors": ["src/error.rs:ErrorKind", "src/parse.rs"]}
{"id": "C46", "title": "Errors convert and display consistently", "statement": "An io::Error becomes an Eof error iff it is UnexpectedEof and an External one otherwise, keeping its message; the displayed text of a ParseError contains its kind's description and its message, separated.", "quantifier": "every error kind and message", "why_tests_cant": "All messages.", "anchors": ["src/error.rs"]}
{"id": "C47", "title": "Borrowed input is not copied; temporary input is never borrowed", "statement": "Parsing from one in-memory slice returns variable-length byte fields as borrows of the input; data handed out as Temporary by a ParseBuf is always copied (Owned) in results.", "quantifier": "every input", "why_tests_cant": "All inputs and chunkings.", "anchors": ["src/parsebuf.rs:to_cow", "src/parse.rs:parse_bytes_direct", "src/parse.rs:parse_rest"]}
{"id": "C48", "title": "Zero-length payloads at the end of a record are accepted", "statement": "A variable-length field of length zero (empty callchain, no branch entries, AUX or stack of size 0, no registers) parses as empty even when it is the last thing in the record.", "quantifier": "every config whose last field is variable-length", "why_tests_cant": "All configs and positions.", "anchors": ["src/parse.rs:parse_bytes_direct", "src/parse.rs:parse_slice_direct", "src/records/sample.rs"]}
{"id": "C49", "title": "Register dumps match the kernel's layout", "statement": "regs_user/regs_intr return abi, the configured mask and one value per mask bit; with abi NONE (no registers dumped by the kernel) no values are read.", "quantifier": "every mask, abi, register values", "why_tests_cant": "All 2^64 masks.", "anchors": ["src/records/sample.rs:Registers"]}
{"id": "C50", "title": "Every requested sample field the kernel writes is consumed", "statement": "For each sample_type bit the crate defines a flag for (including WEIGHT_STRUCT), the parser consumes the field the kernel writes for it, so later fields are not shifted.", "quantifier": "every sample_type", "why_tests_cant": "All flag subsets.", "anchors": ["src/records/sample.rs", "src/flags.rs:SampleFlags"]}
{"id": "C51", "title": "Branch entry accessors decode the kernel bit-field", "statement": "from/to/mispred/predicted/in_tx/abort/cycles/ty of a branch entry parsed from the kernel's 24-byte layout return the bits the kernel stored, when source and host byte order agree.", "quantifier": "every 192-bit entry", "why_tests_cant": "2^192 entries.", "anchors": ["src/records/sample.rs:BranchEntry"]}
{"id": "C52", "title": "Data source accessors decode the kernel bit-field", "statement": "mem_op/lvl/snoop/lock/dtlb/lvl_num/remote/blk/hops of a data source return the kernel's bit ranges; mem_snoop combines snoop and snoopx without loss or overlap.", "quantifier": "every 64-bit data source", "why_tests_cant": "2^64 values.", "anchors": ["src/records/sample.rs:DataSource", "src/records/sample.rs:MemSnoop"]}
{"id": "C53", "title": "Flag words keep unknown bits and sub-fields decode", "statement": "Txn, AuxFlags and KSymbolFlags parsed from data keep every bit; Txn::abort is the upper 32 bits; AuxFlags::pmu_format_type is bits 8..15.", "quantifier": "every 64-bit word", "why_tests_cant": "2^64 values.", "anchors": ["src/records/sample.rs:Txn", "src/records/aux_record.rs", "src/records/ksymbol.rs"]}
{"id": "C54", "title": "parse_metadata exposes exactly the record's bytes", "statement": "parse_metadata returns a parser over exactly the record body without header and sample_id trailer, together with the type, misc and decoded trailer; reading past it reports Eof; the outer parser stands after the record.", "quantifier": "every record, config, chunking, every use of the returned parser", "why_tests_cant": "All bodies and chunkings.", "anchors": ["src/parse.rs:parse_metadata", "src/parse.rs:split_at"]}
{"id": "C55", "title": "Sub-parsers tolerate empty chunks", "statement": "Splitting off a sub-parser terminates and contains exactly the requested bytes even if the ParseBuf sometimes returns empty chunks, as long as it eventually makes progress.", "quantifier": "every such ParseBuf", "why_tests_cant": "Every pattern of empty chunks.", "anchors": ["src/parsebuf.rs:ParseBufCursor::new", "CHANGELOG.md"]}
{"id": "C56", "title": "into_owned preserves contents", "statement": "into_owned/to_owned/to_mmap on a record changes no observable field (to_mmap: keeps the fields MMAP shares).", "quantifier": "every record value", "why_tests_cant": "All values.", "anchors": ["src/records/mmap.rs", "src/records/mmap2.rs", "src/records/comm.rs", "src/records/cgroup.rs", "src/records/ksymbol.rs", "src/records/text_poke.rs", "src/records/read.rs"]}
{"id": "C57", "title": "I/O errors of the underlying reader surface unchanged", "statement": "If the reader behind a BufReader fails in the middle of a record, parse_record returns that error (converted), not a record and not Eof; if it fails after the record, the record is returned.", "quantifier": "every sequence of read results, error position", "why_tests_cant": "Every placement of read boundaries and errors.", "anchors": ["src/parsebuf.rs:BufReader", "src/error.rs"]}
{"id": "C58", "title": "MMAP records with a sample_id trailer", "statement": "With sample_id_all set the kernel also appends the sample_id trailer to PERF_RECORD_MMAP (perf_event_mmap_output); parsing such a record returns the filename without the trailer's bytes and the trailer's fields in the metadata.", "quantifier": "every MMAP record, sample_type, byte order, chunking", "why_tests_cant": "The crate's tests follow the manpage, which does not show the trailer; every sample_type and name.", "anchors": ["src/parse.rs:parse_metadata_with_header", "src/records/mmap.rs"]}
{"id": "C59", "title": "Bit fields decode regardless of source byte order", "statement": "Bit fields written by a kernel of either byte order (branch entries, data sources, perf_event_attr flags such as sample_id_all) are decoded to the kernel's values on any host.", "quantifier": "every bit field value, source and host byte order", "why_tests_cant": "Needs a host of each byte order and all values.", "anchors": ["src/records/sample.rs:BranchEntry", "src/records/sample.rs:DataSource", "src/config.rs"]}
{"id": "C60", "title": "Addresses print as unambiguous hexadecimal", "statement": "{:?} of an address field (Mmap, Mmap2, KSymbol, TextPoke, Sample addr/phys_addr) is 0x followed by at least 14 upper case hexadecimal digits denoting the address; different addresses print differently.", "quantifier": "every 64-bit address", "why_tests_cant": "2^64 addresses.", "anchors": ["src/util/fmt.rs:HexAddr"]}
{"id": "C61", "title": "Debug output shows exactly what is there and never panics", "statement": "{:?} of any record returned by parse_record completes without a panic; of a Sample or SampleId it shows exactly the fields that are present, in declaration order, each with the value its accessor returns; of a ReadValue, ReadGroup or GroupEntry exactly the fields read_format asks for.", "quantifier": "every record that parsing can return, every configuration", "why_tests_cant": "All subsets of optional fields and all records.", "anchors": ["src/macros.rs:option_struct", "src/macros.rs:debug_if", "src/records/read.rs:Debug", "src/records/mmap2.rs:Debug"]}
{"id": "C62", "title": "Nothing is accepted that the kernel could not have written", "statement": "If parse_record returns a record (or calls a visitor with one), then the bytes at the parser are exactly the kernel's layout of that record: header, body, trailer with the sample_id handed to the visitor, with at most some ignored bytes between body and trailer; records whose last field runs to the end of the body have no ignored bytes; and the parser then stands right behind it.", "quantifier": "every buffer obeying the ParseBuf contract, every configuration and byte order, every visitor, all bytes", "why_tests_cant": "Tests parse data that was made to be valid. That no other data is ever accepted, and that no value is returned which is not in the data, is a claim about all byte strings.", "anchors": ["src/parse.rs:parse_record", "src/parse.rs:parse_record_with_header", "src/records/mod.rs", "src/records/sample.rs"]}
{"id": "C63", "title": "Parsers written against the public interface never panic and see only the bytes", "statement": "A user's Parse implementation that calls the public methods of Parser (config, parse_u8..parse_u64, parse_bytes, parse_rest, parse_rest_trim_nul, parse_slice and parse_slice_direct, parse_repeated, parse_metadata, parse_metadata_with_header, parse_record and parse_record_with_header with any visitor, and parse::<T> for every type of the crate: arrays, perf_event_header, perf_event_attr, Record and the individual records and their parts) in any order, decides on what they return and may go on after an error, always returns without panicking, whatever the buffer contains and whatever failed before; and over two buffers with the same contents, however these are cut into chunks and wherever they live, it returns the same.", "quantifier": "for every program over these methods, every configuration, every content, every division into chunks, every address, every script of read results", "why_tests_cant": "quantifies over all programs users can write against the interface, and over all states earlier errors can leave", "anchors": ["src/parse.rs:115", "src/parse.rs:165", "src/parse.rs:236", "src/parse.rs:391", "src/parse.rs:477", "src/parse.rs:488", "src/parse.rs:502", "src/parse.rs:547", "src/parse.rs:596", "src/impls/perf_event_attr.rs:12"]}
{"id": "C64", "title": "The total memory a record can claim is bounded by its size", "statement": "All up-front memory requests whose size depends on the input (Vec::with_capacity(len), to_vec) of one parse_record call together are at most 4 times the body size in the header (so below 256 KiB for any input), 3 times if it returns a record, one time less for MMAP and SAMPLE; over buffers that lend their data (slices) at most twice and once; and, unless something panics, at most four times the bytes the call consumes, also over a whole stream with errors in it.", "quantifier": "every buffer whatsoever (also ones that break the ParseBuf contract), every configuration, every visitor, all bytes", "why_tests_cant": "Allocation sizes depend on lengths announced in the data; a test can only try some of them, and usually only valid ones.", "anchors": ["src/parse.rs:safe_capacity_bound", "src/parse.rs:parse_bytes", "src/parse.rs:parse_repeated", "src/parse.rs:split_at", "src/parsebuf.rs:ParseBufCursor::new"]}
{"id": "C65", "title": "The address of the input matters modulo 8, and only in the host's byte order", "statement": "Parsing the same bytes at two addresses that agree modulo 8 gives exactly the same outcome: the same record (including which Cow values are borrowed), error or panic, the same memory requests, the same number of bytes consumed and the same bytes left. For input in several pieces this holds piece by piece. In a byte order other than the host's the addresses need not agree at all. The same holds for every program written against the public Parser methods, also one that goes on after errors.", "quantifier": "all bytes, all pairs of addresses, all cuts into pieces (also empty ones), all configurations and byte orders, every visitor and every user program; no exceptions for inputs on which the parser is wrong", "why_tests_cant": "A test runs at whatever address the allocator gives it and cannot compare all residues on all inputs; results that depend on the address show up only on some inputs (C33).", "anchors": ["src/parse.rs:parse_slice_direct", "src/parse.rs:parse_bytes_direct", "src/parsebuf.rs:ParseBufCursor"]}
{"id": "C66", "title": "A record depends only on the parts of the configuration that describe it", "statement": "Two ParseConfigs that agree on the parts relevant to a record give exactly the same outcome for it: the same value or error, memory requests and bytes left. Relevant are: how the Endian converts integers, always; whether it calls the data native, only for NAMESPACES and for samples that contain a list (callchain, branches, registers, values of a group); read_format for READ; for SAMPLE bits 0-23 of sample_type, and read_format, the branch hw-index flag, regs_user or regs_intr only if the bit that announces the part is set; for every type except MMAP and SAMPLE sample_id_all and, only if it is set, the six sample_type bits that put a field in the trailer. The misc bits the configuration holds before the record are never used. Every one of these parts does matter, i.e. for each there are two configurations that differ in it alone and an input on which the outcomes differ.", "quantifier": "all pairs of configurations that agree on the listed parts, all record types (known and unknown), all bytes, all buffer implementations, all visitors, successes and failures", "why_tests_cant": "Independence from a part of the configuration is a statement about pairs of runs over all values of that part (64-bit masks and flag words) and all inputs.", "anchors": ["src/config.rs:ParseConfig", "src/parse.rs:parse_metadata_with_header", "src/records/mod.rs:SampleId", "src/records/sample.rs:Sample", "src/records/read.rs:ReadValue"]}
{"id": "C67", "title": "Where a call leaves the parser, also when it fails", "statement": "After parse_record the parser is at a position that depends on the input's length and the size field of the header only, whatever the record contains and whatever the outcome or visitor: behind the record if it is complete, at the end of the input if the header or the record is cut off, directly behind the header if its size field is below 8. Below the framing, every parser method, record type, header and trailer that fails because the input ends has consumed the whole input. So a loop that goes on after errors never sees part of a cut-off record as a new one: every further call reports the end.", "quantifier": "every input, every configuration, every visitor, every lawful ParseBuf with any chunking, all outcomes (records, errors, panics)", "why_tests_cant": "A test looks at the position after chosen failures; the claim is that no content of a record, at any failure point in any of the record types, influences the position.", "anchors": ["src/parse.rs:parse_record", "src/parse.rs:parse_record_with_header", "src/parse.rs:parse_metadata_with_header", "src/parse.rs:parse_bytes", "src/parsebuf.rs:ParseBufCursor::new"]}
{"id": "C68", "title": "The text {:?} prints, character by character", "statement": "{:?} of every record parse_record returns, of RecordMetadata, SampleId, ReadValue, ReadGroup, GroupEntry and ParseConfig is exactly the type and field names of the public API in declaration order with their values: numbers in decimal, addresses as 0x and hexadecimal digits, lists in brackets, optional fields only when their accessor returns a value, structures that may grow ending in `..`. Different numbers print differently.", "quantifier": "every record any input can give, every value, every configuration; for any text of the types generated outside the crate (flag and enum names) and any escaping of valid text", "why_tests_cant": "A test compares the text of chosen values; the claim covers all subsets of optional fields, all list lengths and all numbers.", "anchors": ["src/records/mod.rs:Record", "src/macros.rs:option_struct", "src/macros.rs:debug_if", "src/records/read.rs:Debug", "src/records/sample.rs:Debug", "src/config.rs:Debug", "src/visitor.rs:RecordMetadata"]}
{"id": "C69", "title": "A recording decodes with the configuration made from its own attr", "statement": "Parsing the perf_event_attr of a recording, converting it with ParseConfig::from and parsing the recording's records with that configuration delivers every record with the contents and the sample_id metadata the kernel wrote for an event with that attr, for all attr sizes, sample_type, read_format, sample_id_all, register masks and branch settings.", "quantifier": "for all attrs, all published attr sizes, all lists of records the kernel writes for that attr, all visitors, all sources and byte orders", "why_tests_cant": "the layouts of attr, configuration word and records multiply; a setting lost or moved on the way from attr to record only shows for particular combinations", "anchors": ["src/parse.rs", "src/config.rs", "src/records/mod.rs"]}
{"id": "C70", "title": "What parsing one piece of borrowed memory returns, in every case", "statement": "For a slice (or any ParseBuf handing out one borrowed chunk) the value or error of parse_record, including which parts of the record are borrowed, is a function of the bytes, the address modulo 8 and the configuration only. Where lists in the host's byte order are aligned or empty they are borrowed; in the other byte order they are copied; in the host's byte order at an address that is not a multiple of 8 every non-empty call chain, branch stack, register dump, counter group and namespace list is skipped and read from what follows it, or is an Eof error if less follows.", "quantifier": "every byte content, every address, every configuration and byte order, every visitor, every header; the misaligned cases for all list lengths and all bytes behind the list", "why_tests_cant": "allocators align test buffers, so misaligned native data is hardly ever tested; the claim determines the outcome for all addresses and contents, including errors and borrowing", "anchors": ["src/parse.rs:441-505", "src/parse.rs:509-545", "src/parse.rs:596-616", "src/parsebuf.rs:111-131"]}
{"id": "C71", "title": "The number of calls on the buffer is linear in the size of the record", "statement": "As long as the user's ParseBuf never shows an empty chunk, one parse_record calls its chunk and advance at most three times per byte it consumes, plus two if it fails: at most 3 * max(8, size) + 2 calls for a record of the announced size, fewer than 196,608 for any input. The body of the record is then parsed with at most 3 * (size - 8) + 18 calls on the region split off for it. Wrapping the buffer in a counting one changes no result.", "quantifier": "every ParseBuf that shows no empty chunk, in any state (also ones that break the rest of the contract), every configuration, every visitor, all bytes", "why_tests_cant": "The number of calls depends on how the data is cut into chunks and on lengths announced in it; a test tries a few cuttings.", "anchors": ["src/parse.rs:parse_array", "src/parse.rs:parse_to_slice", "src/parse.rs:parse_repeated", "src/parse.rs:parse_rest", "src/parsebuf.rs:ParseBufCursor::new"]}
{"id": "C72", "title": "A record read in two steps is the record", "statement": "Reading a record's frame with parse_metadata (or parse_metadata_with_header) and its body with parse::<T>() on the returned parser, T being the type that goes with metadata.ty() (parse_rest for an unknown type), and converting the value with Record::from where that exists, gives exactly what parse::<Record>() gives on the same input: the same record, borrowed and owned parts alike, the same metadata that a visitor is given, or the same error; and it leaves the outer parser in the same state. For any visitor, parse_record is the two steps followed by the visitor's method for that type.", "quantifier": "every ParseBuf however it behaves, in any state; every header, configuration, visitor; all 20 record types and every unknown type", "why_tests_cant": "the crate's tests parse bodies directly or whole records, never both ways from one input; equality has to hold for every type, misc value, chunking and failure", "anchors": ["src/parse.rs:36-90", "src/parse.rs:502-616", "src/records/mod.rs:248-288", "src/config.rs:148-151"]}
{"id": "C73", "title": "A loop over a whole input ends, misses nothing and reads nothing twice", "statement": "Calling parse_record again and again, also after errors, divides every input into consecutive blocks that make up the input: each block is as long as its header says, at least 8 bytes and at most what is left. After k calls the parser is behind the first k blocks; there are at most n/8 (rounded up) blocks in n bytes, and every call after the last block reports the end of the input. How far a parser has come does not matter: on a slice each call returns what parsing its block alone returns, and any parser behaves like a new one over what is left. A loop that stops at the first Eof error returns every record of a stream of well-formed records.", "quantifier": "for all inputs (also damaged ones), configurations, visitors, numbers of calls; positions for every lawful ParseBuf, independence of the position for every ParseBuf and every program over the public interface", "why_tests_cant": "The property is about every division of every byte string into records, including corrupted ones, and about all positions at which a parser may stand; tests run loops over a few well-formed files.", "anchors": ["src/parse.rs:502-610", "src/parsebuf.rs:250-296", "src/error.rs:74-81"]}
{"id": "C74", "title": "The custom sample type of the documentation decodes what Sample decodes", "statement": "The module documentation shows a user-defined type for samples with IP, TID, CALLCHAIN and CGROUP, read with parse_metadata and parse. On every such record the kernel writes, in any byte order, from any buffer and at any address, it gets the record's type, misc and exactly the values written, and the outer parser is left behind the record. On every input whatsoever it succeeds when Sample does, with the same values.", "quantifier": "for all records of that configuration, all byte strings, all byte orders, all lawful ParseBuf implementations, all addresses", "why_tests_cant": "The doctest runs one little endian record from one aligned array; the user's type reads the call chain element by element while Sample reinterprets memory, so agreement over all chunkings, addresses and lengths is not visible from it.", "anchors": ["src/parse.rs:28-95", "src/parse.rs:441-507", "src/records/sample.rs:169-290", "src/lib.rs:117-130"]}
{"id": "C75", "title": "Endian::is_native affects copying only", "statement": "Two Endians that convert integers alike, one of which says that the data is in the host's byte order (is_native, truthfully) and one of which leaves the default answer false, lead to the same records: parse_record gives the same value (up to what is borrowed) and metadata or the same error, and what is accepted with is_native is accepted without. In particular it does not matter whether the host's order is named by Native, Little/Big or Dynamic. For records without lists the whole outcome is the same, including borrowed parts, memory requests and the state of the buffer.", "quantifier": "all Endian implementations (also a user's) whose is_native is truthful, all configurations, bytes, record types and visitors, all lawful buffers; without alignment conditions for readers and for records without lists", "why_tests_cant": "A fast path chosen by a flag has to agree with the slow path on every input, address and way of cutting the input; tests run one of the two on a few aligned inputs.", "anchors": ["src/endian.rs:Endian::is_native", "src/parse.rs:parse_slice", "src/parse.rs:parse_slice_direct"]}
{"id": "C76", "title": "The unsafe code is sound, and a buffer that breaks the rules does no damage", "statement": "For any implementation of ParseBuf, whatever its chunks contain (also empty ones, or different ones at each call), whatever advance does and whatever remaining_hint claims: the preconditions of the unsafe operations in parse.rs hold (each pointer write of parse_to_slice lies inside the destination, set_len in parse_bytes exposes only written bytes for every capacity the vector may have, the array of parse_array_slow is written completely, align_to in parse_slice_direct yields all len elements whenever its head and tail are empty); calls that ask for n bytes or elements and succeed return n of them; a record is parsed from a copy of size - 8 bytes, so that the result is the one of a well-behaved buffer with those bytes; each memory request of parse_record is at most 65527 bytes; and no program that uses the public interface panics unless the buffer itself does.", "quantifier": "all ParseBuf implementations without any law, all states of them, all lengths, capacities and addresses, all headers, configurations, visitors and all programs over the public interface", "why_tests_cant": "Tests run over well-behaved buffers; the space of misbehaving ones is unbounded, and undefined behaviour need not show in a run.", "anchors": ["src/parse.rs:parse_to_slice", "src/parse.rs:parse_bytes", "src/parse.rs:parse_array_slow", "src/parse.rs:parse_slice_direct", "src/parse.rs:split_at", "src/parsebuf.rs:ParseBuf"]}
{"id": "C77", "title": "Two records that decode alike are alike", "statement": "If two records, in any two buffers and byte orders but with the same settings, are delivered to the visitor with equal contents and equal metadata, then the kernel wrote the same in both, except for what the crate's types have no place for: the number of NULs after a name, the word beside cpu, IDENTIFIER when ID is present too, the padding after raw data and after TEXT_POKE code, the part of the user stack that was not filled, the reserved fields beside a build id, and bytes between body and trailer that belong to nothing. None of these shows in the value. For the types without any of them the bytes are equal.", "quantifier": "all pairs of accepted inputs, buffers and byte orders, all configurations; all record types", "why_tests_cant": "A field that is read but dropped, or two fields folded into one, shows only in a pair of records that differ there and nowhere else; the property is about all pairs.", "anchors": ["src/parse.rs:parse_record", "src/records/mod.rs:Record", "src/records/sample.rs:Sample", "src/records/mod.rs:SampleId"]}
{"id": "C78", "title": "{:#?} prints what {:?} prints, over several lines", "statement": "For every record parse_record returns, {:?} and {:#?} are the short and the long form of one layout: the same names, values, order and optional parts. The long form has one field, list item or tuple member per line, each followed by a comma, indented by four blanks per enclosing value; a value nested deeper is the same text with more blanks. The same holds of {:x?} and {:#x?}, {:X?} and {:#X?}, where integers are hexadecimal (with 0x in the long form) and addresses, names and build ids do not change. The short form is a single line whatever bytes names and paths contain, provided escape_debug and the flag types print no line break.", "quantifier": "every record any input can give, every depth of nesting, every combination of the flags # and x or X, any text of the types generated outside the crate", "why_tests_cant": "Indentation composes over nesting and all subsets of optional fields; tests print a few records.", "anchors": ["src/records/mod.rs:Record", "src/macros.rs:option_struct", "src/util/fmt.rs", "src/records/read.rs:Debug", "src/config.rs:Debug"]}
{"id": "C79", "title": "No program over the parser makes it reserve much more than the input is worth", "statement": "Take any program written with the public methods of Parser: parse_bytes, parse_slice, parse_repeated with any element size and any count, parse_rest, parse_metadata with anything done to the parser it returns, parse_record with any visitor, parse of any type of the crate, going on after errors or not. Over a slice every single memory request is for at most the length of the slice or 65527 bytes (the largest body of a record), whichever is larger. Over a BufReader or a list of pieces, and over any buffer at all, the same holds with the largest chunk the buffer shows or announces (16 KiB if it announces nothing) in place of the length. Counts read from the input, up to usize::MAX, do not matter.", "quantifier": "every program, every input, every buffer without any law; all counts, lengths and element sizes", "why_tests_cant": "The bound has to survive arbitrary sequences of calls, retries after errors and hostile counts; a test sees a few allocations.", "anchors": ["src/parse.rs:safe_capacity_bound", "src/parse.rs:parse_bytes", "src/parse.rs:parse_repeated", "src/parse.rs:parse_slice", "src/parsebuf.rs:ParseBufCursor::new"]}
{"id": "C80", "title": "Total allocation of a record, counting every growing vector", "statement": "Count every allocation parse_record makes whose size depends on the input, including each reallocation of a vector that grows by push or extend, the slots for the chunks of the regions it splits off, and the copies made when borrowed data has to be extended or cut. For a record announced as size bytes the total is at most 96 + 227 (size - 8) bytes through any buffer whatever, however finely it delivers its data, and at most 96 + 211 (size - 8) if the record is returned; always below 15 million bytes. Unless something panics, it is at most 96 + 227 times the bytes the call consumes, so a stream of n calls costs at most 96 n + 227 times the bytes consumed. From a byte slice no vector ever grows: beyond the requests with a capacity there are at most two allocations of 48 bytes, and the total is at most 96 + (size - 8) if the record is returned.", "quantifier": "every record type, configuration, byte order, visitor and buffer without any law; every input; any number of calls", "why_tests_cant": "Quadratic growth or copying shows only for hostile fragmentations of the input; a bound on the total over all fragmentations, counts and record types needs an amortised argument.", "anchors": ["src/parsebuf.rs:ParseBufCursor::new", "src/parse.rs:parse_bytes_slow", "src/parse.rs:parse_rest", "src/parse.rs:parse_repeated", "src/parse.rs:parse_record", "src/util/cow.rs:split_at"]}
{"id": "C81", "title": "The fuzz targets never find anything", "statement": "Run the fuzz targets fuzz_record_basic and fuzz_record, the functions of tests/regression.rs and the function of tests/fuzz.rs on any data whatever: they return without a panic and without an endless loop, and no single allocation of input-dependent size, reallocations included, reaches the 4 MiB limit of the allocator used by the regression tests (all of them together stay below 256 KiB). The same holds for any other visitor whose methods return. The targets lose no generality: every configuration together with every input is what fuzz_record does for some data, and every perf_event_attr with every input what the function of tests/fuzz.rs does.", "quantifier": "all data, all addresses, both host byte orders, all configurations", "why_tests_cant": "A fuzzer samples; that no data at all makes the targets fail, and that their data format reaches every configuration, are universal statements.", "anchors": ["fuzz/fuzz_targets/fuzz_record.rs", "fuzz/fuzz_targets/fuzz_record_basic.rs", "tests/regression.rs", "tests/fuzz.rs", "src/config.rs:Arbitrary", "src/parse.rs:parse_record"]}
{"id": "C82", "title": "Every error of a record names its cause", "statement": "When parsing a record ends with an error, that error is one the buffer reported, one the visitor returned for a record with this header, or one of nine with its reason present in the header and configuration: Eof only when the header announces at least 8 bytes; the message about the header size only when it announces fewer; the message about the sample_id only with sample_id_all, a type other than MMAP and SAMPLE, and a size below 8 plus the trailer; the message about a build id of n bytes only for an MMAP2 with the build-id misc bit and 20 < n < 256; the SingleRead message only for a READ with GROUP; the message about unsupported flags only for a READ without GROUP or a SAMPLE with READ, and a read_format bit above 4; the message about group entries only for a SAMPLE with READ and GROUP and ID or LOST; the message about array lengths only in the host's byte order for NAMESPACES or a SAMPLE with CALLCHAIN, BRANCH_STACK or a group read; the stack message only for a SAMPLE with STACK_USER. The GroupRead message never appears. parse_metadata_with_header ends only with the first three. Through a BufReader an error of the buffer is one of the reader's own, unchanged.", "quantifier": "all record headers, configurations, inputs, visitors, and buffers without any law", "why_tests_cant": "Tests provoke each message in one way; that no message is ever given for another reason, whatever the input and the buffer, is a statement about all executions.", "anchors": ["src/parse.rs:parse_record", "src/parse.rs:parse_metadata_with_header_impl", "src/parse.rs:parse_slice_direct", "src/records/read.rs", "src/records/sample.rs", "src/records/mmap2.rs", "src/error.rs"]}
{"id": "C83", "title": "The machine's word size does not change what is parsed", "statement": "A record is parsed to the same result on machines with other sizes of usize (16 to 64 bits). The code converts 64-bit counts from the record with `as usize`, so this is false: with 32 bits a sample whose call chain claims 2^32 + 1 entries is accepted as one with a single entry. What holds: if u64 is aligned to 8 bytes (or the data is of the other byte order), everything the 64-bit build returns is returned identically, with the same parser state and memory requests; results differ only for SAMPLE and NAMESPACES records that the 64-bit build rejects, and only there if the other build also rejects them or eight consecutive bytes of the body are a number beyond usize::MAX. On every machine, whatever its alignment, a record yields a value or an error, requests bounded memory, and leaves the parser where the 64-bit build leaves it.", "quantifier": "all machines, records, configurations, visitors and lawful buffers; the last part for buffers without any law", "why_tests_cant": "Tests run on one machine; a difference between targets shows only for counts of 2^32 or more, in malformed records.", "anchors": ["src/records/read.rs", "src/records/sample.rs", "src/records/namespaces.rs", "src/parse.rs:parse_slice_direct"]}
{"id": "C84", "title": "The listed defects of record parsing are the only ones", "statement": "If the places behind B2, B3, B7, B8, B9, B10 and B12 of DESIGN.md are corrected (parse_bytes and arrays of length 0, parse_rest at the end of the input, the order of alignment test and advance in parse_slice_direct, the size check of parse_slice, split_at of an owned Cow, registers under ABI_NONE, WEIGHT_STRUCT, an arm for SWITCH, the trailer of MMAP), then parse_record depends only on the bytes, the error that ends them and the configuration other than is_native (no condition on addresses, chunks or byte order); every record the kernel writes is decoded to its contents and metadata, wherever it lies and however it is cut, alone or in a stream; no panic and no endless loop; and what the uncorrected crate accepts as a function of the bytes and without misreading it, is returned unchanged.", "quantifier": "all inputs, records, configurations, visitors and lawful buffers", "why_tests_cant": "That a list of defects is complete is a statement about all inputs; and that a repair changes nothing else is one about all inputs that worked.", "anchors": ["src/parse.rs:parse_record", "src/parse.rs:parse_slice_direct", "src/parse.rs:parse_rest", "src/util/cow.rs:split_at", "src/records/sample.rs"]}
{"id": "C85", "title": "With the listed corrections a whole recording is read, from the attr to the last record", "statement": "If in addition to C84 the attr parser splits off size - 8 bytes, the configuration made from an attr of the other byte order looks for sample_id_all where that byte order puts it, and parse_metadata passes on the misc bits, then: an attr of any published size, or a larger one whose unknown part is zero, is read exactly and the parser stands behind it, whatever follows; every other input is rejected with the error for its defect (end of input, invalid size, unsupported data), the same for every buffer; the configuration describes the layout of the event's records for either byte order of source and host; all records of the event that the kernel writes are then delivered in order with their metadata; and reading a record by hand (parse_metadata, then the body) is the same as parse_record for every type.", "quantifier": "all attrs, sizes, byte orders, records, inputs, visitors and lawful buffers", "why_tests_cant": "All settings of an event, all records and both byte orders of two machines; and every malformed attr.", "anchors": ["src/impls/perf_event_attr.rs", "src/config.rs:From<perf_event_attr>", "src/parse.rs:parse_metadata", "src/parse.rs:parse_record"]}
{"id": "C86", "title": "Through a reader only the bytes count", "statement": "What parse_record returns on a buffer that hands out temporary chunks only, such as a BufReader, is a function of the bytes, the error behind them and the configuration: two readers that deliver the same bytes in whatever portions give equal results, including which values are copies, for every record type, well formed or not, without the exceptions of C02 (TEXT_POKE, misaligned lists). The same holds for any number of calls in a row as long as the records are complete, whatever the reader does behind them; and if the reader ends for good, for whole loops, which return what each block of the input gives on its own and are over after as many calls as there are blocks. A reader that goes on after an end of file has no such guarantee: a loop over it may see the rest of a record as a record.", "quantifier": "all inputs, portions, errors behind them, configurations, visitors and numbers of calls", "why_tests_cant": "There are 2^(n-1) ways to cut n bytes into portions; tests try one or two of them.", "anchors": ["src/parsebuf.rs:BufReader", "src/parse.rs:parse_record", "src/parse.rs:parse_bytes", "src/parse.rs:parse_slice"]}
{"id": "C87", "title": "Exactly which of the kernel's records are read", "statement": "Take any record the kernel can write for the configured event (any type, any contents, with the trailer the kernel appends), fitting the 16-bit size field. parse_record delivers it with exactly the written contents and metadata if and only if: it does not end in an empty part (an empty name, an empty stack dump or AUX area, a SWITCH or unknown record of no bytes, in the host's byte order also an empty list of addresses, branches, registers, counters or namespaces), its parts are the announced ones (no WEIGHT_STRUCT alone, no register dump with ABI NONE under a mask that selects registers), it is not an MMAP with a trailer, and, if it arrives through a reader, it is not a TEXT_POKE with nothing on one side. Delivered or not, the next call reads the next record; so in a recording the i-th call delivers the i-th record exactly if that record satisfies the condition, and a whole recording is delivered exactly if all its records do. A record that only ends in an empty part is reported as UnexpectedEof and never changed.", "quantifier": "all kernel records and recordings, configurations, byte orders, visitors, slices at aligned addresses and readers with any portions", "why_tests_cant": "A test shows that one record is or is not read; that there are no other exceptions than the listed ones is a statement about all records.", "anchors": ["src/parse.rs:parse_record", "src/records/mod.rs:parse_record", "src/records/sample.rs:Parse", "src/records/text_poke.rs:Parse", "src/parse.rs:parse_rest", "src/parse.rs:parse_slice"]}
{"id": "C88", "title": "A reader is asked for no more than the record needs, and nothing is lost", "statement": "A call of parse_record (or parse_metadata) on a BufReader makes a read call only while the bytes it has by then are fewer than the record announces in its header (fewer than eight while there is no header), and none after a read call that failed or returned nothing. Whatever was read beyond the record stays in the buffer for the next call. So a record that is already buffered is parsed without any read call, and a record whose last byte has arrived is returned without waiting for anything that follows it, and with a result that cannot depend on what follows. This is so whether the call succeeds or not, and it determines the results of any number of calls on any reader, also on one that goes on after errors or ends of file.", "quantifier": "all readers (any portions, errors and ends of file, in any order), all bytes, configurations, visitors and numbers of calls", "why_tests_cant": "A test reader sees the read calls of one run; that no input makes the parser block on a live source although a complete record has arrived is a statement about all inputs.", "anchors": ["src/parsebuf.rs:BufReader", "src/parse.rs:parse_record", "src/parse.rs:parse_metadata", "src/parse.rs:to_slice", "src/parsebuf.rs:ParseBufCursor::new"]}
{"id": "C89", "title": "With the remaining corrections C14, C35, C43, C45, C46, C59 and C73 hold without exception", "statement": "Correct six more places of the crate: a cursor's hint is the number of bytes left, an end of file inside a record that is all there is reported as InvalidRecord, the bit fields of a branch entry are put in order for the source's byte order, Namespaces::uts uses the UTS index, HexStr prints the high digit first and in hexadecimal, and errors are printed with a separator. Then, with the corrections of C84: parse_record reports Eof if and only if the input ends (with an Eof) before the record does; a loop that stops at Eof terminates on every input, damaged or not, and has by then seen every whole record, in order, each as if it were alone; whatever a kernel writes, SWITCH records included, is delivered by such a loop; the hint of a region's parser is exact whatever was done with it before; branches are reported as recorded for both byte orders on both kinds of host; uts, build ids and error messages are right for all values. Nothing else changes: only an error's kind differs, and only where a complete record's contents do not fit into it.", "quantifier": "all inputs, lawful buffers (slices, readers, cursors, pieces), configurations, visitors, kernel records, branch entries, build ids and errors", "why_tests_cant": "That the listed places are all that was wrong is a statement about every input and every record; tests can only show that known cases are repaired.", "anchors": ["src/parse.rs:parse_record", "src/parsebuf.rs:ParseBufCursor::advance", "src/records/namespaces.rs:uts", "src/util/fmt.rs:HexStr", "src/error.rs:Display", "src/records/sample.rs:BranchEntry"]}
{"id": "C90", "title": "What a user's program sees through a reader is a function of the bytes alone", "statement": "Write any program against the public parser methods: integers, arrays, byte strings, lists, repeated items, parse_rest, parse_metadata and the parser it returns, parse_record, parse_record_with_header with a visitor, any type of the crate that can be parsed, in any order and number, choosing the next call by what was read, and going on after errors where it likes. Run it over a BufReader (or any buffer that hands out temporary chunks). If the reader ends for good, then what the program returns is given by the bytes and the configuration alone: not by the portions in which they arrive, not by buffer sizes, not by addresses. The parser is then also left at the position the bytes determine, after errors too. If the reader fails, or goes on after having reported an end, the same holds of the bytes before the first end or error and that error, for programs that stop at the first error and read to the end only inside of a record.", "quantifier": "all programs over the parser's public methods, all readers, portions, bytes and configurations", "why_tests_cant": "A test runs one program over one reader; here programs, inputs and portions all vary.", "anchors": ["src/parse.rs:Parser", "src/parse.rs:parse_slice", "src/parse.rs:parse_slice_direct", "src/parse.rs:parse_metadata", "src/parsebuf.rs:BufReader", "src/parsebuf.rs:ParseBufCursor"]}
{"id": "C91", "title": "What a user's program sees in memory is a function of the bytes and of their address modulo 8", "statement": "Write any program against the public parser methods, choosing the next call by what was read and going on after errors where it likes, parse_slice_direct and parsers returned by parse_metadata included. Run it over a slice in memory, or over any other buffer that hands out its data as one borrowed chunk. What the program returns is given by an interpreter that knows only the bytes, their address and the configuration; it is a value or an error of the crate, never a panic; of the address only the remainder modulo 8 counts, and in a byte order other than the host's nothing of it. The parser is left with the bytes, the count of consumed bytes and the configuration this interpreter says, after errors too.", "quantifier": "all programs over the parser's public methods, all slices, addresses, bytes and configurations", "why_tests_cant": "Where a test's buffer lies is up to the allocator, which aligns it; misaligned input, errors, and what is parsed after them meet in too many ways to enumerate.", "anchors": ["src/parse.rs:Parser", "src/parse.rs:parse_slice", "src/parse.rs:parse_slice_direct", "src/parse.rs:parse_metadata", "src/parsebuf.rs:ParseBuf for &[u8]", "src/parsebuf.rs:ParseBufCursor"]}
{"id": "C92", "title": "With the defects corrected, a user's program sees the bytes and nothing else", "statement": "Take the crate with the corrections of C84 and C85 (parse_slice_direct checks the alignment before it advances, halves of a Cow in the right order, MMAP with its trailer, misc bits in the parser of a body, and so on). Write any program against the public parser methods other than parse_slice_direct, choosing the next call by what was read and going on after errors where it likes, lists and records of every type included. Run it over a slice at any address, over the same bytes cut into nonempty pieces at any addresses, over a reader that delivers them in any portions and then ends, or over any other buffer that keeps to its contract: the program returns the same value or the same error each time, never a panic, namely the one that an interpreter over the list of bytes gives in which neither address nor chunk occurs; and the parser is left at the position this interpreter says, after errors too. This is C63 without its exceptions.", "quantifier": "all programs without parse_slice_direct, all lawful buffers, addresses, portions, bytes and configurations", "why_tests_cant": "The corrected methods are not in the crate, so that there is nothing to run; and programs, addresses and portions vary freely.", "anchors": ["src/parse.rs:Parser", "src/parse.rs:parse_slice", "src/parse.rs:parse_slice_direct", "src/parse.rs:parse_metadata", "src/parsebuf.rs:ParseBuf", "src/util/cow.rs:CowSliceExt"]}
{"id": "C93", "title": "With the defects corrected, records mean the same on every machine", "statement": "Take the crate with the corrections of C84, and with an error wherever a 64-bit count from the record does not fit into usize. Compile it for any machine whose usize has 16 to 64 bits and whose u64 has any alignment. Then parse_record accepts the same records on all of them, delivers the same contents and metadata to the visitor, from slices at any address, pieces and readers alike, and leaves the parser at the same position; what the kernel writes is read on each of them. Where one machine reports an error all of them do; the only difference is that a record which is too short for a count it announces may be called invalid by a machine for which the count is too large.", "quantifier": "all machines, all visitors, all lawful buffers with the same contents, all bytes and configurations", "why_tests_cant": "Tests run on one machine, nearly always a 64-bit one; the corrected code is not in the crate.", "anchors": ["src/parse.rs:parse_slice", "src/parse.rs:parse_record", "src/records/read.rs:ReadGroup", "src/records/namespaces.rs:Namespaces", "src/records/sample.rs:Sample"]}
{"id": "C94", "title": "With the defects corrected, exactly the kernel's records are accepted, with their meaning", "statement": "Take the crate with the corrections of C84. Over any buffer that keeps to its contract, in any byte order and configuration, parse_record returns a record and metadata if and only if the input starts with a record the kernel could have written (possibly with bytes that belong to nothing before the trailer) whose contents and metadata these are; the parser then stands behind it, for every visitor. If it does not start with one, there is an error that does not depend on the visitor. The layout is unambiguous: no bytes are two such records of different meaning or length. Two inputs are decoded alike only if their records have the same content, that is, differ at most in reserved words and padding, and records of the same content are decoded alike. With end-of-input told apart from errors inside a record, a loop over a finite input meets no error if and only if the input is a sequence of such records and at most the beginning of another, and then every visitor is given exactly these.", "quantifier": "all lawful buffers, all bytes, byte orders and configurations, all visitors, all records and sequences of records", "why_tests_cant": "Tests decode some records and reject some bytes; that nothing else is accepted, that nothing the kernel writes is rejected and that no bytes can be read in two ways are statements about all inputs and all records. The corrected code is not in the crate.", "anchors": ["src/parse.rs:parse_record", "src/parse.rs:parse_record_with_header", "src/records/mod.rs", "src/records/sample.rs"]}
{"id": "C95", "title": "Through a reader, exactly these bytes are accepted, and this is what they are taken for", "statement": "Take the crate as it is, with its defects. Write down the layout its code expects: that of the kernel, except that a weight is there for WEIGHT only, that a register dump has as many words as its mask has bits whatever its ABI, that SWITCH is an unknown record, that MMAP has no trailer, that nothing empty may stand at the very end of a record (in native byte order for lists of words, always for byte strings), and that the old and new code of a TEXT_POKE are mixed up if one is empty. Then for bytes that come through a reader, in any portions, byte order and configuration, parse_record returns a record and metadata if and only if the input starts with a record of this layout (possibly with bytes that belong to nothing before the trailer) whose contents and metadata these are, and then stands behind it; otherwise there is an error that does not depend on the visitor. No bytes are two such records of different meaning or length. Any number of calls return given values if and only if the input starts with that many such records with these contents. In memory the same holds for every type but SAMPLE, NAMESPACES and TEXT_POKE at any address, and for these except TEXT_POKE at addresses divisible by 8 or in the other byte order (unless a native sample has both a user stack and interrupt registers).", "quantifier": "all buffers that hand out temporary chunks, all scripts of readers, all bytes, byte orders, configurations and visitors, all numbers of calls", "why_tests_cant": "Tests show some accepted and some rejected inputs; an exact description of what is accepted and how it is read has to rule out every other input and every other reading.", "anchors": ["src/parse.rs:parse_record", "src/parse.rs:parse_record_with_header", "src/records/mod.rs", "src/records/sample.rs", "src/records/text_poke.rs"]}
{"id": "C96", "title": "In memory, at any address, exactly these bytes are accepted, and this is what they are taken for", "statement": "Take the crate as it is, with its defects, on one piece of borrowed memory at any address. Write down the layout its code expects there: that of C95, except that a list of words (counters, call chain, branches, registers, namespaces) in the host's byte order whose address is not divisible by 8 is preceded by as many bytes as it is long, which are skipped, and that a TEXT_POKE means what the kernel means by it. Of the address only the remainder modulo 8 matters; within a sample only a user stack changes it, and only for the interrupt registers. Then parse_record returns a record and metadata if and only if the input starts with a record of this layout (possibly with bytes that belong to nothing before the trailer) whose contents and metadata these are; all visitors are then given this same record, and the parser stands behind it; otherwise there is an error that does not depend on the visitor. No bytes are two such records of different meaning or length at one address. Any number of calls return given values if and only if the input starts with that many such records with these contents, each at the address behind the one before. At addresses divisible by 8 and in the other byte order nothing is skipped, and what is taken has the kernel's layout and meaning except for weights and registers without an ABI.", "quantifier": "all buffers that hand out their data as one borrowed chunk, all addresses, bytes, byte orders, configurations and visitors, all numbers of calls", "why_tests_cant": "Test vectors are a few bytes at whatever address the compiler chose; an exact description at every address has to rule out every other input and every other reading, including those of misaligned lists.", "anchors": ["src/parse.rs:parse_record", "src/parse.rs:parse_slice", "src/records/mod.rs", "src/records/sample.rs", "src/records/text_poke.rs"]}
{"id": "C97", "title": "In several pieces of memory, exactly these bytes are accepted, and this is what they are taken for", "statement": "Take the crate as it is, with its defects, on input in any number of non-empty pieces, borrowed at any addresses or temporary, as from a ring buffer that has wrapped around. Write down the layout its code expects there: a list of words in the host's byte order that, at its place, would lie within one borrowed piece at an address not divisible by 8 is preceded by as many bytes as it is long, which are skipped; any other list is read as it stands; a TEXT_POKE whose code lies within one borrowed piece means what the kernel means by it, any other is taken as from a reader (C95). Then parse_record returns a record and metadata if and only if the input starts with a record of this layout (possibly with bytes that belong to nothing before the trailer) whose contents and metadata these are; all visitors are then given this same record, and, whatever they answer, the parser stands behind it with the rest of the pieces ahead; otherwise there is an error that does not depend on the visitor. No pieces start with two such records of different meaning or length. Any number of calls return given values if and only if the pieces start with that many such records with these contents. For a single borrowed piece this is C96, for temporary pieces C95.", "quantifier": "all buffers that hand out non-empty pieces one after the other, all ways to cut the input, all addresses, bytes, byte orders, configurations and visitors, all numbers of calls", "why_tests_cant": "No test of the crate uses a buffer of more than one piece; what is accepted depends on where each of arbitrarily many pieces ends relative to every list of every record, which cannot be enumerated.", "anchors": ["src/parse.rs:parse_record", "src/parse.rs:parse_slice", "src/parse.rs:parse_bytes_direct", "src/parse.rs:split_at", "src/util/cow.rs", "src/parsebuf.rs:ParseBufCursor", "src/records/sample.rs", "src/records/text_poke.rs"]}
{"id": "C98", "title": "Exactly these attrs are accepted, and a recording read with its own attr gives exactly these records", "statement": "Take the crate as it is, with the defect that four bytes too many are read (B5). For every input and every buffer, parse::<perf_event_attr>() does the first of these that applies: with fewer than 8 bytes, the error of the end of the input; with a size that is none of the published ones and not above 136, an InvalidRecord error that names it; with fewer than size + 4 bytes, the error of the end of the input; with a size above 136 and any byte from 136 up to size + 4 that is not zero, the UnsupportedData error; else it returns the attr these bytes are, as far as its version goes, and stands four bytes behind it. So an attr is returned if and only if the input starts with it in the kernel's layout with four more bytes behind it (zero behind a larger structure), and no input starts with two. Reading a recording then, the attr first and as many records as one likes with the ParseConfig made from it, from any pieces of memory or from a reader, gives a certain attr and certain records if and only if the input starts with this attr and the records' bytes are records of the layout of C97 or C95 under this configuration.", "quantifier": "all lawful buffers, all bytes, byte orders and configurations, all pieces of memory and scripts of readers, all numbers of records", "why_tests_cant": "The sizes and contents of attrs are not enumerable, and an exact description has to exclude every other outcome, including which error comes first when several apply.", "anchors": ["src/impls/perf_event_attr.rs", "src/config.rs:From<perf_event_attr>", "src/parse.rs:parse_record"]}
{"id": "C99", "title": "Exactly what a loop over any input returns, call by call, also when records are damaged", "statement": "Take a loop that calls parse_record and goes on after errors, over any input at all. The input is cut into blocks by the sizes its headers give (a block is at least a header long and at most what is left); there are as many calls as blocks, after which everything is consumed. Each call returns a record and metadata if and only if its block, all of it and nothing more, is a record of the layout the code expects, and then with these contents: of the layout of C97 for input in any non-empty pieces of memory, where the pieces ahead at that position count, and of the layout of C95 for a reader that ends for good, where the block alone counts. This determines every result up to which error a failing call reports. So in a recording of which some records are damaged, but not the sizes in their headers, every other record is returned at its place with its contents, whatever is in the damaged ones.", "quantifier": "all inputs, well formed or not, all cuts into pieces and portions, all addresses, byte orders and configurations, all numbers of blocks and all sets of damaged ones", "why_tests_cant": "It describes every call of a loop over arbitrary bytes; the interaction of failing and succeeding calls, and of block boundaries with piece boundaries, has unboundedly many cases.", "anchors": ["src/parse.rs:parse_record", "src/parse.rs:split_at", "src/parsebuf.rs:ParseBufCursor", "src/records/mod.rs"]}
{"id": "C100", "title": "Exactly which error is returned, so that every outcome of every call is known", "statement": "For input in any non-empty pieces at any addresses, and for a reader that ends, each error besides Eof is returned for exactly the bytes that deserve it, the crate taken as it is, and there are no others than these. The size in the header is below 8; the record is all there but shorter than its trailer; a READ comes under a read_format with GROUP, or with an unknown flag; in a sample, all parts before the offending one can be read, and there is a part of counter values under an unknown flag, or so many counters that their words, or the bytes of these, cannot be counted in 64 bits, or so many call chain frames or branches, or a stack of which more is in use than there is; an MMAP2 has a build id longer than 20; a NAMESPACES has too many entries to be counted in bytes (lists are counted in bytes only if they are in the host's byte order). Every visitor is given the same error. Eof is returned if and only if the input starts neither with a record of the layout of C97 nor with one of these. So for any input there is exactly one outcome, a value or an error with its message, and what a call, or a loop that goes on after errors, returns is described completely: a list of outcomes is that of the loop if and only if each one is the outcome for the pieces ahead at its block. Through a reader the outcomes are those of one piece that is not borrowed; this extends to any number of calls on any reader, also one that fails or says end of file and then goes on: a call reports such a failure or end if and only if it comes before the record is complete, and has the outcome for the record otherwise.", "quantifier": "all inputs, all cuts into pieces and portions, all addresses, byte orders, configurations, visitors and numbers of calls", "why_tests_cant": "Which of several complaints comes first depends on the order in which arbitrarily many parts are read, on where lists lie in memory, and on lengths near 2^64; and that nothing else is ever returned is a statement about every input.", "anchors": ["src/parse.rs:parse_record", "src/parse.rs:parse_metadata_with_header", "src/parse.rs:parse_slice", "src/records/sample.rs", "src/records/read.rs", "src/records/mmap.rs", "src/records/namespaces.rs", "src/error.rs"]}
{"id": "C101", "title": "Exactly which of the kernel's records are read from a ring buffer that wraps around", "statement": "Take any recording the kernel can write, in any number of pieces, in the host's byte order each at an address divisible by 8 and a multiple of 8 bytes long, as are the two parts of a mapped ring buffer that has wrapped around; records begin and end anywhere in them, also with a part at the end of the buffer and the rest at its start. Then the i-th call delivers the i-th record with exactly the written contents and metadata if and only if it satisfies the condition of C87 for memory, and, if it is a TEXT_POKE whose code does not lie within one piece, has code on both sides. Delivered or not, the next call reads the next record. So where the buffer ends makes no difference to which records are delivered, compared with the same bytes in one piece of memory, except for a TEXT_POKE that has nothing on one side.", "quantifier": "all recordings of records the kernel can write, all configurations and byte orders, all cuts into pieces at multiples of 8 bytes (anywhere in the other byte order), all addresses", "why_tests_cant": "A ring buffer can end at any word of any record; no test of the crate uses one that has wrapped around, and the one shape of record that is read wrong shows this only if the end falls into its code.", "anchors": ["src/parse.rs:parse_record", "src/parse.rs:split_at", "src/parse.rs:parse_slice_direct", "src/parsebuf.rs:ParseBufCursor", "src/util/cow.rs", "src/records/text_poke.rs"]}
{"id": "C102", "title": "Exactly what parse_metadata returns for any input", "statement": "For any input over any lawful buffer, parse_metadata returns a body, metadata and position exactly if the input starts with a header, a body and the trailer its configuration and type call for whose lengths add up to the header's size; otherwise it returns exactly one of: size below 8, no room for the trailer, or the end the buffer reports (header or record incomplete). Every input has exactly one of these outcomes, and whenever parse_metadata fails parse_record fails in the same way and leaves the parser in the same state.", "quantifier": "every input, buffer, chunking, configuration, way in which the input ends, visitor", "why_tests_cant": "All inputs, and that there is no other outcome.", "anchors": ["src/parse.rs:parse_metadata", "src/parse.rs:parse_metadata_with_header", "src/parse.rs:parse_record"]}
{"id": "C103", "title": "Exactly what parse_record_with_header returns, whatever the header and the input", "statement": "For every header (whether or not it stood in front of the input) and every input, parse_record_with_header returns the value or error that the written-down layouts and complaints (C97, C100) give for an input with that header in front in a piece of its own; a record that is taken is handed to every visitor and leaves the parser size - 8 bytes further with the rest of the pieces, one that is not gives every visitor the same error.", "quantifier": "every header, input, pieces at any addresses, reader, configuration, byte order, visitor", "why_tests_cant": "All headers with all inputs, including headers that do not belong to the input.", "anchors": ["src/parse.rs:parse_record_with_header", "src/parse.rs:parse_record_impl", "src/parse.rs:parse_metadata_with_header"]}
{"id": "C104", "title": "Where the bytes lie matters in two ways only: misaligned borrowed lists in the host's byte order, and torn TEXT_POKE records", "statement": "Two inputs with the same bytes and the same configuration, in whatever pieces, borrowed or temporary, at whatever addresses, in whatever kinds of buffers, give the same results for any number of calls of parse_record, values and errors alike, also for malformed input, provided that (1) in the host's byte order the same stretches of bytes lie in one borrowed piece at an address that is not a multiple of 8, and (2) if there is a TEXT_POKE record, the same stretches lie in one borrowed piece. In particular the pieces of a ring buffer may be moved by multiples of 8, and by any amount if the byte order is not the host's; and without TEXT_POKE and misplaced stretches a ring buffer gives what a BufReader of the same bytes gives.", "quantifier": "every input, pair of ways to lay it out in memory, buffer type, configuration, number of calls", "why_tests_cant": "All layouts in memory of all inputs, including malformed ones.", "anchors": ["src/parse.rs:parse_slice", "src/parse.rs:parse_bytes", "src/util/cow.rs:split_at", "src/records/text_poke.rs"]}
{"id": "C105", "title": "What a program over the public interface sees in pieces of memory is a function of the bytes and of where they lie, also after errors", "statement": "Every program over the public interface of Parser (the primitives, parse_slice and parse_slice_direct, parse_repeated, parse_metadata with any program on the body, the crate's own Parse implementations, parse_record with any visitor's view) that hands on the first error, or goes on after an error of a call for a whole record (parse_record, parse_record_with_header, parse::<Record>, parse_metadata, parse_metadata_with_header), of a call for a list (parse_slice, parse_slice_direct) or after the end of the input in a program of numbers, bytes, headers, NamespaceEntry, BranchEntry, SampleId and lists of them, returns, on input in any number of pieces of memory at any addresses, the value or error given by a written-down function of the bytes and of which stretches lie in one borrowed piece at which address; the bodies of records lie where the input lies. After an error of a whole record the program goes on right behind that record, or where the header ends if its size is below 8, whatever went wrong inside; after a list refused as too long for an address space, where it was; after the end of the input, at the end. Addresses count modulo 8 only: moving the pieces of a ring buffer by multiples of 8 changes nothing for any such program.", "quantifier": "every program of that kind, input, number of pieces, addresses, configuration, byte order", "why_tests_cant": "All user programs and all layouts in memory.", "anchors": ["src/parse.rs:parse_slice", "src/parse.rs:parse_slice_direct", "src/parse.rs:parse_bytes", "src/parse.rs:parse_repeated", "src/parse.rs:parse_metadata", "src/parse.rs:parse_record", "src/parsebuf.rs:ParseBufCursor"]}
{"id": "C106", "title": "Buffers called directly: any order of looking and advancing, by any counts", "statement": "ParseBuf is a public trait whose documentation says of advance only that it advances past count bytes. For any sequence of chunk, advance(n) for any n, and remaining_hint: &[u8] and the buffer behind a record's own parser (from whatever buffer it was split off, over any number of pieces) show a nonempty piece starting at the position that the counts add up to, report Eof exactly at the end, skip over pieces by any count, and panic exactly when advanced past the end; remaining_hint is what is left for &[u8], the size of the whole body for the record's buffer. BufReader is such a buffer over what it reads as long as every count stays within what chunk has shown; otherwise it advances by at most what chunk has shown, drops the rest of the count without notice, and does not advance at all if chunk has not been called. The crate itself never asks for more than it has been shown, in any program against the public interface of Parser over any buffer that keeps the contract: a guard that panics in this case never does.", "quantifier": "every sequence of calls, count, contents, number of pieces, reader; every program and lawful buffer for the last part", "why_tests_cant": "All call sequences and all programs; the crate's own calls never cross a piece, so its tests do not reach most of advance_slow.", "anchors": ["src/parsebuf.rs:ParseBuf::advance", "src/parsebuf.rs:ParseBufCursor::advance_slow", "src/parsebuf.rs:ParseBufCursor::new", "src/parsebuf.rs:BufReader"]}
