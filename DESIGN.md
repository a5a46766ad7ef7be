# Formal model of perf-event-data in Lean 4

Subject: the crate `perf-event-data` 0.1.8 at the pinned commit in `/repo`. The sources were read as text only; nothing
of the crate was compiled or run. Everything below is under `lean/` (a Lake project, Lean 4.33.0, a few Mathlib modules).

## 1. Shape of the development

| layer | where | what |
|---|---|---|
| code model | `Verif/Model/*` | every routine that takes part in parsing, one Lean function per Rust function, each citing file and lines |
| flat semantics | `Verif/Spec/Flat`, `Spec/Record`, `Spec/View` | the same record parsers over one list of bytes, without chunks, cursors, `Cow`, fuel or memory |
| contiguous semantics | `Verif/Spec/Contig` | the same record parsers over one piece of borrowed memory at a given address; unlike the flat semantics it also determines misaligned lists and what is borrowed |
| reader semantics | `Verif/Spec/Piped` | the same record parsers over bytes that arrive in temporary portions: everything is a copy, and nothing is left open |
| programs | `Model/User`, `Spec/User`, `Spec/Drip`, `Spec/Moored` | anything a caller can write against the public interface, and what it sees: over any buffer, through a reader, in memory |
| corrected crate | `Model/Mended*` | the code with the listed defects corrected (not the code in /repo; used by C84, C85, C89, C92, C93 to show that nothing else is wrong) |
| intended meaning | `Spec/Ideal`, `Spec/Sure` | the record parsers as functions of bytes and configuration alone; what the corrected crate is compared to |
| readable records | `Verif/Spec/Readable` | which of the records the kernel writes can be read, by their contents |
| kernel layout | `Verif/Spec/Kernel`, `Spec/KAttr` | encoders written from `perf_event.h` and perf_event_open(2), independent of the parsers |
| proofs | `Verif/Proof/*` | refinement of the flat semantics by the code model, and the other machinery |
| properties | `Verif/Props/*` | the theorems listed in `MANIFEST.json`, each beside a concrete instance |
| replayed tests | `Verif/Check/Vectors` | every test and documentation example of the repository, run on the model |

How Rust is rendered:

* `&mut self` is state passing; the state after an error is kept (`Out.st`), because what a failed call leaves behind is part
  of several properties.
* `Result` is data. A panic (`Fault.panic`) and an endless loop (`Fault.diverge`) are explicit outcomes, so their absence is
  a theorem (C01). Loops run on fuel taken from `ParseBuf.steps`, a bound on iterations that is not part of the Rust trait;
  running out of fuel is `diverge`.
* Requests for memory whose size comes from the input (`Vec::with_capacity`, `to_vec`) are logged (`Out.log`), which is what
  C34 speaks about.
* Chunks carry their kind (temporary or external) and, when external, a memory address, because `parse_slice_direct`
  depends on both.
* Record parsers are generic in the monad (`ParserM M C`), as the Rust ones are generic in the buffer. `M := P β`, `C := Cow`
  is the code over the buffer `β`; `M := Spec`, `C := List` is the flat semantics. A record parser is therefore written once,
  and the flat instance cannot be used to check it; that is what the kernel layout encoders are for.
* Buffers are any type with a `ParseBuf` instance. `Lawful β` is the contract in the documentation of the trait; `&[u8]`,
  `BufReader<R>` over any sequence of `read` results (also failing ones), `ParseBufCursor`, `TrackingParseBuf` and lists of
  pieces are instances. C03 (fast path) and part of C47 hold for every `ParseBuf`, lawful or not; most of the rest assumes lawfulness.
* Configurations, byte orders and hosts are arbitrary: `ParseConfig` holds any flag word and any `Endian` implementation,
  `host` is the byte order of the machine.

## 2. Trusted base

* The Lean 4 kernel. Theorems depend on at most the axioms `propext`, `Classical.choice` and `Quot.sound`. No axiom is
  declared; `sorry`, `admit`, `native_decide` and `bv_decide` are not used. `decide +kernel` is used for concrete
  instances, for the witnesses of negations, and for finite tables checked completely.
* The reading of the Rust code: that `Verif/Model/*` says what the Rust says. It is checked by the replayed tests
  (`Verif/Check/Vectors.lean`) and by reading; each definition cites its lines.
* The parts of `std` that are modelled from their documentation: `slice::split_at`, `align_to`, `Vec`, `Cow`,
  `chunks_exact` and its iterator methods, `BufReader::fill_buf`/`consume`, `str::from_utf8`, `u8::escape_ascii`,
  `uN::from_{le,be,ne}_bytes`.
* The constants of `perf-event-open-sys2` (not in the repository), taken from the kernel header.
* The kernel layout encoders: they are the reading of `perf_event.h` the round-trip properties refer to.
* `/verif/seeded/LOG.jsonl` records wrong programs tried against the theorems.

### Simplifications

* `usize` is 64 bits (except in `Model/Narrow`, C83, and `Model/MendedNarrow`, C93). `usize` arithmetic is on `Nat`; the places where the code checks for overflow keep the check, and
  elsewhere the values are bounded by sizes that fit (record sizes are below 2^16, lengths of existing slices below 2^63).
* `Vec::with_capacity(n)` is taken to give exactly capacity `n` (see the remark on `parse_bytes` in section 5).
* Growth of a `Vec` by `push`/`extend` is not in `Out.log` of the plain model `P`. `Model/Heap` (C80) logs it too, under the growth policy of
  `RawVec` as read from std (doubling, at least the need, at least 8 bytes or 4 elements); that policy is trusted, as are the sizes of
  `Cow<[u8]>` (24 bytes, 64-bit targets). The allocator may round up; that is not counted.
* The boxed source of an error is represented by the text it displays.
* Enumerations made with `c_enum!` and flag types made with `bitflags!` are their numbers.
* The `option_struct!` storage is modelled separately (`Model/OptionStruct`, `Model/Stored`, C42: the argument lists of `new` and the offsets); elsewhere `Sample` and `SampleId` are
  structures of `Option` fields.
* `{:?}` output of every record, `ReadValue`, `ReadGroup`, `GroupEntry`, `SampleId` and `ParseConfig` is modelled
  (`Model/Debug`); the text of `bitflags!`/`c_enum!` values and `perf_branch_entry`, and `char::escape_debug`, are
  parameters. `{:#?}`, `{:x?}` and `{:X?}` are modelled; width, precision, fill and sign flags are not.
* Borrowed data carries no address once it is inside a record: C47 speaks about `Cow::Borrowed` and contents.

### Not modelled

* The crate `arbitrary` (its integers are modelled from their source, C81), `used_in_docs!`, `Clone`/`Copy`/`Hash` derives (the clone of the optional-field storage is modelled).
* Memory safety of the `unsafe` blocks beyond: no read of an uninitialised option cell (C42), the bounds and initialisation of the
  writes in `parse_to_slice`, `parse_bytes` and `parse_array_slow` and the use of `align_to` (C76), valid UTF-8 (C44). Lifetimes and
  aliasing (the compiler's part) and the validity of external chunks (the promise of `unsafe impl ParseBuf`) are not modelled.
* Time.

## 3. Properties

| id | status | property | modelled | proof | theorems | note |
|---|---|---|---|---|---|---|
| C01 | proved | Parsing a record never panics or hangs | whole record parser incl. panics and loops | `Safe` triples | `c01_record_with_header`, `c01_record`, `c01_parse_record_with_header`, `c01_parse_record`, `c01_slice`, `c01_reader`, `c01_pieces` | Every lawful buffer, content, config and header; any visitor whose own methods return. |
| C02 | partial | Result does not depend on how the input is chunked | all buffers | refinement from both sides; witnesses | `c02_chunking_partial`, `c02_plain_partial`, `c02_foreign_partial`, `c02_aligned_partial`, `c02_text_poke_partial`, `c02_buffers_partial`, `c02_align_false`, `c02_poke_false` | False of the code for a misaligned native list (c02_align_false) and for TEXT_POKE without old code (c02_poke_false); proved otherwise for every pair of lawful buffers. |
| C03 | proved | The contiguous fast path is unobservable | `parse_record_with_header`, fast and general path | simulation of slice by cursor, no lawfulness | `c03_fast_path`, `c03_taken` | For every ParseBuf, lawful or not: result and remaining buffer of the fast path are those of the general path. |
| C04 | proved | A successfully parsed record consumes exactly header.size bytes | framing | refinement | `c04_record` |  |
| C05 | proved | A malformed body does not desynchronise the stream | framing | state of the outer parser | `c05_resync` |  |
| C06 | proved | A truncated record is an end-of-input error, never a record | framing | refinement; prefix relation | `c06_truncated`, `c06_slice_prefix` |  |
| C07 | proved | A header size below 8 is rejected | framing | direct | `c07_small_size` |  |
| C08 | proved | A record too small for its sample_id trailer is rejected | framing, `estimate_len` | refinement | `c08_small_trailer` |  |
| C09 | proved | A record's result depends only on its own bytes | framing, cursor | two-run relation on the rest of the input | `c09_slice`, `c09_reader`, `c09_reader_shared`, `c09_pieces`, `c09_incomplete` | For slices, readers and pieces: what follows a complete record does not matter. |
| C10 | partial | A stream of records decodes in order, completely | iterated `parse_record` | induction over the records; the version without the hypothesis that all records parse is `c10_each_partial` | `c10_each_partial`, `c10_stream_partial`, `c10_end`, `c10_switch_false`, `c10_frames` | Proved for every sequence of well-formed records other than SWITCH, and framing for any records; SWITCH with an empty body fails (c10_switch_false). |
| C11 | proved | Fixed-layout records round-trip | fixed-size records | `Reads` against the encoder | `c11_fixed` |  |
| C12 | proved | Records with a name round-trip | records ending in a name | `Reads` | `c12_mmap`, `c12_comm`, `c12_cgroup`, `c12_ksymbol` |  |
| C13 | proved | MMAP2 decodes both detail layouts | MMAP2, accessors | `Reads`; cases | `c13_mmap2`, `c13_inode_accessors`, `c13_build_id_accessors`, `c13_build_id_too_long`, `c13_build_id_returns`, `c13_record_build_id_returns` |  |
| C14 | partial | NAMESPACES decodes and its accessors pick the right entry | NAMESPACES, accessors | `Reads`; witness | `c14_misaligned_native`, `c14_empty_native`, `c14_uts_record_false`, `c14_namespaces_partial`, `c14_empty_native_false`, `c14_accessors_partial`, `c14_uts_is_user`, `c14_uts_false` | False of the code: uts() returns the user namespace (c14_uts_false), and an empty native list at the end of the record is Eof, as is every list at a misaligned address (c14_misaligned_native). The rest is proved. |
| C15 | partial | TEXT_POKE splits old and new bytes | TEXT_POKE | `Reads`; witness; in memory without exceptions (`c15_text_poke_memory`), from a reader exactly (`c15_reader_exact`) | `c15_text_poke_memory`, `c15_reader_exact`, `c15_text_poke_partial`, `c15_owned_false`, `c15_borrowed_example` | False of the code for owned data when a part is empty (c15_owned_false); proved when both parts are non-empty. |
| C16 | proved | READ decodes exactly the fields read_format asks for | READ | `Reads` | `c16_read`, `c16_read_value` |  |
| C17 | partial | SAMPLE round-trips for every sample_type | SAMPLE | `Reads`, part by part | `c17_sample_partial` | Proved for every flag set under KSample.Ok, which excludes the shapes refuted in C48, C49 and C50. |
| C18 | proved | A sample field is present iff it was requested | SAMPLE | `Post` triple on the flat parser | `c18_present`, `c18_record` |  |
| C19 | proved | Raw sample data is delimited and padded correctly | raw data, `parse_padded` | `Reads` | `c19_raw`, `c19_sample` |  |
| C20 | proved | User stack is cut to dyn_size | user stack | `Reads` | `c20_stack`, `c20_too_large`, `c20_zero`, `c20_sample` |  |
| C21 | proved | id() prefers ID over IDENTIFIER | `id()` | `Reads` | `c21_sample`, `c22_trailer` |  |
| C22 | proved | The sample_id trailer length estimate is exact | `SampleId`, `estimate_len` | `Reads`; bit counting | `c22_from_sample`, `c22_from_sample_fields`, `c22_trailer`, `c22_estimate`, `c22_estimate_len`, `c22_off` |  |
| C23 | partial | Group reads return every counter | `ReadGroup`, its methods | `Reads`; induction over counters; empty values at the end for all inputs | `c23_misaligned_group`, `c23_empty_at_end`, `c23_group_partial`, `c23_sample_values_partial`, `c23_misaligned_false`, `c23_empty_false` | False of the code for a misaligned native list (c23_misaligned_false) and for an empty native list at the end of the record (c23_empty_false); proved otherwise. |
| C24 | proved | Group iteration is a faithful double-ended iterator | `GroupIter` over `ChunksExact` | invariant over any sequence of calls | `c24_iterator`, `c24_at_most_once` |  |
| C25 | proved | Single read and group read convert losslessly | conversions | algebra | `c25_to_group`, `c25_back`, `c25_try_from` |  |
| C26 | proved | Unsupported read formats are refused, not misparsed | `read_format` checks | direct | `c26_unknown_bits`, `c26_group`, `c26_value_group`, `c26_records` |  |
| C27 | proved | ParseConfig reports what the attr said | `ConfigFlags` | bit-level, all words | `c27_attr`, `c27_packed`, `c27_with_endian`, `c27_default`, `c27_spare_bits` |  |
| C28 | proved | Record misc bits never disturb the rest of the config | `with_misc`, parser config | bit-level; `Inv` | `c28_with_misc`, `c28_parser_config`, `c28_record` |  |
| C29 | proved | Endianness decoding is correct and is_native is truthful | `endian.rs` | induction over bytes | `c29_decodes`, `c29_is_native` |  |
| C30 | partial | Byte order of the source does not change the decoded value | whole parser, both orders | round trip in both orders | `c30_byte_order_partial` | Same exclusions as the round-trip theorems it is built from. |
| C31 | proved | parse_bytes returns exactly the next n bytes | `parse_bytes` | refinement | `c31_bytes`, `c31_eof` |  |
| C32 | proved | parse_rest and parse_rest_trim_nul | `parse_rest`, trim | refinement | `c32_rest`, `c32_rest_end`, `c32_trim` |  |
| C33 | partial | parse_slice returns the same elements as element-wise parsing | `parse_slice` | refinement; witness; for misaligned native data the exact behaviour (`c33_misaligned_skips`, `c33_misaligned_words`: the list asked for is skipped and the one after it returned) | `c33_misaligned_skips`, `c33_misaligned_words`, `c33_slice_partial`, `c33_misaligned_false` | False of the code for a misaligned native slice (c33_misaligned_false); proved when aligned, non-native or copied. |
| C34 | proved | Preallocation is bounded by the input | memory log | `Safe` triple | `c34_bounded_allocation` |  |
| C35 | partial | remaining_hint is accurate | `remaining_hint` | witness; direct; the hint of a cursor never changes | `c35_cursor_constant_false`, `c35_cursor_false`, `c35_partial`, `c35_cursor_partial` | False of the code for ParseBufCursor (c35_cursor_false); proved for the other buffers and for the cursor before any advance. |
| C36 | partial | A failed parse leaves the parser unmodified | state after failure | witness; `Post`; every failure at the end modifies the parser (`c36_eof_false`) | `c36_eof_false`, `c36_false`, `c36_refused_false`, `c36_partial`, `c36_u8_partial` | False of the code: a refused parse has moved the parser (c36_false, c36_refused_false); what is left in place is proved. |
| C37 | partial | The right visitor method is called, once | `Visitor`, dispatch | cases on the type code; the empty unknown record for all inputs | `c37_empty_unknown`, `c37_visit`, `c37_type`, `c37_metadata`, `c37_unknown_partial`, `c37_empty_false` | Proved in full except that an unknown record with an empty body is Eof instead of visit_unknown (c37_empty_false). |
| C38 | partial | SWITCH records are delivered as SWITCH | SWITCH | `Inv`; witness; every SWITCH body fails, for all inputs | `c38_every_switch_false`, `c38_never_false`, `c38_false`, `c38_partial` | False of the code for every input (c38_never_false, c38_false). |
| C39 | partial | perf_event_attr decodes every kernel version's layout | `perf_event_attr` | `Reads`; witness | `c39_published_partial`, `c39_larger_partial`, `c39_exact_false` | False of the code for every structure not followed by 4 more bytes (c39_exact_false); proved when they follow (zero ones for sizes above 136). |
| C40 | partial | perf_event_attr rejects sizes and fields it does not know | `perf_event_attr` | direct; witness | `c40_size`, `c40_unknown_partial`, `c40_exact_false`, `c40_contaminated_false` | The size check is proved in full; the check of unknown bytes needs 4 more bytes after the structure (c40_exact_false) and includes them (c40_contaminated_false). |
| C41 | partial | Cow split_at and truncate behave as on slices | `CowSliceExt` | direct; witness | `c41_split_partial`, `c41_owned_false`, `c41_kept`, `c41_truncate` | False of the code for owned data split at either end (c41_owned_false); proved for borrowed data, interior splits and truncate. |
| C42 | proved | Optional-field storage never exposes uninitialised memory | `option_struct!`, any number of fields | bit-level | `c42_sample`, `c42_sample_drop`, `c42_sample_id`, `c42_new`, `c42_default` |  |
| C43 | partial | Build ids print as hexadecimal | `HexStr` | direct; witness | `c43_hex_partial`, `c43_false`, `c43_injective` | False of the code: low nibble first and wrong letters (c43_false); c43_hex_partial gives the exact bytes printed correctly. |
| C44 | proved | Names print completely, once, for any bytes | `ByteStr`, UTF-8 validation | induction | `c44_name` | The escape_debug tables of the standard library are a parameter. |
| C45 | partial | Error kinds are honest | error kinds | `Safe`/`Post` triples | `c45_error_kinds`, `c45_external`, `c45_eof_partial`, `c45_eof_false` | False of the code for Eof: a complete record that is too short for its type gives Eof with input left (c45_eof_false); c45_eof_partial says exactly when Eof appears. The other kinds are proved. |
| C46 | partial | Errors convert and display consistently | `ParseError` | direct | `c46_io`, `c46_other`, `c46_display_partial`, `c46_display_false` | The conversion is proved; the displayed text has no separator and no description for External (c46_display_false). |
| C47 | proved | Borrowed input is not copied; temporary input is never borrowed | `Cow` variants | `Keeps` invariant | `c47_borrowed`, `c47_borrowed_record`, `c47_external`, `c47_temporary`, `c47_reader` | Any buffer for the copied half; one slice for the borrowed half. c47_borrowed compares contents, not addresses. |
| C48 | partial | Zero-length payloads at the end of a record are accepted | empty payloads | refinement; witnesses; exact at the end of the input for all inputs | `c48_list_at_end`, `c48_area_at_end`, `c48_registers_at_end`, `c48_empty_partial`, `c48_callchain_false`, `c48_lbr_false`, `c48_regs_false`, `c48_stack_false`, `c48_aux_false` | False of the code for a native source (five witnesses); proved for non-native sources. |
| C49 | partial | Register dumps match the kernel's layout | registers | `Reads`; witness; any ABI value | `c49_any_abi`, `c49_registers_partial`, `c49_abi_none_false`, `c49_sample_partial` | False of the code for abi NONE (witness); proved otherwise. |
| C50 | partial | Every requested sample field the kernel writes is consumed | SAMPLE | `Reads`; witness; `c50_weight_struct_ignored` (from C66) says what the code does with the bit on every input | `c50_consumed_partial`, `c50_weight_struct_false`, `c50_weight_struct_ignored` | False of the code for WEIGHT_STRUCT (witness); proved for the others. |
| C51 | proved | Branch entry accessors decode the kernel bit-field | `BranchEntry` | bit-level, both hosts | `c51_entry`, `c51_sample` |  |
| C52 | proved | Data source accessors decode the kernel bit-field | `DataSource` | bit-level, both hosts | `c52_fields`, `c52_all`, `c52_sample` |  |
| C53 | proved | Flag words keep unknown bits and sub-fields decode | flag words | bit-level | `c53_subfields`, `c53_aux`, `c53_ksymbol`, `c53_txn` |  |
| C54 | proved | parse_metadata exposes exactly the record's bytes | `parse_metadata` | refinement | `c54_metadata`, `c54_use` |  |
| C55 | proved | Sub-parsers tolerate empty chunks | empty chunks | refinement for patchy buffers | `c55_split`, `c55_record`, `c55_pieces`, `c55_stalled` | Any buffer with a bound on the number of chunks left; c55_stalled shows the bound is needed. |
| C56 | proved | into_owned preserves contents | `into_owned` | direct | `c56_owned`, `c56_accessors`, `c56_mmap` |  |
| C57 | proved | I/O errors of the underlying reader surface unchanged | `BufReader` with failing reads | refinement, error as stream end | `c57_after`, `c57_error`, `c57_converted` | Both halves: an I/O error inside the record surfaces, one after it does not matter. |
| C58 | partial | MMAP records with a sample_id trailer | MMAP | `Reads`; witness | `c58_contaminated_false`, `c58_partial`, `c58_false` | False of the code whenever a trailer is written (c58_contaminated_false); proved when none is. |
| C59 | partial | Bit fields decode regardless of source byte order | bit fields, both orders | bit-level; witness | `c59_branch_false`, `c59_sample_id_all_false`, `c59_partial`, `c59_foreign_branch_false`, `c59_foreign_attr_false` | False of the code for branch entries and for the flag bits of an attr of the other byte order (c59_foreign_branch_false, c59_foreign_attr_false: for all inputs); proved for data_src and native sources. |
| C60 | proved | Addresses print as unambiguous hexadecimal | `HexAddr` and the integer formatting of the standard library | digit-level | `c60_denotes`, `c60_injective`, `c60_width` |  |
| C61 | proved | Debug output shows exactly what is there and never panics | all `Debug` implementations of records (Model/Debug); of `Sample` and `SampleId` also over the flag word and cells (`StoredSample.debugFields`) | per implementation; with C18, C13, C24, C42, C44. `c61_stored_all`: over the stored form the same fields, no uninitialised cell read | `c61_option_struct`, `c61_default`, `c61_sample_names`, `c61_sample`, `c61_sample_values`, `c61_sample_id`, `c61_read_value`, `c61_group_entry`, `c61_read_group`, `c61_prints`, `c61_stored`, `c61_stored_id`, `c61_stored_all` | Text of bitflags!/c_enum! values, of perf_branch_entry and of escape_debug are parameters; {:#?}, {:x?} and {:X?} included. |
| C62 | partial | Nothing is accepted that the kernel could not have written | The same parsers as for the round trips (C10 to C17); the kernel layouts are the encoders of Spec/Kernel.lean, with extra bytes between body and trailer. | A Hoare-style relation Sound: whatever a parser of the flat semantics consumes is the encoding of what it returns; proved for each primitive, each record and the trailer, then carried to the code by the refinement. Inversion of the byte order conversions (enc_surj) and of NUL trimming (trimNul_inv). Counterexamples for WEIGHT_STRUCT and registers with ABI NONE. | `c62_visit_partial`, `c62_record_partial`, `c62_plain_partial`, `c62_aligned_partial`, `c62_text_poke_partial`, `c62_weight_struct_false`, `c62_abi_none_false` | Proved for all record types where the outcome does not depend on alignment (C02), SAMPLE without WEIGHT_STRUCT (B8) and with no registers claimed for ABI NONE (B10); both exceptions are shown to be necessary. Without exceptions, and as an equivalence, for the corrected crate in C94. |
| C63 | partial | Parsers written against the public interface never panic and see only the bytes | Programs as a type (Model/User.lean): a tree of method calls with continuations, interpreted over every buffer by the modelled methods. Cows are seen through their contents. A program sees the record and the metadata its visitor gets; c63_visitor shows that any visitor can be written that way. | Panic freedom by induction over the program with an invariant that survives errors (Proof/User.lean). Two flat readings of programs (Spec/User.lean), one for any lawful buffer, one that also says where an error leaves the parser (for every record parser, Proof/FlowRec.lean); both refine and depend on the bytes only (Proof/User.lean, Proof/FlowProg.lean). In a foreign byte order the second reading is never stuck unless a TEXT_POKE is met (Proof/Steady.lean), so that `c63_foreign` has lists and records too; `c63_foreign_false` shows that TEXT_POKE has to be excluded. | `c63_foreign`, `c63_foreign_reader`, `c63_foreign_pieces`, `c63_foreign_case`, `c63_foreign_false`, `c63_visitor`, `c63_no_panic`, `c63_slice`, `c63_reader`, `c63_pieces`, `c63_chunking_partial`, `c63_plain`, `c63_recover_partial`, `c63_recover`, `c63_slice_pieces`, `c63_slice_reader`, `c63_after_end`, `c63_words_false` | Panic freedom is proved for all programs. Independence of the chunks is proved without condition for programs that do not call parse_slice, parse_slice_direct or parsers of things that contain lists of words (ReadGroup, SAMPLE, NAMESPACES, TEXT_POKE, a Record of any type); with them, for runs that do not depend on alignment (B2; c63_words_false is the counterexample) and do not split a list at its end (B7). Readers may revive after their end, so for BufReader the program must stop at the first error and not read to the end. In a foreign byte order only TEXT_POKE has to be excluded, and a BufReader may take part if it ends for good (c63_foreign, c63_foreign_reader). Between readers that end for good none of these conditions is needed (C90); for memory alone the exact answer is in C91. With B2 and B7 corrected the statement holds without exceptions (C92). |
| C64 | proved | The total memory a record can claim is bounded by its size | the log of `Vec::with_capacity` and `to_vec` requests kept by `P`. Not in the log: the two requests of fixed size (two chunk slots per region, three words per single read), growth of a `Vec` by `push`/`extend` (the list of chunks in `ParseBufCursor`, `parse_rest` over several chunks), the pieces made by `CowSliceExt::split_at`, the up to three words of `ReadGroup::from(ReadValue)` | a debt calculus (`Owes`): a request is a debt, consumption pays it, a failure leaves at most the extent of the region unpaid; proved for every primitive and every record body, for any buffer of known extent, hence for the cursor and slice the crate itself splits off; `Costs`/`Pays` for the splitting from an arbitrary outer buffer; `c64_input`: a loop over a whole input | `c64_input`, `c64_slice_input`, `c64_with_header`, `c64_record`, `c64_absolute`, `c64_metadata`, `c64_borrowed`, `c64_slice`, `c64_pieces`, `c64_consumed`, `c64_stream` |  |
| C65 | proved | The address of the input matters modulo 8, and only in the host's byte order | everything below `parse_record`, and `Prog` for user code; an address is a number carried by borrowed chunks, looked at only by the alignment test of `parse_slice_direct` | a relation between runs (`Twin`) on buffers that show the same chunks at addresses equal modulo 8 (or at any addresses, for foreign data), closed under every primitive, hence holding for all record bodies, region splitting and user programs; no refinement and no exclusions; `c65_address_matters` shows the condition is needed | `c65_slice`, `c65_slice_foreign`, `c65_pieces`, `c65_pieces_foreign`, `c65_program`, `c65_program_pieces`, `c65_address_matters` |  |
| C66 | proved | A record depends only on the parts of the configuration that describe it | everything below `parse_record_with_header`; the relation `Agree` is Spec/Agree | `Twin` with a relation between the configurations instead of equality; the configuration of a parser never changes, so one pair is looked at at a time (`Twin.focus`); witnesses by `decide` that every listed part is needed | `c66_with_header`, `c66_record`, `c66_metadata`, `c66_order_only`, `c66_mmap`, `c66_misc`, `c66_native`, `c66_sample_bits_matter`, `c66_sample_parts_matter`, `c66_rest_matters`, `c66_native_matters` |  |
| C67 | proved | Where a call leaves the parser, also when it fails | `parse_record` and all it calls; position = `recordEnd` | a relation `UsesUp` between a run and the flat input, closed under the combinators: an `Eof` error means the input was consumed; framing by the run lemmas | `c67_primitives`, `c67_body`, `c67_record`, `c67_cut_off` |  |
| C68 | proved | The text {:?} prints, character by character | all `Debug` implementations of the crate for `{:?}`, `{:#?}`, `{:x?}`, `{:X?}` (the flags of `Formatter` are a class argument of every `fmt`); `PadAdapter` of the standard library. The expected text is Spec/Show, written without the formatting helpers of the model, as a `Layout` | one lemma per helper (structure, list, tuple, number; `Laid`), then composition; `c68_unique`: the layout is a function of the record | `c68_read_value`, `c68_group_entry`, `c68_read_group`, `c68_sample`, `c68_sample_id`, `c68_metadata`, `c68_config`, `c68_record`, `c68_unique`, `c68_numbers` |  |
| C69 | partial | A recording decodes with the configuration made from its own attr | attr parser, `ParseConfig::from`, `parse_record_with_visitor` in sequence; the layout of records is stated for the fields of the attr (Spec/Session) | the configuration made from an attr describes the same layouts as the attr (`c69_config`), then the round trip of every record | `c69_config`, `c69_records_partial`, `c69_recording_partial`, `c69_same_order`, `c69_false` | Not covered: SWITCH records (B3), the shapes of C48-C50, native data that is not aligned (B2), sample_id_all of an attr of the other byte order (B14) and attrs not followed by 4 more bytes (B5). c69_false is a counterexample. |
| C70 | proved | What parsing one piece of borrowed memory returns, in every case | `parse_record_with_visitor` and everything below it; the expected outcome is Spec/Contig, a parser over an address and bytes with no error state left open | `Meets`: each operation of the code on one borrowed chunk does what the contiguous one does, then one line per record type; the misaligned cases by computing the contiguous parser on given bytes | `c70_slice`, `c70_one_piece`, `c70_address`, `c70_kernel_record`, `c70_callchain_misaligned`, `c70_branches_misaligned`, `c70_registers_misaligned` | The misaligned lists are stated for their parsers (call chain, branches, registers, group) and, for NAMESPACES, for whole records (c14_misaligned_native). |
| C71 | proved | The number of calls on the buffer is linear in the size of the record | `Counted`, a ParseBuf that forwards every call and counts `chunk` and `advance` (Spec/Work); a call of `advance` that panics is not counted. The loops inside the crate's own buffers are not counted. | A calculus `Works r s k` (at most r calls per byte, k more, s more on failure), with a rule for each primitive, each record body and the framing (Proof/Work); `Strips`: the counting buffer gives the same run. One-byte reads show more than two calls per byte; a buffer that shows empty chunks has no bound. `c71_input`: a loop over a whole input. | `c71_stream`, `c71_input`, `c71_slice_input`, `c71_counting`, `c71_calls`, `c71_size`, `c71_absolute`, `c71_std`, `c71_body`, `c71_extent`, `c71_region`, `c71_trailer` | Promptness (no empty chunks) is proved for slices, BufReader and the crate's own cursors. |
| C72 | partial | A record read in two steps is the record | `P.metadata`, `P.metadataWithHeader`, `P.onChild` on the returned parser, the record parsers, the `From` conversions | `Way` lists type, parser and conversion; `Twin` between the returned parser and the one `parse_record_impl` makes of it, under the relation of configurations that agree on what the body looks at; false for two types (B15); `c72_configured`: without any condition, the two steps are the one step for the header whose `misc` is that of the configuration | `c72_ways`, `c72_with_header_partial`, `c72_by_hand_partial`, `c72_switch_false`, `c72_mmap2_false`, `c72_configured` | False for MMAP2 with MMAP_BUILD_ID and for SWITCH_CPU_WIDE with SWITCH_OUT (B15): the parser returned by parse_metadata does not carry the record's misc bits. c72_switch_false shows for all such SWITCH_CPU_WIDE records that the two steps give In where parse_record gives Out; c72_mmap2_false is a witness. The partial theorems cover every other type, and these two when the bit agrees. |
| C73 | partial | A loop over a whole input ends, misses nothing and reads nothing twice | `parse_record` in a loop (`visitMany`, `untilEof`), `TrackingParseBuf`; the division is specified by `cut` on the bytes alone. | `Shifts` (adding to the count commutes with every parser, by `Closed`), C67 for the position after each call, C09 and C70 for the block alone; induction over the blocks. | `c73_blocks`, `c73_fresh`, `c73_fresh_program`, `c73_position`, `c73_end`, `c73_chunking_partial`, `c73_slice`, `c73_while_ends`, `c73_while_partial`, `c73_while_false`, `c73_switch_false` | False of the code for loops that stop at Eof: a record that is too short, or a SWITCH record, ends them early (c73_while_false, c73_switch_false). c73_chunking_partial has the exclusions of C02. Everything else is proved for all inputs. |
| C74 | partial | The custom sample type of the documentation decodes what Sample decodes | the user's `Parse` implementation as a program over the public interface (`docSampleParse`, `docMain`, Props/Custom); `parseSample`; the kernel's layout | `c74_kernel` by `Reads` over the region `parse_metadata` returns; `c74_agree_partial` by comparing `parse_slice` with `parse_repeated` in the flat semantics, over any bytes, including the error; B2 is the exception (`c74_misaligned_false`) | `c74_kernel`, `c74_agree_partial`, `c74_misaligned_false` | Agreement with Sample fails for borrowed data at addresses that are not multiples of 8 in the host byte order (B2), where Sample is wrong and the custom type right; and for lists of 2^64 bytes or more the two errors differ. |
| C75 | partial | Endian::is_native affects copying only | `parse_record` under a configuration and under the same with `isNative := false` (`ParseConfig.plain`); any conversion functions | records without lists from C66; for NAMESPACES and SAMPLE a relation between flat runs (`Follows`) that says what each exception leads to, closed under sequencing because every later part of a sample either is absent or needs data; witnesses of the exceptions by `decide` | `c75_endians`, `c75_no_lists`, `c75_with_header_partial`, `c75_record_partial`, `c75_accepted_partial`, `c75_reader_partial`, `c75_slice_partial`, `c75_false`, `c75_overlong_false` | False of the code in three ways, each with a witness: an empty list at the end of the record is Eof with is_native (B9), a list at a misaligned address is lost with is_native (B2), and a list of 2^64 bytes or more is a differently worded error. The theorems say that nothing else differs; for readers there is no condition on addresses. |
| C76 | proved | The unsafe code is sound, and a buffer that breaks the rules does no damage | Model/Raw: the unsafe functions once more, with memory cells that may be uninitialised, bounds of writes, the capacity of the vector and `align_to`; `none` is undefined behaviour. Buffers are arbitrary instances of the class, without `Lawful` | The explicit versions are equal to the functions of the model (monad laws, induction on the loop); `split_at` yields nonempty pieces of the right total from any buffer, and running the record parser on the copy again gives the same; absence of panic by a `Kept` predicate over all parsers, with the lawful results on the copy | `c76_to_slice`, `c76_bytes`, `c76_bytes_capacity`, `c76_array`, `c76_align_to`, `c76_slice_direct`, `c76_lengths`, `c76_capacity_false`, `c76_record`, `c76_slice`, `c76_memory`, `c76_no_panic` | `c76_capacity_false` shows that consumption (not safety) relies on `Vec::with_capacity` being exact. A buffer that never stops showing empty chunks makes the loops endless (`diverge`), which is not excluded. That the bytes of an external chunk stay valid for their lifetime is the obligation of `unsafe impl ParseBuf` and is not modelled. |
| C77 | partial | Two records that decode alike are alike | `Spec/Content`: `blank` replaces exactly the listed parts of the kernel's record by fixed values | From C62 each input is the layout of a kernel record with the value returned; the value determines the layout of the blanked record part by part (`KSample.enc_value`, `KBody.enc_value`, `KTrailer.enc_value`), and does not change under `blank` (`c77_blank`) | `c77_blank`, `c77_blank_complete`, `c77_content_partial`, `c77_exact` | `_partial` inherits the exclusions of C62: records whose outcome depends on alignment or on the variant of a `Cow` (B2, B7), WEIGHT_STRUCT (B8), register dumps with ABI NONE (B10). `c77_exact` needs none of them for the twelve fixed types. Without exceptions for the corrected crate in C94. |
| C78 | proved | {:#?} prints what {:?} prints, over several lines | Model/Debug with `Formatter.alternate`; `padChars` is `PadAdapter` with its flag; Spec/Show gives a `Layout` from depth to text with explicit indentation | `padChars_comma`: the adapter adds one level; `Rendered` carries the text, the step from one depth to the next and the absence of line breaks through all helpers | `c78_record` |  |
| C79 | proved | No program over the parser makes it reserve much more than the input is worth | the programs of C63 and the log of requests of C64 (with the omissions listed there) | `Modest I B`: an invariant of states kept through errors and a bound on every request, for any buffer (`Fits`); all record parsers through `Kept`; the regions the crate splits off keep the bound by their extent (`Costs`, `Extent`), those of perf_event_attr by the size of their chunks; induction over the program | `c79_program`, `c79_slice`, `c79_reader`, `c79_pieces` |  |
| C80 | proved | Total allocation of a record, counting every growing vector | `Model/Heap`: the same operations with a log that also lists growth by `push`/`extend` (policy of `RawVec`: the larger of twice the capacity and the need, at least 8 bytes or 4 elements), the two chunk slots of each region, the clone in `to_mut`, and the pieces of `CowSliceExt::split_at`; instance `ParserM (Heap β) Cow`, so every record parser is reused unchanged. Not in the log: the one-off requests of fixed size (three words of `ReadGroup::from(ReadValue)`, `Box<Sample>`, error values) | `Kin`: a relation between the two readings closed under the parsers; with `Erases` it gives the same results and a sublist of requests, with `Grows` the debt calculus of C64 with amortised doubling, with `Snug` equality of runs on one piece of borrowed memory | `c80_same`, `c80_with_header`, `c80_record`, `c80_absolute`, `c80_consumed`, `c80_stream`, `c80_slice` |  |
| C81 | proved | The fuzz targets never find anything | `Model/Fuzz`: the fuzz targets, the functions of the regression tests, the `Arbitrary` implementations (the crate `arbitrary` from its source: integers little endian from the front, zeros for missing bytes), a `perf_event_attr` read from memory; requests as in C80 | C01 for the outcome and C80 for the requests, for all data; `c81_reach` and `c81_attr_reach`: the encodings of any configuration or attr reach it | `c81_record`, `c81_basic`, `c81_config`, `c81_attr`, `c81_reach`, `c81_attr_reach` |  |
| C82 | proved | Every error of a record names its cause | the record parsers over an arbitrary buffer (`P β`, no law); `Source I E`: the states and errors of a buffer; `Grounds`: the nine reasons in plain bit numbers | `Says I cfg E m` (Proof/Says): errors of `m` under `cfg` are in `E`, by a walk through every primitive and record parser; `c82_with_header`, `c82_metadata`, `c82_record`, `c82_any`, `c82_slice`, `c82_reader`; an example for each reason | `c82_with_header`, `c82_metadata`, `c82_record`, `c82_any`, `c82_slice`, `c82_reader` |  |
| C83 | partial | The machine's word size does not change what is parsed | `Model/Narrow`: the two record types that convert counts with `as usize` (SAMPLE, NAMESPACES) over a `Platform` (bits of `usize`, alignment of `u64`); all else is the main model | `Near w B m m'` (Proof/Narrow): equal outcomes, or `m` fails and `m'` fails or a too large number is in the input; `c83_record_partial`, `c83_same_partial`, `c83_slice_partial`, `c83_reader_partial`; `c83_returns` and `c83_framing` for every machine; `c83_wide`: 64 bits gives the main model; `c83_false`, `c83_x86_false`: witnesses | `c83_wide`, `c83_record_partial`, `c83_same_partial`, `c83_slice_partial`, `c83_reader_partial`, `c83_returns`, `c83_framing`, `c83_false`, `c83_x86_false` | False of the code on 32-bit machines: counts are truncated by `as usize` (c83_false), and x86 aligns u64 to 4 (c83_x86_false); proved for everything the 64-bit build returns, and framing, memory and termination for every machine. With B2 and B17 corrected the statement holds on every machine (C93). |
| C84 | proved | The listed defects of record parsing are the only ones | `Model/Mended`: a variant of the crate (not the code of /repo) in which the functions behind B2, B3, B7, B8, B9, B10, B12 are corrected; every definition cites the lines it replaces. `Spec/Ideal`: outcomes as functions of bytes, end error and configuration. `Spec/KernelAll`: what the kernel guarantees, without the exclusions of `KBody.Ok` | `Mend.record_run`: the corrected parser does what the ideal one says; `Ideal.record_plain`: which depends neither on `is_native` nor on the offset; `Ideal.record_enc`: and decodes what the kernel writes. `c84_chunking`, `c84_native`, `c84_inputs`, `c84_total`, `c84_round_trip`, `c84_stream`, `c84_keeps` (nothing the crate reads correctly changes); `c84_witnesses`, `c84_parts`: the counterexamples of the other properties, now decoded | `c84_chunking`, `c84_native`, `c84_inputs`, `c84_total`, `c84_round_trip`, `c84_stream`, `c84_keeps`, `c84_witnesses`, `c84_parts` | About a corrected variant of the crate (Model/Mended), not about the code of /repo: shows that the defects B2, B3, B7, B8, B9, B10, B12 are all that the conditions of C02, C75, C10 and C69 come from, and that correcting them changes nothing else. |
| C85 | proved | With the listed corrections a whole recording is read, from the attr to the last record | `Model/MendedAttr`: corrected `Parse for perf_event_attr`, `From<perf_event_attr> for ParseConfig` and `parse_metadata` (not the code of /repo). `Spec/SessionAll`: attr and records as the kernel writes them, nothing left out | `Mends.attr` relates the corrected attr parser to `Ideal.parseAttr`; `kattr_surj`: every byte string of a valid size is an attr. `c85_attr`, `c85_attr_exact` (all outcomes for all inputs), `c85_attr_chunking`, `c85_config` with `c85_endians`, `c85_records`, `c85_recording`, `c85_by_hand`; `c85_example`, `c85_by_hand_example`: the counterexamples of C39, C59, C58, C38, C72, now read | `c85_attr`, `c85_attr_exact`, `c85_attr_chunking`, `c85_endians`, `c85_config`, `c85_records`, `c85_recording`, `c85_by_hand`, `c85_example`, `c85_by_hand_example` | About a corrected variant of the crate (Model/Mended, Model/MendedAttr), not about the code of /repo. Remaining conditions are the limits of the settings word: sample_type below 2^40, read_format below 2^5. |
| C86 | proved | Through a reader only the bytes count | `BufReader` and every other buffer of temporary chunks, all of `parse_record`; specified by `Spec/Piped`, a parser over the mere bytes that leaves nothing open and says which values are copies | `Pours` (code and `Piped` agree, by structural induction over every record parser), then the frame as in C70. `c86_temporary`, `c86_reader`, `c86_portions`, `c86_chunking`; `c86_calls`, `c86_reader_calls` for repeated calls on complete records; `c86_each`, `c86_loops`, `c86_end` for readers that settle (`BufReader.settled` makes C67 and C73 apply to them). `c86_unsettled`: a reader that goes on after an end of file | `c86_temporary`, `c86_reader`, `c86_portions`, `c86_chunking`, `c86_calls`, `c86_reader_calls`, `c86_loops_temporary`, `c86_each`, `c86_loops`, `c86_end`, `c86_example`, `c86_unsettled` | Loops need a reader that ends for good (or complete records only); c86_unsettled shows why. |
| C87 | proved | Exactly which of the kernel's records are read | All of `parse_record` for every record of `Spec/KernelAll` (what the kernel guarantees, nothing left out); `Spec/Readable` describes the readable ones by their contents alone | `Judges`: each record parser, on the record's own bytes, succeeds if the condition holds and reports the end if not; composed along the sample's parts in `Judges.sample`. Wrong announcements are refuted from what a parsed sample never is (`Post.regsSized`, `c18_present`). TEXT_POKE separately, in memory (`P.poke_memory`) and copied (`P.poke_temporary`). `c87_memory`, `c87_reader`, `c87_behind`, `c87_error`; `c87_memory_stream`, `c87_reader_stream`, `c87_slice`, `c87_script` for recordings; `c87_ok`: the condition of C10 and C17 implies it | `c87_reader`, `c87_memory`, `c87_behind`, `c87_error`, `c87_reader_stream`, `c87_memory_stream`, `c87_ok`, `c87_slice`, `c87_script`, `c87_example` | In the host's byte order a slice must be at an address divisible by 8 and its records multiples of 8 bytes, as in a mapped ring buffer. |
| C88 | proved | A reader is asked for no more than the record needs, and nothing is lost | `BufReader` with an arbitrary list of `read` results (`Model/ParseBuf`), `parse_header`, `to_slice`, `ParseBufCursor::new`, all of `parse_record` and `parse_metadata`; `BufReader.pull` in the property file says what taking `n` bytes means | `Pulls n m`: the call takes exactly `n` bytes and succeeds exactly if it gets them; by induction for the two loops, then composed; the rest of the call runs on the cursor (`Still`). `c88_reads`, `c88_buffered`, `c88_prompt`, `c88_metadata`, `c88_calls` | `c88_reads`, `c88_metadata`, `c88_buffered`, `c88_prompt`, `c88_calls`, `c88_example` | Every reader that respects the contract of Read; BufReader itself is modelled by its documented behaviour. |
| C89 | proved | With the remaining corrections C14, C35, C43, C45, C46, C59 and C73 hold without exception | `Model/MendedRest`: a corrected cursor (`TrueCursor`), `Sound.record` on top of the corrected record parser of C84, branch entries, `uts`, `HexStr` and `Display`; which records an input contains whole is said by `WholeAt` and `recordsIn` over the bytes alone | From C84's exact description of every outcome (`Ideal`): an `Eof` of the record's own buffer is told apart from one of the input by the size field. `c89_eof`, `c89_same`, `c89_loop`, `c89_kernel`; `c89_cursor`, `c89_hint` and the instance `LawfulEof TrueCursor`; `c89_branch`, `c89_uts`, `c89_hex`, `c89_display`; `c89_while`, `c89_switch`, `c89_witnesses`: the counterexamples of C73, C59, C43 and C46, now right; `c89_visitors`: `NoEof` holds of the visitors used | `c89_eof`, `c89_same`, `c89_loop`, `c89_kernel`, `c89_cursor`, `c89_hint`, `c89_branch`, `c89_uts`, `c89_hex`, `c89_display`, `c89_while`, `c89_switch`, `c89_witnesses`, `c89_visitors` | About a corrected variant of the crate (Model/MendedRest on top of Model/Mended), not about the code of /repo: shows that B1, B4, B6, B13, B14 and B16 are all that the exceptions of C14, C35, C43, C45, C46, C59 and C73 come from. |
| C90 | proved | What a user's program sees through a reader is a function of the bytes alone | Programs (`Model/User`) over `BufReader` and every other buffer of temporary chunks; specified by `Spec/Drip`, an interpreter of programs over the mere bytes that also says where one stands after an error | `Drips` (code and `Drip` agree in result and position, by structural induction over every parser and then over the program), from `Pours` (C86) for what succeeds and `Exhausts` (C63) for what is consumed by an error. `c90_temporary`, `c90_reader`, `c90_portions`, `c90_position`, `c90_returns`; `c90_straight`, `c90_straight_reader`, `c90_straight_portions` for readers that fail or revive; `c90_words` (the counterexample of C63, through readers), `c90_stumble`, `c90_unsettled` (why the reader has to end for good) | `c90_temporary`, `c90_reader`, `c90_portions`, `c90_returns`, `c90_position`, `c90_straight`, `c90_straight_reader`, `c90_straight_portions`, `c90_words`, `c90_stumble`, `c90_unsettled` | Programs that go on after errors need a reader that ends for good; c90_unsettled shows why. |
| C91 | proved | What a user's program sees in memory is a function of the bytes and of their address modulo 8 | Programs (`Model/User`) over slices and every other buffer with one borrowed chunk; specified by `Spec/Moored`, an interpreter of programs over bytes and their address that also says where one stands after an error | `Holds` (code and `Moored` agree in result and position, by induction over every parser and then over the program), from `Meets` (C70) for what succeeds and `Exhausts` (C63) for what is consumed by an error. `c91_one_piece`, `c91_slice`, `c91_returns`, `c91_position`, `c91_left`, `c91_address` (with C65); `c91_words` (all eight remainders), `c91_stumble` | `c91_one_piece`, `c91_slice`, `c91_returns`, `c91_position`, `c91_left`, `c91_address`, `c91_words`, `c91_stumble` | Which bytes a list is read from does depend on the address modulo 8 (B2); the spec says how. |
| C92 | proved | With the defects corrected, a user's program sees the bytes and nothing else | The corrected methods (`Model/Mended`, `MendedAttr`), made available to programs (`Model/MendedUser`); specified by `Spec/Sure`, an interpreter of programs over bytes that also says where one stands after an error | `Sures` (code and `Sure` agree in result and position) by induction over every parser (`Proof/Sure`, `SureRec`), the framing and the program (`SureProg`). `c92_program`, `c92_position`, `c92_returns`, `c92_same`, `c92_inputs`; the counterexamples to C63 again with the corrections: `c92_words`, `c92_poke`, `c92_stumble`; `c92_misc` (B15); `c92_direct` shows why parse_slice_direct is excepted | `c92_program`, `c92_position`, `c92_returns`, `c92_same`, `c92_inputs`, `c92_words`, `c92_poke`, `c92_stumble`, `c92_misc`, `c92_direct` | About the corrected crate, not the code in /repo; parse_slice_direct is excepted because its answer is meant to depend on where the data is. |
| C93 | proved | With the defects corrected, records mean the same on every machine | `Model/MendedNarrow`: the operations of `Model/Mended` for a machine with any word size and alignment, with counts checked; the generic record parsers are instantiated with them | `Suits` (agrees with the ideal parser on every input smaller than the memory of the machine, up to the kind of one error) by induction over every parser (`Proof/Suits`, `SuitsRec`, `SuitsTop`). `c93_record`, `c93_machines`, `c93_accepts`, `c93_round_trip`, `c93_framing`; the counterexamples to C83 again: `c93_overlong`, `c93_chain`; `c93_instead` shows the error that differs, `c93_bits` that 16 bits are needed | `c93_record`, `c93_machines`, `c93_accepts`, `c93_round_trip`, `c93_framing`, `c93_overlong`, `c93_chain`, `c93_instead`, `c93_bits` | About the corrected crate, not the code in /repo. |
| C94 | proved | With the defects corrected, exactly the kernel's records are accepted, with their meaning | The corrected crate (`Model/Mended`, `MendedRest` for the loop) against the kernel's layout (`Spec/KernelAll`) extended by bytes that belong to nothing (`Spec/KernelExtra`) | What the ideal parser accepts is a record of the layout, by induction over every parser (`ISound`, `ILaid`, `IDrains` in `Proof/ISound`, `ISoundBody`), and the converse for records with extra bytes (`Proof/IExact`); with C84 this carries over to the corrected code. `c94_exact`, `c94_accepts`, `c94_visit`, `c94_unambiguous`, `c94_content`, `c94_same_content`, `c94_blank`, `c94_recording`, `c94_delivers`; `c94_example` compares with the crate | `c94_visit`, `c94_exact`, `c94_accepts`, `c94_unambiguous`, `c94_blank`, `c94_content`, `c94_same_content`, `c94_recording`, `c94_delivers`, `c94_example` | About the corrected crate, not the code in /repo. |
| C95 | proved | Through a reader, exactly these bytes are accepted, and this is what they are taken for | The record parsers over a reader (`Spec/Piped`, shown to be the code by C86) against a layout of what the code expects (`Spec/CodeLayout`) | Every parser is shown to succeed exactly on the encodings of some values, with this value and leaving this rest (`PEnc` in `Proof/PExact`, `PExactBody`; an equivalence, closed under sequencing); the frame by `metadata_enc` and `Spec.metadata_inv`. `c95_visit`, `c95_exact`, `c95_accepts`, `c95_unambiguous`, `c95_calls`, `c95_reader`; `c95_settled`, `c95_plain`, `c95_memory` for memory by C02; `c95_kernel` shows where this is the kernel's layout; `c95_example` | `c95_visit`, `c95_exact`, `c95_accepts`, `c95_unambiguous`, `c95_calls`, `c95_reader`, `c95_settled`, `c95_plain`, `c95_memory`, `c95_kernel`, `c95_example` |  |
| C96 | proved | In memory, at any address, exactly these bytes are accepted, and this is what they are taken for | The record parsers over one piece of memory (`Spec/Contig`, shown to be the code by C70) against a layout of what the code expects there (`Spec/MemoryLayout`) | The parsers over memory with lists for borrowed and owned values (`Proof/Inplace`, `Displays`) are shown to succeed exactly on the encodings of some values, at every address modulo 8 (`LEnc` in `Proof/LExact`, `LExactBody`; an equivalence, closed under sequencing). `c96_visit`, `c96_exact`, `c96_accepts`, `c96_unambiguous`, `c96_calls`, `c96_slice`; `c96_even` and `c96_kernel` show where this is the layout of C95 and of the kernel; `c96_example` | `c96_visit`, `c96_exact`, `c96_accepts`, `c96_unambiguous`, `c96_calls`, `c96_slice`, `c96_even`, `c96_kernel`, `c96_example` |  |
| C97 | proved | In several pieces of memory, exactly these bytes are accepted, and this is what they are taken for | The record parsers over pieces of memory (`Proof/Woven`, shown to be the code in `Proof/Weave`) against a layout of what the code expects of pieces (`Spec/PieceLayout`) | `Proof/Sewn`: which pieces are left after any run, and where the bytes of a record's region lie. `Weaves.body`: on a buffer that hands out the pieces, every record parser does what the parser over pieces says. `WEnc.body` (`Proof/WExact`, `WExactBody`): that parser succeeds exactly on the encodings of some values (an equivalence, closed under sequencing). `c97_visit`, `c97_exact`, `c97_accepts`, `c97_unambiguous`, `c97_calls`, `c97_pieces`; `c97_slice`, `c97_copied` and `c97_temporary` show where this is the layout of C96 and of C95; `c97_example` | `c97_visit`, `c97_exact`, `c97_accepts`, `c97_unambiguous`, `c97_calls`, `c97_pieces`, `c97_slice`, `c97_copied`, `c97_temporary`, `c97_example` |  |
| C98 | proved | Exactly these attrs are accepted, and a recording read with its own attr gives exactly these records | `P.parseAttr`, `ParseConfig.ofAttr`, the record parsers as in C95 and C97, against `kattr` (`Spec/Attr`) | Case analysis on the bytes: `Spec.parseAttr_short`, the theorems of C39 and C40 and `kattr_surj` (`Proof/MendedAttr`: every byte string of a valid size is some attr). `c98_attr` lists every outcome, `c98_exact` is the equivalence for success, `c98_unambiguous`; `c98_recording` and `c98_reader` put it together with `c97_pieces` and `c95_reader`; `c98_example` The configuration is described setting by setting (`MadeFrom`); `c98_config`: `ParseConfig::from` makes that one and there is no other. | `c98_attr`, `c98_exact`, `c98_unambiguous`, `c98_config`, `c98_recording`, `c98_reader`, `c98_example` |  |
| C99 | proved | Exactly what a loop over any input returns, call by call, also when records are damaged | As in C97 and C95; `visitMany` is the loop, `cut` the blocks (C73) | `Lies.after`: any call, successful or not, leaves the parser behind the block with the rest of the pieces (C67, and an invariant of the primitive operations); `Lies.block`: a record that is taken is a whole block. `c99_loop` and `c99_pieces` by induction on the length with `c97_exact`, `c99_through` and `c99_reader` with `c95_exact`; `c99_determined`, `c99_damaged`, `c99_damaged_pieces` (through `cut_framed`: blocks that carry their length are cut apart again), `c99_example` | `c99_loop`, `c99_determined`, `c99_pieces`, `c99_through`, `c99_reader`, `c99_damaged`, `c99_damaged_pieces`, `c99_example` |  |
| C100 | proved | Exactly which error is returned, so that every outcome of every call is known | As in C97 and C99; Spec/Wrong.lean lists the complaints with their bytes | `WErr` (Proof/WErr*.lean): for each parser, in any pieces, the bytes for which it returns an error other than the end; composed through `bind` with `WEnc` (C97) for what was read before. A sample is read part by part: `parts_wrong` splits at the first failing part, `sample_upto` says that those before it are a sample of a smaller `sample_type`. `Woven.record_wrong` adds header and trailer, `c100_wrong`, `c100_visit`, `c100_eof`, `c100_unique`, `c100_exact`, then `c100_loop`, `c100_pieces`, `c100_slice` by induction over the blocks (C99); `c100_reader` and `c100_reader_loop` by comparison with a buffer of one temporary piece (C86), `c100_live` with C06, C86 and C88 for readers that fail and go on. `demoWrongStack_wrong`, `c100_example` | `c100_wrong`, `c100_visit`, `c100_eof`, `c100_unique`, `c100_exact`, `c100_loop`, `c100_pieces`, `c100_slice`, `c100_reader`, `c100_reader_loop`, `c100_example`, `c100_live` |  |
| C101 | proved | Exactly which of the kernel's records are read from a ring buffer that wraps around | The records of C87, the pieces of C97; `KRecord.torn` says whether the code of a TEXT_POKE is cut | `P.delivered_iff` (C87) for all records but TEXT_POKE, since the pieces agree with one address modulo 8 (`Mapped.chunksAl`); `Lies.returned` (C97) for TEXT_POKE; `Lies.behind` for the pieces that are left. `c101_record`, `c101_stream`, `c101_ring`, `c101_whole`, `c101_wrapped` (comparison with C87), `c101_example`: an insertion cut by the end of the buffer is read as a deletion | `c101_record`, `c101_stream`, `c101_ring`, `c101_whole`, `c101_wrapped`, `c101_example` |  |
| C102 | proved | Exactly what parse_metadata returns for any input | `P.metadata`; `FrameOutcome` writes down each outcome with the bytes it belongs to | `FrameOutcome.of` and `FrameOutcome.eq`: the outcome is that of the framing of the stream (`frameAt`), from `Spec.metadata_cases`, `Spec.metadata_inv` (every trailer's bytes are those of some trailer) and `metadata_enc`. `c102_unique`, `c102_returns`, `c102_exact`, `c102_error`; `c102_record` needs no law of the buffer (C03). `c102_example` | `c102_unique`, `c102_returns`, `c102_exact`, `c102_error`, `c102_record`, `c102_example` |  |
| C103 | proved | Exactly what parse_record_with_header returns, whatever the header and the input | As in C97 and C100, with `P.recordWithHeader`; `led` puts the header's bytes in front of the pieces | `Lies.recordWith`: as `Lies.record` (C97), with the body read at an unknown address (`Region.unknown`), since only the pieces matter; the frame is that of the longer input (`metadata_same`). `c103_exact` from `Woven.record_strewn`, `Woven.record_refused`, `Woven.record_wrong` and `c100_unique`; `c103_visit`, `c103_pieces`, `c103_slice`, `c103_reader` (by comparison with one temporary piece, C86). `c103_example`, `demoGiven_strewn` | `c103_exact`, `c103_visit`, `c103_pieces`, `c103_slice`, `c103_reader`, `c103_example` |  |
| C104 | proved | Where the bytes lie matters in two ways only: misaligned borrowed lists in the host's byte order, and torn TEXT_POKE records | The outcomes of C100; `Misplaced` (in one borrowed piece, not at a multiple of 8) and `Pokes` (starts with a TEXT_POKE) on the pieces | `PlacedAlike.dropAt`: in such pieces the same bytes are dropped in front of lists; so the layouts (`PlacedAlike.strewn`, `PlacedAlike.value`) and complaints (`PlacedAlike.wrong`) are the same, and by `c100_exact` the results. `c104_record`, `c104_loop` (by `Lies.after`), `c104_moved`, `c104_reader` (by C86). `c104_example`: each of the two ways in which it does matter; `demoPlaced_moved` | `c104_record`, `c104_loop`, `c104_moved`, `c104_reader`, `c104_example` |  |
| C105 | proved | What a program over the public interface sees in pieces of memory is a function of the bytes and of where they lie, also after errors | `Prog` and `Call` (Model/User.lean) over pieces; `Prog.weave`, `Call.weave` are the written-down function: it reads a list of bytes and asks `w i n` whether `n` bytes at offset `i` lie in one borrowed piece, and where. Programs that go on after an error of the parser they called (`attempt`): what is attempted is a call for a whole record (`Prog.Whole`), a call for a list (`Prog.Listing`) or a program whose only error is `Eof` (`Prog.OnlyEof`), see `Prog.Stops`; `Prog.reach` says where they go on. Other attempts (a single record body or entry that fails half way on the outer parser) are left out | `Weaves.prog` by induction on the program, over all buffers that hand out their pieces one after the other, the cursor over a body being one of them (`Weaves.opened`, `Weaves.frame`); the crate's own parsers by the lemmas of Proof/Weave.lean. Where an error leaves the parser: `Weaves.whole` from C67, C102 and `P.recordWithHeader_end`; `Weaves.listing` and `Weaves.plain` from `UsesUp` (Proof/Drain.lean). `c105_pieces`, `c105_ring`. For `c105_moved`: `Woven` looks at `w` in two primitives only and there only modulo 8, so the dictionaries of primitives are equal (`Woven.near`) and so is every term over them (`Woven.term_near`). `c105_example`, `demoStops_stops`, `c105_goes_on`, `demoGoesOn_stops`, `c105_refused`, `demoRefused_stops` | `c105_pieces`, `c105_ring`, `c105_moved`, `c105_example`, `c105_goes_on`, `c105_refused` |  |
| C106 | proved | Buffers called directly: any order of looking and advancing, by any counts | the instances of `ParseBuf` (Model/ParseBuf.lean); `watch` lists what the caller of any sequence of calls sees. Specification: `overPieces`, pieces that never change and a position; `pieceAt` finds the piece with byte number k (`c106_look` says in terms of the bytes what it is). `Guarded` wraps a buffer and panics when advanced past what it has shown | `CursorAt` (the pieces gone and those left make up all pieces) is kept by every call: `slowLoop_at`, `CursorAt.advance`, `CursorAt.chunk`; `c106_cursor`, `c106_slice` by induction on the calls. `c106_split` from `P.splitAt_post`: cursors are made in this way over any buffer. `c106_reader`, `c106_reader_unseen`; `c106_reader_differs`: a `BufReader` is not such a buffer (B18). `c106_within`, `c106_within_reader`: `Guarded β` is lawful, so C63 (no program panics) applies to it. `c106_example` `c106_reader_within`: as long as every advance stays within what `chunk` has shown, a `BufReader` shows exactly the pieces it reads (induction over the calls, the position within the buffered piece being the invariant). | `c106_look`, `c106_cursor`, `c106_slice`, `c106_reader`, `c106_reader_unseen`, `c106_reader_within`, `c106_reader_differs`, `c106_split`, `c106_within`, `c106_within_reader`, `c106_example` |  |

## 4. How the main results are obtained

1. **Refinement.** `Refines m s` (`Proof/Logic`): run from a parser that stands for the flat state `f`, `m` ends with the result
   of `s f` and stands for the flat state after it, unless `s f` is `stuck`. One lemma per primitive (`Proof/Prim`, `Prim2`),
   one rule per combinator; the record parsers follow by the rules (`Proof/Records`, `Dispatch`, `Top`). `stuck` marks the two
   places where the code's result is not a function of the bytes (B2, B7 below); `NoStuck` says when they cannot be reached.
2. **Safety.** `Safe` and `Post` triples: no panic, no divergence, bounds on memory requests, allowed error kinds. They need no
   absence of `stuck`.
3. **Round trips.** `Reads m bs a`: on input starting with `bs`, the flat parser `m` consumes `bs` and returns `a`
   (`Proof/Reads`, `Encode`, `RoundTrip`), against the encoders of `Spec/Kernel`.
4. **Relational proofs** for pairs of runs: `Proof/Rel`, `Sim`, `Prefix` (same bytes, other chunking, other byte order, other
   rest of the stream), `Align` (alignment bookkeeping), `Hand`/`Cows` (where `Cow`s come from), `Patchy` (empty chunks).

## 5. Where the code disagrees with a property

Each is proved as a negation with a concrete witness (`…_false`), together with what does hold (`…_partial`).

| | code | effect | theorems |
|---|---|---|---|
| B1 | `ParseBufCursor::advance` (src/parsebuf.rs:231-245) computes `len.checked_sub(count)` and drops the result | `remaining_hint` of a record's parser never decreases, against the `# Safety` clause of the trait | `c35_cursor_false` |
| B2 | `parse_slice_direct` (src/parse.rs:441-468) advances before testing the alignment | a native list at a misaligned address is skipped and the *following* bytes are read as its elements | `c33_misaligned_false`, `c75_false`, `c66_native_matters`, `c02_align_false`, `c23_misaligned_false` |
| B3 | `parse_rest` on an empty rest is `Eof`; `PERF_RECORD_SWITCH` has no arm in `parse_record_impl` | a SWITCH record never reaches `visit_switch`; with an empty body it is an error, otherwise it is an unknown record; unknown records with an empty body are errors | `c38_never_false`, `c38_false`, `c37_empty_false`, `c10_switch_false` |
| B4 | `Namespaces::uts` uses `USER_NS_INDEX` (src/records/namespaces.rs:50) | `uts()` returns the user namespace | `c14_uts_false` |
| B5 | `perf_event_attr` splits off `size - 4` bytes after consuming 8 | a serialized attr must be followed by 4 more bytes, and they count as unknown fields for sizes above 136 | `c39_exact_false`, `c40_exact_false`, `c40_contaminated_false` |
| B6 | `HexStr` prints the low nibble first and `'A' + n` for digits above 9 | build ids print as wrong text | `c43_false` |
| B7 | `CowSliceExt::split_at` for `Owned` swaps the halves at `len == 0` and `len == data.len()` | TEXT_POKE without old bytes, read from a reader, returns the new bytes as old bytes | `c41_owned_false`, `c15_owned_false`, `c02_poke_false` |
| B8 | `PERF_SAMPLE_WEIGHT_STRUCT` is not parsed | all following fields of the sample are misread | `c50_weight_struct_false` |
| B9 | `parse_bytes(0)`/`parse_slice(0)` at the end of the input is `Eof` | a sample whose last field is an empty native list or an empty stack/aux area is an error | `c48_*_false`, `c75_false`, `c14_empty_native_false`, `c23_empty_false` |
| B10 | `Registers::parse` reads `popcount(mask)` values for any ABI | for `PERF_SAMPLE_REGS_ABI_NONE` the kernel writes none; the following fields are misread | `c49_abi_none_false` |
| B11 | documentation of `Parser::parse`: "If the type fails to parse then this parser will not be modified" | a failed parse has consumed input; one that runs into the end has always consumed all of it | `c36_false`, `c36_refused_false`, `c36_eof_false` |
| B12 | MMAP is excluded from the `sample_id` trailer | with `sample_id_all` the trailer of an MMAP record becomes part of its file name | `c58_false`, `c58_contaminated_false` |
| B13 | `Display for ParseError`: no separator between description and source, no description for `External` | "invalid recordmessage", ": message" | `c46_display_false` |
| B14 | bit fields of `perf_branch_entry` and `perf_event_attr` are read from the byte-swapped word | wrong when the source's byte order is not the host's | `c59_branch_false`, `c59_sample_id_all_false` |
| B15 | the parser returned by `parse_metadata` has the configuration of its parent; only `parse_record_impl` (src/parse.rs:560-567) adds the record's `misc`, and `with_misc` is not public | read in two steps, as the module documentation proposes, SWITCH_CPU_WIDE is always `In` and the build id of MMAP2 is read as device and inode numbers | `c72_switch_false`, `c72_mmap2_false` |
| B16 | a record that needs more bytes than its header announces is `Eof` (the record is read from a buffer of its own), although `ErrorKind::Eof` is documented as "no more data in the `ParseBuf`" | a loop that stops at `Eof` loses the records that follow; SWITCH (B3) is enough | `c45_eof_false`, `c73_while_false`, `c73_switch_false` |
| B17 | on 32-bit targets `parse_u64()? as usize` drops the high half of a count (src/records/read.rs:421, namespaces.rs:95, sample.rs:199,209,223,230,258) | a malformed SAMPLE or NAMESPACES record that a 64-bit build rejects is accepted with a shorter list | `c83_false` |
| B18 | `ParseBuf::advance` is documented as "Advance this buffer past `count` bytes"; for `BufReader` it is `consume`, which stops at the end of what is buffered | called directly with a count beyond the chunk, or before `chunk`, a `BufReader` stays behind without notice, where `&[u8]` and the record's buffer move on or panic; the crate itself never does this (`c106_within`) | `c106_reader_differs` |

B2, B3, B7, B8, B9, B10 and B12 are all there is to correct in the parsing of records: with these places changed (`Model/Mended`), C02, C75,
C10 and C69 hold without their conditions (C84). With `Model/MendedAttr` (B5, B14 for `sample_id_all`, B15) the same is shown of whole recordings, from the
attr to the last record, of either byte order, and of reading by hand (C85). With `Model/MendedRest` (B1, B4, B6, B13, B14 for branch entries, B16)
the remaining partial properties lose their exceptions too (C89). Programs against the corrected crate (`Model/MendedUser`) see the bytes alone
(C92); B11 and B18 are matters of documentation. With B17 corrected (`Model/MendedNarrow`) records mean the same on every machine (C93). The corrected crate accepts exactly
what the kernel can write, so that C62 and C77 hold without exceptions too (C94).

What the crate as it is accepts from a reader is written down as a layout of its own (`Spec/CodeLayout`) and shown to be exact (C95). The layout
differs from the kernel's in B3, B7, B8, B9, B10 and B12 and in nothing else (`c95_kernel`), which is a second way to see that this list of
defects in the parsing of records is complete.

What it accepts in memory is written down and shown to be exact as well, at every address (C96, `Spec/MemoryLayout`). The differences are B2 and
B7: bytes in front of a misaligned native list are skipped, and a TEXT_POKE that is borrowed is read right. Together with C95 this leaves no
freedom for the crate on readers and on single pieces of memory: two models that satisfy C95 and C96 return the same for all inputs.

The same for input in several pieces, borrowed or temporary, is C97 (`Spec/PieceLayout`): the layout depends on where the pieces end, since B2
affects only lists that lie within one borrowed piece, and B7 only code that does not. It covers every buffer that hands out its pieces one after
the other, none of them empty, and drops what is consumed (`SewnBuf`); the slice, a list of slices and the crate's own cursor are shown to be such
buffers.

The attr parser is described in the same way by C98, with every error, so that reading a recording from its attr to any record is described exactly.
C99 does this for a loop that goes on after errors, over arbitrary input. C100 adds which error it is: Spec/Wrong.lean lists every complaint of
`parse_record` with the bytes that cause it, and `Eof` is what remains, so that every outcome of every call is described. C102 and
C103 do the same for `parse_metadata` and `parse_record_with_header`. C101 is C87 for a ring buffer that has wrapped around: the end of the buffer
matters only for a TEXT_POKE with nothing on one side (B7). C104 says for any two layouts of the same bytes in memory when they give the same results.
C105 is the counterpart of C90 (readers) and C91 (one piece) for programs over input in several pieces.

Remarks that are not violations of a listed property:

* `parse_sample_with_cgroup` (src/records/sample.rs:766) asserts a value that the code produces only because of B2, and only if
  the test's constant is not aligned to 8 bytes (`Verif/Check/Vectors.lean` evaluates all 16 residues). Its configuration does
  not ask for the ids its bytes contain.
* `sample_type` bits from 2^40 up are dropped by the packed configuration word; unknown `read_format` bits collapse to one
  marker bit (enough to be refused).
* `parse_bytes` hands `spare_capacity_mut()` of a `Vec::with_capacity(len)` to `parse_to_slice`; if the allocator returned more
  than `len` bytes of capacity, more than `len` bytes would be consumed, and data that is there could be refused
  (`c76_capacity_false`). `Vec::with_capacity` promises at least `len`; the model takes it to be exact, as the standard library is today.
  No memory error follows in any case (`c76_bytes_capacity`).
* `HexAddr` uses `{:#016X}`, which pads to 16 characters including `0x`, so addresses are not printed with a fixed width.

## 6. Wrong programs

`seeded/LOG.jsonl` has one line per wrong program that has been run so far: an edit of one model definition in a scratch copy, the
claim it breaks, the theorems that no longer check, and what was tightened as a consequence. More edits are prepared than have been
run; only finished runs are logged.

`method` says how much was run. `full`: everything that depends on the edit was rebuilt. `until_claim_fails`: the modules that depend on
the edit were checked one at a time against the unedited compiled modules, until a theorem of the broken claim was among the failures.
`until_first_failure` (automatic one-token edits, ids `m…`): the same, but stopped at the first failing proof. In the last two methods
only `broken_directly` was observed. The rest of `theorems_failed` follows from the recorded dependencies between theorems and was not
run, and further theorems may fail. For the automatic edits the `claim` is derived from those theorems (`claim_derived`) and was not
chosen beforehand, so such a line does not show that the claim is false of the edited model. An edit that passed everything has
`first_result: survived`; `theorems_tightened` is filled in only after the edit was run again and failed (`rerun`).

A theorem counts as failed (`theorems_failed`) when its own proof no longer checks or it depends on one that does not. Because the
refinement of the record parsers is one chain of lemmas, an edit often makes many theorems fail whose claims are still true, so a
failure alone does not show that the edit contradicts the theorem. `broken_directly` lists the places whose own proof broke.
`evidence` says what is known beyond that:

* `refuted`: a fixed set of concrete instances of the theorems was evaluated on the edited model, and one of the theorems the manifest
  lists for the broken claim came out false (`refuted_instances`). All instances come out true on the unedited model. This is evaluation by
  Lean's interpreter, not a kernel proof of the negation.
* `refuted_elsewhere`: instances came out false, but only of theorems listed for other claims.
* `example_false`: no such instance, but `decide` found a concrete example or witness in the property files to be false (`decided_false`).
  It need not be one of the broken claim.
* `unproved`: the theorem stopped checking and nothing was established about its falsity.
* `equivalent`: the edit was meant not to change behaviour, and nothing was found that contradicts this.
