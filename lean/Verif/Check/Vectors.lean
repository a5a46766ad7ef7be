import Verif.Model.Visitor
import Verif.Model.Fuzz
/-!
# The crate's own tests, replayed on the model

Every unit test, doc test vector and regression test of the repository, run on the model and compared with the value
the test asserts. They are tests of the model (is it the code?), not proofs of properties.
-/
namespace Perf.Vectors
open Perf ParserM

/-- A byte string literal. -/
def bs (l : List Nat) : List Byte := l.map (BitVec.ofNat 8)

/-- `Parser::new(bytes, ParseConfig::<Little>::default())` on a little endian host, the bytes at address `a`. -/
def p (a : Nat) (l : List Nat) (f : ParseConfig → ParseConfig := id) : Parser Slice :=
  Parser.new ⟨a, bs l⟩ (f (.default (Endian.little .little) .little))

/-- src/records/mmap.rs:103-134 -/
def mmapBytes : List Nat :=
  [10, 100, 0, 0, 11, 100, 0, 0, 0, 160, 118, 129, 189, 127, 0, 0, 0, 16, 0, 0, 0, 0, 0,
   0, 0, 160, 118, 129, 189, 127, 0, 0, 47, 47, 97, 110, 111, 110, 0, 0]

example : (match ((parseMmap : P Slice (Mmap Cow)) (p 0 mmapBytes)).res with
    | .ok m => decide (m.pid = 25610#32 ∧ m.tid = 25611#32 ∧ m.addr = 0x7FBD8176A000#64 ∧ m.len = 4096#64 ∧
        m.pgoff = 0x7FBD8176A000#64 ∧ m.filename.data = bs [47, 47, 97, 110, 111, 110])
    | .error _ => false) = true := by decide +kernel

/-- src/records/comm.rs:77-101 -/
example : (match ((parseComm : P Slice (Comm Cow)) (p 0 [0x10, 0x10, 0, 0, 0, 5, 0, 0, 0x74, 0x65, 0x73, 0x74, 0, 0, 0, 0])).res with
    | .ok m => decide (m.pid = 0x1010#32 ∧ m.tid = 0x0500#32 ∧ m.comm.data = bs [0x74, 0x65, 0x73, 0x74])
    | .error _ => false) = true := by decide +kernel

/-- src/records/exit.rs:35-59 -/
example : ((parseExit : P Slice Exit) (p 0 [0x10, 0x10, 0, 0, 0, 5, 0, 0, 1, 0, 0, 0, 2, 0, 0, 0, 3, 0, 0, 0, 4, 0, 0, 0])).res.toOption =
    some ⟨0x1010#32, 0x0500#32, 1#32, 2#32, 0x0400000003#64⟩ := by decide +kernel

/-- src/records/lost.rs:29-49 -/
example : ((parseLost : P Slice Lost) (p 0 [0x10, 0, 0x99, 0, 0, 0, 0, 0, 0, 0xAF, 0, 0, 0, 0x7B, 0, 0])).res.toOption =
    some ⟨0x990010#64, 0x7B000000AF00#64⟩ := by decide +kernel

/-- src/records/throttle.rs:36-59 -/
example : ((parseThrottle : P Slice Throttle) (p 0 [0x10, 0x20, 0x30, 0x40, 0x50, 0x60, 0x70, 0x80, 0x90, 0xA0, 0xB0, 0xC0,
      0xD0, 0xE0, 0xF0, 0, 0xEF, 0xBE, 0xAD, 0xDE, 0xFE, 0xCA, 0xEF, 0xBE])).res.toOption =
    some ⟨0x8070605040302010#64, 0x00F0E0D0C0B0A090#64, 0xBEEFCAFEDEADBEEF#64⟩ := by decide +kernel

/-- `simple_parse_sample`, src/records/sample.rs:746-764 -/
example : (match ((parseSample : P Slice (Sample Cow)) (p 0 (List.range 16)
      (·.withSampleType (SampleFlags.ADDR ||| SampleFlags.ID)))).res with
    | .ok s => decide (s.addr = some 0x0706050403020100#64 ∧ s.id = some 0x0F0E0D0C0B0A0908#64 ∧ s.cpu = none ∧ s.time = none)
    | .error _ => false) = true := by decide +kernel

/-- `parse_sample_with_cgroup`, src/records/sample.rs:766-809 -/
def cgroupSample : List Nat :=
  [0xd4, 0x08, 0x00, 0x00, 0xd4, 0x08, 0x00, 0x00, 0xc9, 0x77, 0x8e, 0xa1, 0x3a, 0xa4, 0x00, 0x00,
   0x00, 0x00, 0x00, 0x00, 0x00, 0x00, 0x00, 0x00, 0x02, 0x00, 0x00, 0x00, 0x00, 0x00, 0x00, 0x00,
   0xd0, 0xbe, 0xc0, 0x28, 0x00, 0x00, 0x00, 0x00, 0x24, 0x02, 0x00, 0x00, 0x00, 0x00, 0x00, 0x00,
   0xbd, 0x00, 0x00, 0x00, 0x00, 0x00, 0x00, 0x00, 0xac, 0x79, 0xc0, 0x28, 0x00, 0x00, 0x00, 0x00,
   0xbe, 0x00, 0x00, 0x00, 0x00, 0x00, 0x00, 0x00, 0x01, 0x00, 0x00, 0x00, 0x00, 0x00, 0x00, 0x00]

/-- Its configuration. -/
def cgroupConfig (c : ParseConfig) : ParseConfig :=
  (c.withSampleType (SampleFlags.TID ||| SampleFlags.CGROUP ||| SampleFlags.READ ||| SampleFlags.TIME |||
    SampleFlags.CPU)).withReadFormat (ReadFormat.GROUP ||| ReadFormat.TOTAL_TIME_ENABLED)

/-- What the test asserts of the result. -/
def cgroupOk (o : Out Slice (Sample Cow)) : Bool :=
  match o.res with
  | .ok s => decide (s.pid = some 0x08d4#32 ∧ s.tid = some 0x08d4#32 ∧ s.time = some 0xA43AA18E77C9#64 ∧ s.cpu = some 0#32 ∧
      s.values.map ReadGroup.len = some 2 ∧ s.cgroup = some 1#64)
  | .error _ => false

/-- The bytes are those of a group of two (value, id) pairs, but the configuration does not ask for ids: with it the two
words after `time_enabled` are the group and the third is `cgroup`. The assertion `cgroup() == Some(1)` of the test holds
only when the bytes are *not* aligned to 8: then `parse_slice_direct` consumes two words, finds them misaligned, and
`parse_repeated` reads the next two (theorem `c33_misaligned_false`). So the test passes on the code because of that defect,
and only for a misaligned constant. -/
example : (List.range 16).map (fun a => cgroupOk ((parseSample : P Slice (Sample Cow)) (p a cgroupSample cgroupConfig))) =
    [false, true, true, true, true, true, true, true, false, true, true, true, true, true, true, true] := by
  decide +kernel

/-- With the configuration the bytes were recorded with (ids requested) an aligned buffer gives what the test asserts. -/
example : cgroupOk ((parseSample : P Slice (Sample Cow)) (p 0 cgroupSample fun c =>
    (cgroupConfig c).withReadFormat (ReadFormat.GROUP ||| ReadFormat.TOTAL_TIME_ENABLED ||| ReadFormat.ID))) = true := by
  decide +kernel

/-- src/util/cow.rs:44-63 -/
example : (Cow.truncate (.owned (bs [0, 1, 2, 3, 4, 5])) 4).data = bs [0, 1, 2, 3] ∧
    (Cow.truncate (.borrowed (bs [0, 1, 2, 3, 4, 5])) 4).data = bs [0, 1, 2, 3] := by decide +kernel

/-- `parse_rest`, src/parse.rs:681-694 -/
example : (match (P.rest (p 0 [1, 2, 3, 4, 5])).res with
    | .ok r => decide (r.data = bs [1, 2, 3, 4, 5])
    | .error _ => false) = true := by decide +kernel

/-- `cursor_over_split`, `cursor_zero_split`, src/parsebuf.rs:322-332: no panic, no endless loop. -/
example : (match (P.newCursor 8 (Parser.new (⟨[⟨0, bs (List.range 6)⟩, ⟨100, bs (List.range 9)⟩]⟩ : ChunkBuf)
      (.default (Endian.little .little) .little))).res with
    | .ok c => decide (c.chunks.map (·.data.length) = [6, 2] ∧ c.len = 8)
    | .error _ => false) = true := by decide +kernel

example : (match (P.newCursor 4 (Parser.new (⟨[⟨0, []⟩, ⟨100, bs (List.range 5)⟩]⟩ : ChunkBuf)
      (.default (Endian.little .little) .little))).res with
    | .ok c => decide (c.chunks.map (·.data.length) = [4] ∧ c.len = 4)
    | .error _ => false) = true := by decide +kernel

/-! ## Documentation examples -/

/-- `doctest::MMAP`, src/lib.rs:103-113; the example is src/lib.rs:17-41. -/
def docMmap : List Nat :=
  [0x01, 0x00, 0x00, 0x00, 0x00, 0x00, 0x30, 0x00, 0x16, 0x4C, 0x01, 0x00, 0x17, 0x4C, 0x01, 0x00,
   0x00, 0xA0, 0x48, 0x96, 0x4F, 0x7F, 0x00, 0x00, 0x00, 0x10, 0x00, 0x00, 0x00, 0x00, 0x00, 0x00,
   0x00, 0xA0, 0x48, 0x96, 0x4F, 0x7F, 0x00, 0x00, 0x2F, 0x2F, 0x61, 0x6E, 0x6F, 0x6E, 0x00, 0x00]

example : (match ((P.parseRecord : P Slice (Record Cow)) (p 0 docMmap)).res with
    | .ok (.mmap m) => decide (m.pid = 0x14C16#32 ∧ m.tid = 0x14C17#32 ∧ m.addr = 0x7F4F9648A000#64 ∧ m.len = 0x1000#64 ∧
        m.filename.data = bs [0x2F, 0x2F, 0x61, 0x6E, 0x6F, 0x6E])
    | _ => false) = true := by decide +kernel

/-- The native reading of the README example, README.md:30-45. -/
example : (match ((P.parseRecord : P Slice (Record Cow))
      (Parser.new ⟨0, bs docMmap⟩ (.default (Endian.native .little) .little))).res with
    | .ok (.mmap m) => decide (m.pid = 0x14C16#32)
    | _ => false) = true := by decide +kernel

/-- `doctest::CUSTOM_SAMPLE`, src/lib.rs:117-130. -/
def docSample : List Nat :=
  [0x09, 0x00, 0x00, 0x00, 0x00, 0x00, 0x48, 0x00, 0x10, 0x12, 0x33, 0x48, 0x99, 0x1A, 0x2B, 0x3C,
   0x02, 0x00, 0x00, 0x00, 0x03, 0x00, 0x00, 0x00, 0x04, 0x00, 0x00, 0x00, 0x00, 0x00, 0x00, 0x00,
   0x01, 0xF0, 0x00, 0x00, 0x00, 0x00, 0x00, 0x00, 0x02, 0xF0, 0x00, 0x00, 0x00, 0x00, 0x00, 0x00,
   0x03, 0xF0, 0x00, 0x00, 0x00, 0x00, 0x00, 0x00, 0x04, 0xF0, 0x00, 0x00, 0x00, 0x00, 0x00, 0x00,
   0xC9, 0x40, 0x65, 0x00, 0x00, 0x65, 0x40, 0xC9]

/-- The user's type of src/parse.rs:40-95, parsed from what `parse_metadata` returns. -/
def customSample : P Cursor (U64 × U32 × U32 × List U64 × U64) := do
  let ip ← parseU64
  let pid ← parseU32
  let tid ← parseU32
  let len ← parseU64
  let callstack ← P.repeated 8 parseU64 len.toNat
  let cgroup ← parseU64
  pure (ip, pid, tid, callstack, cgroup)

example : (match (P.metadata (Parser.new ⟨0, bs docSample⟩
      (ParseConfig.ofAttr (Endian.little .little) .little {}) : Parser Slice)).res with
    | .ok (c, md) =>
      match (customSample c).res with
      | .ok s => decide (md.ty = 9#32 ∧ md.misc = 0#16 ∧
          s = (0x3C2B1A9948331210#64, 2#32, 3#32, [0xF001#64, 0xF002#64, 0xF003#64, 0xF004#64], 0xC9406500006540C9#64))
      | .error _ => false
    | .error _ => false) = true := by decide +kernel

/-! ## Regression tests (tests/regression.rs, tests/fuzz.rs): no panic, no endless loop, no request above 4 MiB -/

/-- What `LimitAlloc` and the test harness check. -/
def quiet {α : Type} (o : Out Slice α) : Bool :=
  o.log.all (· < 4 * 1024 * 1024) &&
  match o.res with
  | .error .panic => false
  | .error .diverge => false
  | _ => true

/-- `fuzz_test`, tests/regression.rs:37-41. -/
def fuzzTest (l : List Nat) : Bool := quiet (Fuzz.basic .little 0 (bs l))

/-- `fuzz_with_config`, tests/regression.rs:43-54. -/
def fuzzWithConfig (l : List Nat) : Bool := quiet (Fuzz.withConfig .little 0 (bs l))

example : fuzzTest [0, 0, 0, 0, 0, 0, 0, 0] = true := by decide +kernel
example : fuzzTest [9, 0, 0, 0, 0, 251, 85, 182, 246] = true := by decide +kernel
example : fuzzTest [16, 0, 0, 0, 0, 180, 8, 69, 86, 81, 0, 180, 180, 8] = true := by decide +kernel

/-- `buffer_smaller_than_sample_id_len` -/
example : fuzzWithConfig
    [224, 115, 115, 93, 115, 115, 115, 115, 115, 115, 115, 115, 115, 115, 115, 115, 255, 255,
     255, 255, 255, 255, 255, 255, 255, 255, 255, 255, 255, 255, 255, 255, 255, 255, 255, 255,
     115, 115, 115, 115, 19, 0, 0, 0, 0, 0, 0, 0, 115, 115, 115, 115, 135, 135, 135, 135, 135,
     135, 135, 135, 115, 115, 115, 115, 135, 131, 120, 135, 255, 0, 0, 115, 115, 115, 115, 115,
     115, 115, 115, 115, 115] = true := by decide +kernel
/-- `oversize_alloc` -/
example : fuzzWithConfig
    [214, 115, 91, 93, 115, 141, 140, 140, 148, 115, 115, 115, 115, 115, 115, 115, 145, 115,
     115, 255, 255, 255, 255, 255, 255, 255, 255, 1, 0, 0, 0, 255, 255, 255, 9, 0, 0, 0, 115,
     115, 115, 115, 115, 115, 115, 107, 114, 115, 115, 115, 255, 135, 135, 1, 0, 0, 0, 135, 135,
     135, 0, 0, 0, 0, 0, 0, 0, 0, 0, 0, 0, 0, 0, 0, 0, 0, 0, 0, 224, 115, 115, 93, 115, 0, 0,
     115, 115, 115, 115, 115, 114, 115, 40, 115, 115, 115, 255, 255, 255, 0, 0, 0, 0, 0, 0, 0,
     0, 255, 255, 255, 255, 255, 255, 255, 255, 255, 255, 255, 255, 1, 0, 0, 0, 255, 255, 255,
     9, 0, 0, 0, 0, 0, 0, 0, 255, 255, 255, 255, 255, 115, 255, 255, 255, 255, 255, 255, 255,
     255, 255, 115, 255, 255, 38, 255, 255, 255, 1] = true := by decide +kernel
/-- `bad_group` -/
example : fuzzWithConfig
    [214, 115, 91, 93, 115, 115, 115, 115, 59, 115, 115, 115, 115, 115, 115, 115, 23, 0, 0, 0,
     0, 0, 0, 0, 0, 115, 115, 122, 115, 115, 115, 255, 135, 135, 9, 0, 0, 0, 135, 0, 0, 189, 0,
     115] = true := by decide +kernel
/-- `oversize_read_group` -/
example : fuzzWithConfig
    [214, 115, 91, 93, 115, 255, 255, 255, 255, 115, 115, 115, 115, 115, 145, 135, 9, 0, 0, 0,
     135, 255, 115, 135, 0, 0, 0, 115, 16, 115, 123, 255, 135, 135, 9, 0, 0, 0, 0, 0, 115, 16,
     115] = true := by decide +kernel

/-- `fuzz_test_1`, tests/fuzz.rs:32-45. -/
example : ((Fuzz.withAttr .little 0 (bs
    [224, 115, 115, 93, 115, 115, 115, 115, 115, 115, 115, 115, 115, 115, 115, 115, 115, 115,
     115, 115, 115, 115, 115, 59, 115, 115, 115, 115, 115, 115, 115, 115, 130, 115, 255, 255,
     255, 255, 255, 255, 255, 255, 255, 255, 255, 255, 255, 255, 255, 255, 255, 255, 255, 255,
     255, 255, 255, 255, 255, 255, 255, 255, 255, 255, 255, 255, 255, 255, 255, 255, 255, 255,
     255, 255, 255, 197, 197, 197, 197, 197, 197, 255, 255, 255, 255, 38, 255, 255, 255, 255,
     224, 115, 115, 93, 115, 115, 115, 115, 115, 115, 115, 115, 115, 115, 115, 115, 115, 115,
     115, 115, 255, 255, 255, 115, 115, 115, 115, 115, 115, 115, 115, 115, 115, 115, 115, 115,
     115, 115, 115, 115, 255, 255, 255, 255, 255, 255, 255, 255, 115, 115, 115])).map quiet) = some true := by decide +kernel

end Perf.Vectors
