import Verif.Spec.PieceLayout
/-!
# What is wrong with a record

The errors of the crate other than `Eof`, each with the bytes for which it is returned. There are eight messages. Two are about the frame of a
record, the others about its body.
-/
namespace Perf

/-- The parts of a sample in the order in which they are read, by their bits in `sample_type`. -/
def readOrder : List Nat := [16, 0, 1, 2, 3, 6, 9, 7, 8, 4, 5, 10, 11, 12, 13, 14, 15, 17, 18, 19, 21, 22, 23, 20]

/-- `sample_type` without the part `b` and all that come after it. -/
def partsBefore (st : U64) (b : Nat) : U64 := st &&& (readOrder.takeWhile (· != b)).foldl (fun m i => m ||| 1#64 <<< i) 0#64

/-- How many words there are for each counter of a group. -/
def counterWords (rf : U64) : Nat := 1 + (if rf.getLsbD 2 then 1 else 0) + (if rf.getLsbD 4 then 1 else 0)

/-- Messages. -/
def ParseError.tooManyBytes : ParseError := .custom .invalidRecord "array length in bytes larger than usize::MAX"
def ParseError.unknownFlags : ParseError := .custom .unsupportedConfig "read_format contains unsupported flags"

/-- The part `b` of a sample is wrong if these bytes are where it should be. -/
inductive PartWrong (native : Bool) (o : Order) (rf : U64) (hwIndex : Bool) : Nat → List Byte → ParseError → Prop
  /-- Counter values of an unknown format. -/
  | flags (bs : List Byte) : rf.getLsbD 5 = true → PartWrong native o rf hwIndex 4 bs .unknownFlags
  /-- Too many counters to be counted in words. -/
  | group (nr te tr : U64) (tl : List Byte) : rf.getLsbD 5 = false → rf.getLsbD 3 = true → 2 ^ 64 ≤ nr.toNat * counterWords rf →
      PartWrong native o rf hwIndex 4 (e64 o nr ++ opt (rf.getLsbD 0) (e64 o te) ++ opt (rf.getLsbD 1) (e64 o tr) ++ tl)
        (.custom .invalidRecord "number of elements in group read was too large for data type")
  /-- Or in bytes. -/
  | values (nr te tr : U64) (tl : List Byte) : rf.getLsbD 5 = false → rf.getLsbD 3 = true → native = true → nr.toNat * counterWords rf < 2 ^ 64 →
      2 ^ 64 ≤ nr.toNat * counterWords rf * 8 →
      PartWrong native o rf hwIndex 4 (e64 o nr ++ opt (rf.getLsbD 0) (e64 o te) ++ opt (rf.getLsbD 1) (e64 o tr) ++ tl) .tooManyBytes
  | callchain (nr : U64) (tl : List Byte) : native = true → 2 ^ 64 ≤ nr.toNat * 8 → PartWrong native o rf hwIndex 5 (e64 o nr ++ tl) .tooManyBytes
  | branches (nr index : U64) (tl : List Byte) : native = true → 2 ^ 64 ≤ nr.toNat * 24 →
      PartWrong native o rf hwIndex 11 (e64 o nr ++ opt hwIndex (e64 o index) ++ tl) .tooManyBytes
  /-- More of the stack in use than there is of it. -/
  | stack (data : List Byte) (used : U64) (tl : List Byte) : data ≠ [] → data.length < used.toNat →
      PartWrong native o rf hwIndex 13 (e64 o (BitVec.ofNat 64 data.length) ++ data ++ e64 o used ++ tl)
        (.custom .invalidRecord "stack dyn_size was greater than the record size")

/-- A body of the given type is wrong; `w` says where its bytes lie. -/
inductive BodyWrong (o : Order) (cfg : ParseConfig) (misc : U16) (w : Nat → Nat → Option Nat) : Nat → List Byte → ParseError → Prop
  | readGroup (pid tid : U32) (tl : List Byte) : cfg.readFormat.getLsbD 3 = true → BodyWrong o cfg misc w 8 (e32 o pid ++ e32 o tid ++ tl)
      (.custom .unsupportedConfig "attempted to parse a SingleRead with a config that has GROUP set in read_format")
  | readFlags (pid tid : U32) (tl : List Byte) : cfg.readFormat.getLsbD 3 = false → cfg.readFormat.getLsbD 5 = true →
      BodyWrong o cfg misc w 8 (e32 o pid ++ e32 o tid ++ tl) .unknownFlags
  /-- All that comes before is a sample that would be taken if this part and those after it were not asked for. -/
  | sample (b : Nat) (s : KSample) (d : Dropped) (rest : List Byte) (e : ParseError) : cfg.sampleType.getLsbD b = true →
      s.Strewn cfg.endian.isNative o (partsBefore cfg.sampleType b) cfg.readFormat cfg.regsUser cfg.regsIntr cfg.branchHwIndex w d rest →
      PartWrong cfg.endian.isNative o cfg.readFormat cfg.branchHwIndex b rest e →
      BodyWrong o cfg misc w 9 (s.encHeld o (partsBefore cfg.sampleType b) cfg.readFormat cfg.branchHwIndex d ++ rest) e
  | buildId (pid tid : U32) (addr len pgoff : U64) (size r1 : U8) (r2 : U16) (id tl : List Byte) : misc.getLsbD 14 = true → id.length = 20 →
      20 < size.toNat → BodyWrong o cfg misc w 10 (e32 o pid ++ e32 o tid ++ e64 o addr ++ e64 o len ++ e64 o pgoff ++
        (KDetail.buildId size r1 r2 id).enc o ++ tl) (.custom .invalidRecord s!"build_id had invalid length ({size.toNat} > 20)")
  | namespaces (pid tid : U32) (nr : U64) (tl : List Byte) : cfg.endian.isNative = true → 2 ^ 64 ≤ nr.toNat * 16 →
      BodyWrong o cfg misc w 16 (e32 o pid ++ e32 o tid ++ e64 o nr ++ tl) .tooManyBytes

/-- How long the trailer of a record of this type is. -/
def trailerOf (cfg : ParseConfig) (type : U32) : Nat :=
  if cfg.sampleIdAll = true ∧ type.toNat ≠ 1 ∧ type.toNat ≠ 9 then
    8 * ([1, 2, 6, 9, 7, 16].filter fun i => cfg.sampleType.getLsbD i).length
  else 0

/-- The record that the input starts with is wrong. The input is in `pieces`. -/
inductive RecordWrong (o : Order) (cfg : ParseConfig) (pieces : List Chunk) : ParseError → Prop
  | size (type : U32) (misc size : U16) (tl : List Byte) : pieces.flatMap Chunk.data = e32 o type ++ e16 o misc ++ e16 o size ++ tl → size.toNat < 8 →
      RecordWrong o cfg pieces (.custom .invalidRecord "header size was too small to be valid")
  | trailer (type : U32) (misc size : U16) (tl : List Byte) : pieces.flatMap Chunk.data = e32 o type ++ e16 o misc ++ e16 o size ++ tl →
      8 ≤ size.toNat → size.toNat ≤ 8 + tl.length → size.toNat < 8 + trailerOf cfg type →
      RecordWrong o cfg pieces (.custom .invalidRecord ("config has sample_id_all bit set but record does not have enough data " ++
        "to store the sample_id"))
  | body (type : U32) (misc size : U16) (body trailer tl : List Byte) (e : ParseError) :
      pieces.flatMap Chunk.data = e32 o type ++ e16 o misc ++ e16 o size ++ body ++ trailer ++ tl → trailer.length = trailerOf cfg type →
      size.toNat = 8 + body.length + trailer.length → BodyWrong o cfg misc (bodyLie pieces) type.toNat body e → RecordWrong o cfg pieces e

end Perf
