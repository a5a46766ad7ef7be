import Verif.Model.Config
/-!
# The parts of a configuration that a record of a given type depends on

Two configurations that agree on these parts are to have the same effect (C66). The bits of `sample_type` are numbered as in
`linux/perf_event.h`: 1 TID, 2 TIME, 4 READ, 6 ID, 7 CPU, 9 STREAM_ID, 11 BRANCH_STACK, 12 REGS_USER, 16 IDENTIFIER, 18 REGS_INTR.
-/
namespace Perf

/-- What the trailer depends on: nothing if there are no trailers, and otherwise the bits of `sample_type` that put a field in it. -/
structure TrailerAgree (c d : ParseConfig) : Prop where
  all : c.sampleIdAll = d.sampleIdAll
  bits : c.sampleIdAll = true → ∀ i ∈ [1, 2, 6, 7, 9, 16], c.sampleType.getLsbD i = d.sampleType.getLsbD i

/-- What a SAMPLE body depends on: bits 0 to 23 of `sample_type`, and for those with a variable layout its description. -/
structure SampleAgree (c d : ParseConfig) : Prop where
  bits : ∀ i < 24, c.sampleType.getLsbD i = d.sampleType.getLsbD i
  read : c.sampleType.getLsbD 4 = true → c.readFormat = d.readFormat
  branch : c.sampleType.getLsbD 11 = true → c.branchHwIndex = d.branchHwIndex
  user : c.sampleType.getLsbD 12 = true → c.regsUser = d.regsUser
  intr : c.sampleType.getLsbD 18 = true → c.regsIntr = d.regsIntr

/-- Both sides turn bytes into integers in the same way. -/
structure SameInts (c d : ParseConfig) : Prop where
  conv16 : c.endian.conv16 = d.endian.conv16
  conv32 : c.endian.conv32 = d.endian.conv32
  conv64 : c.endian.conv64 = d.endian.conv64

/-- Both sides take the data to be in the byte order of the host, or neither, on hosts of the same kind. -/
structure SameNative (c d : ParseConfig) : Prop where
  isNative : c.endian.isNative = d.endian.isNative
  host : c.host = d.host

/-- Records of this type contain lists, which may be lent to the user without being read item by item: NAMESPACES, and a SAMPLE
with a callchain (bit 5), branches (11), registers (12, 18) or the values of a group (4, with bit 3 of the read format). -/
def HasLists (ty : Nat) (c : ParseConfig) : Prop :=
  ty = 16 ∨ ty = 9 ∧ (c.sampleType.getLsbD 5 = true ∨ c.sampleType.getLsbD 11 = true ∨ c.sampleType.getLsbD 12 = true ∨
    c.sampleType.getLsbD 18 = true ∨ c.sampleType.getLsbD 4 = true ∧ c.readFormat.getLsbD 3 = true)

/-- What a body of type `ty` depends on. Two types depend on a bit of the header's `misc`: MMAP2 on `MMAP_BUILD_ID` (14) and
SWITCH_CPU_WIDE on `SWITCH_OUT` (13). -/
structure BodyAgree (ty : Nat) (c d : ParseConfig) : Prop where
  ints : SameInts c d
  native : HasLists ty c → SameNative c d
  detail : ty = 10 → c.misc.getLsbD 14 = d.misc.getLsbD 14
  out : ty = 15 → c.misc.getLsbD 13 = d.misc.getLsbD 13
  read : ty = 8 → c.readFormat = d.readFormat
  sample : ty = 9 → SampleAgree c d

/-- What a record of type `ty` depends on. -/
structure Agree (ty : Nat) (c d : ParseConfig) : Prop where
  ints : SameInts c d
  native : HasLists ty c → SameNative c d
  read : ty = 8 → c.readFormat = d.readFormat
  sample : ty = 9 → SampleAgree c d
  trailer : ¬ (ty = 1 ∨ ty = 9) → TrailerAgree c d

end Perf
