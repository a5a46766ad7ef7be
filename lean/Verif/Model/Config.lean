import Verif.Model.Endian
import Verif.Model.Flags
/-!
# `src/config.rs`
-/
namespace Perf

/-! `ConfigFlags`, src/config.rs:9-108 (a `bitflags` struct over one `u64`). All 64 bits are covered by the
declared flags, so `bitflags`' truncating `!` is the plain complement. -/
namespace ConfigFlags

/-- `READ_FORMAT_WIDTH`, src/config.rs:35: `(PERF_FORMAT_MAX - 1).count_ones() + 1`. -/
def READ_FORMAT_WIDTH : Nat := popcount (PERF_FORMAT_MAX - 1#64) + 1
/-- `SAMPLE_TYPE_WIDTH`, src/config.rs:36 (used by a test only, src/config.rs:265-268). -/
def SAMPLE_TYPE_WIDTH : Nat := popcount (PERF_SAMPLE_MAX - 1#64)
/-- `MISC_OFFSET`, src/config.rs:42. -/
def MISC_OFFSET : Nat := 64 - 16
/-- `SAMPLE_TYPE_OFFSET`, src/config.rs:39. -/
def SAMPLE_TYPE_OFFSET : Nat := READ_FORMAT_WIDTH
/-- `BRANCH_HW_INDEX_OFFSET`, src/config.rs:41. -/
def BRANCH_HW_INDEX_OFFSET : Nat := MISC_OFFSET - 1
/-- `SAMPLE_ID_ALL_OFFSET`, src/config.rs:40. -/
def SAMPLE_ID_ALL_OFFSET : Nat := BRANCH_HW_INDEX_OFFSET - 1

/-- src/config.rs:20. -/
def READ_FORMAT : U64 := (1#64 <<< READ_FORMAT_WIDTH) - 1#64
/-- src/config.rs:23. -/
def SAMPLE_ID_ALL : U64 := 1#64 <<< 46
/-- src/config.rs:24. -/
def BRANCH_HW_INDEX : U64 := 1#64 <<< 47
/-- src/config.rs:21. -/
def SAMPLE_TYPE : U64 := (BitVec.allOnes 64 <<< READ_FORMAT_WIDTH) &&& (SAMPLE_ID_ALL - 1#64)
/-- src/config.rs:25. -/
def MISC : U64 := BitVec.allOnes 64 <<< MISC_OFFSET

/-- `ConfigFlags::read_format`, src/config.rs:66-68 (`READ_FORMAT_OFFSET` is 0). -/
def readFormat (f : U64) : U64 := (f &&& READ_FORMAT) >>> 0

/-- `ConfigFlags::sample_type`, src/config.rs:70-74. -/
def sampleType (f : U64) : U64 := (f &&& SAMPLE_TYPE) >>> SAMPLE_TYPE_OFFSET

/-- `ConfigFlags::sample_id_all`, src/config.rs:76-78. -/
def sampleIdAll (f : U64) : Bool := contains f SAMPLE_ID_ALL

/-- `ConfigFlags::branch_hw_index`, src/config.rs:80-82. -/
def branchHwIndex (f : U64) : Bool := contains f BRANCH_HW_INDEX

/-- `ConfigFlags::misc`, src/config.rs:84-86. -/
def misc (f : U64) : U16 := ((f &&& MISC) >>> MISC_OFFSET).setWidth 16

/-- `ConfigFlags::set_misc`, src/config.rs:88-91. -/
def setMisc (f : U64) (m : U16) : U64 := (f &&& ~~~ MISC) ||| (m.setWidth 64 <<< MISC_OFFSET)

/-- `ConfigFlags::set_sample_type`, src/config.rs:93-97. -/
def setSampleType (f : U64) (s : U64) : U64 :=
  (f &&& ~~~ SAMPLE_TYPE) ||| ((s <<< SAMPLE_TYPE_OFFSET) &&& SAMPLE_TYPE)

/-- `ConfigFlags::set_read_format`, src/config.rs:99-107. -/
def setReadFormat (f : U64) (r : U64) : U64 :=
  ((f &&& ~~~ READ_FORMAT) ||| ((r <<< 0) &&& READ_FORMAT)) |||
    ((if r >>> READ_FORMAT_WIDTH ≠ 0#64 then 1#64 else 0#64) <<< (0 + READ_FORMAT_WIDTH - 1))

/-- `ConfigFlags::new`, src/config.rs:46-64. -/
def new (readFormat sampleType : U64) (sampleIdAll branchHwIndex : Bool) (misc : U16) : U64 :=
  let bits := (0#64 ||| ((if sampleIdAll then 1#64 else 0#64) <<< SAMPLE_ID_ALL_OFFSET) |||
    ((if branchHwIndex then 1#64 else 0#64) <<< BRANCH_HW_INDEX_OFFSET)) |||
    (misc.setWidth 64 <<< MISC_OFFSET)
  setMisc (setSampleType (setReadFormat bits readFormat) sampleType) misc

end ConfigFlags

/-- `RawParseConfig`, src/config.rs:112-116. -/
structure RawParseConfig where
  configFlags : U64
  sampleRegsUser : U64
  sampleRegsIntr : U64
deriving DecidableEq, Repr

/-- `ParseConfig<E>`, src/config.rs:120-123. `host` is not a Rust field: it is the byte order of the machine
running the program, kept here because `parse_slice_direct` depends on it. -/
structure ParseConfig where
  config : RawParseConfig
  endian : Endian
  host : Order

namespace ParseConfig

/-- `read_format`, src/config.rs:157-159. -/
def readFormat (c : ParseConfig) : U64 := ConfigFlags.readFormat c.config.configFlags
/-- `sample_type`, src/config.rs:163-165. -/
def sampleType (c : ParseConfig) : U64 := ConfigFlags.sampleType c.config.configFlags
/-- `regs_user`, src/config.rs:169-171. -/
def regsUser (c : ParseConfig) : U64 := c.config.sampleRegsUser
/-- `regs_intr`, src/config.rs:179-181. -/
def regsIntr (c : ParseConfig) : U64 := c.config.sampleRegsIntr
/-- `sample_id_all`, src/config.rs:183-185. -/
def sampleIdAll (c : ParseConfig) : Bool := ConfigFlags.sampleIdAll c.config.configFlags
/-- `branch_hw_index`, src/config.rs:187-189. -/
def branchHwIndex (c : ParseConfig) : Bool := ConfigFlags.branchHwIndex c.config.configFlags
/-- `misc`, src/config.rs:191-193. -/
def misc (c : ParseConfig) : U16 := ConfigFlags.misc c.config.configFlags

/-- `with_endian`, src/config.rs:127-132. -/
def withEndian (c : ParseConfig) (e : Endian) : ParseConfig := { c with endian := e }

/-- `with_misc`, src/config.rs:148-151. -/
def withMisc (c : ParseConfig) (m : U16) : ParseConfig :=
  { c with config := { c.config with configFlags := ConfigFlags.setMisc c.config.configFlags m } }

/-- `with_sample_type`, src/config.rs:136-139 (crate-internal). -/
def withSampleType (c : ParseConfig) (s : U64) : ParseConfig :=
  { c with config := { c.config with configFlags := ConfigFlags.setSampleType c.config.configFlags s } }

/-- `with_read_format`, src/config.rs:143-146 (crate-internal). -/
def withReadFormat (c : ParseConfig) (r : U64) : ParseConfig :=
  { c with config := { c.config with configFlags := ConfigFlags.setReadFormat c.config.configFlags r } }

/-- `ParseConfig::default()` (derived, src/config.rs:119): all flags zero. -/
def default (e : Endian) (host : Order) : ParseConfig :=
  { config := ⟨0, 0, 0⟩, endian := e, host := host }

end ParseConfig

end Perf
