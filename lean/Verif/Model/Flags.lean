import Verif.Model.Basic
/-!
# `src/flags.rs` and the constants of `perf_event_open_sys::bindings` the crate uses

The constant values are those of the kernel's `include/uapi/linux/perf_event.h` (the crate gets them from
`perf-event-open-sys2`, which is generated from that header).
-/
namespace Perf

/-- `bitflags`' `contains`: all bits of `b` are set in `a`. -/
def contains {w : Nat} (a b : BitVec w) : Bool := (a &&& b) == b

/-- Number of one bits (`count_ones`). -/
def popcount {w : Nat} (x : BitVec w) : Nat := ((List.range w).filter (fun i => x.getLsbD i)).length

/-! `SampleFlags`, src/flags.rs:18-47; `PERF_SAMPLE_*`. -/
namespace SampleFlags
def IP : U64 := 1#64 <<< 0
def TID : U64 := 1#64 <<< 1
def TIME : U64 := 1#64 <<< 2
def ADDR : U64 := 1#64 <<< 3
def READ : U64 := 1#64 <<< 4
def CALLCHAIN : U64 := 1#64 <<< 5
def ID : U64 := 1#64 <<< 6
def CPU : U64 := 1#64 <<< 7
def PERIOD : U64 := 1#64 <<< 8
def STREAM_ID : U64 := 1#64 <<< 9
def RAW : U64 := 1#64 <<< 10
def BRANCH_STACK : U64 := 1#64 <<< 11
def REGS_USER : U64 := 1#64 <<< 12
def STACK_USER : U64 := 1#64 <<< 13
def WEIGHT : U64 := 1#64 <<< 14
def DATA_SRC : U64 := 1#64 <<< 15
def IDENTIFIER : U64 := 1#64 <<< 16
def TRANSACTION : U64 := 1#64 <<< 17
def REGS_INTR : U64 := 1#64 <<< 18
def PHYS_ADDR : U64 := 1#64 <<< 19
def AUX : U64 := 1#64 <<< 20
def CGROUP : U64 := 1#64 <<< 21
def DATA_PAGE_SIZE : U64 := 1#64 <<< 22
def CODE_PAGE_SIZE : U64 := 1#64 <<< 23
def WEIGHT_STRUCT : U64 := 1#64 <<< 24
end SampleFlags

/-! `ReadFormat`, src/flags.rs:59-75; `PERF_FORMAT_*`. -/
namespace ReadFormat
def TOTAL_TIME_ENABLED : U64 := 1#64 <<< 0
def TOTAL_TIME_RUNNING : U64 := 1#64 <<< 1
def ID : U64 := 1#64 <<< 2
def GROUP : U64 := 1#64 <<< 3
def LOST : U64 := 1#64 <<< 4

/-- `ReadFormat::all()`: the union of the declared flags. -/
def all : U64 := TOTAL_TIME_ENABLED ||| TOTAL_TIME_RUNNING ||| ID ||| GROUP ||| LOST

/-- `a - b` on flags (`bitflags` `difference`). -/
def diff (a b : U64) : U64 := a &&& ~~~ b

/-- `ReadFormat::element_len`, src/flags.rs:92-94. -/
def elementLen (rf : U64) : Nat := 1 + popcount (rf &&& (ID ||| LOST))
end ReadFormat

/-- `PERF_SAMPLE_BRANCH_HW_INDEX`. -/
def PERF_SAMPLE_BRANCH_HW_INDEX : U64 := 1#64 <<< 17
/-- `PERF_FORMAT_MAX`. -/
def PERF_FORMAT_MAX : U64 := 1#64 <<< 5
/-- `PERF_SAMPLE_MAX`. -/
def PERF_SAMPLE_MAX : U64 := 1#64 <<< 25
/-- `PERF_RECORD_MISC_MMAP_BUILD_ID`. -/
def MISC_MMAP_BUILD_ID : U16 := 1#16 <<< 14
/-- `PERF_RECORD_MISC_SWITCH_OUT`. -/
def MISC_SWITCH_OUT : U16 := 1#16 <<< 13

end Perf
