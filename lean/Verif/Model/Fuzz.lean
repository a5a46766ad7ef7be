import Verif.Model.Attr
import Verif.Model.Heap
/-!
# The fuzz targets and the functions of the regression tests

`fuzz/fuzz_targets/*.rs`, `tests/regression.rs`, `tests/fuzz.rs`, and the `Arbitrary` implementations behind them
(feature `arbitrary`). The crate `arbitrary` itself is modelled from its source: an integer takes its bytes, little endian, from the front of
the data, with zeros for the missing ones, and never fails; a derived implementation takes the fields in order.
-/
namespace Perf

/-- `u64::arbitrary` (crate `arbitrary`): the value and what is left of the data. -/
def arbitraryU64 (u : List Byte) : U64 × List Byte :=
  (fromLE 64 (u.take 8 ++ List.replicate (8 - u.length) 0#8), u.drop 8)

/-- `RawParseConfig::arbitrary`, derived (src/config.rs:111); `ConfigFlags::arbitrary`, src/config.rs:258-262, keeps all bits. -/
def RawParseConfig.arbitrary (u : List Byte) : RawParseConfig × List Byte :=
  let (configFlags, u) := arbitraryU64 u
  let (sampleRegsUser, u) := arbitraryU64 u
  let (sampleRegsIntr, u) := arbitraryU64 u
  ({ configFlags, sampleRegsUser, sampleRegsIntr }, u)

/-- `ParseConfig::<E>::arbitrary`, src/config.rs:249-256, with `E::default() = e`. -/
def ParseConfig.arbitrary (e : Endian) (host : Order) (u : List Byte) : ParseConfig × List Byte :=
  let (config, u) := RawParseConfig.arbitrary u
  ({ config, endian := e, host }, u)

/-- A `perf_event_attr` as it lies in memory, 136 bytes (bindings; the layout of linux/perf_event.h). -/
def Attr.ofMemory (host : Order) (bs : List Byte) : Attr where
  type_ := fromOrder host 32 (bs.take 4)
  size := fromOrder host 32 ((bs.drop 4).take 4)
  config := fromOrder host 64 ((bs.drop 8).take 8)
  samplePeriod := fromOrder host 64 ((bs.drop 16).take 8)
  sampleType := fromOrder host 64 ((bs.drop 24).take 8)
  readFormat := fromOrder host 64 ((bs.drop 32).take 8)
  flags := fromOrder host 64 ((bs.drop 40).take 8)
  wakeupEvents := fromOrder host 32 ((bs.drop 48).take 4)
  bpType := fromOrder host 32 ((bs.drop 52).take 4)
  config1 := fromOrder host 64 ((bs.drop 56).take 8)
  config2 := fromOrder host 64 ((bs.drop 64).take 8)
  branchSampleType := fromOrder host 64 ((bs.drop 72).take 8)
  sampleRegsUser := fromOrder host 64 ((bs.drop 80).take 8)
  sampleStackUser := fromOrder host 32 ((bs.drop 88).take 4)
  clockid := fromOrder host 32 ((bs.drop 92).take 4)
  sampleRegsIntr := fromOrder host 64 ((bs.drop 96).take 8)
  auxWatermark := fromOrder host 32 ((bs.drop 104).take 4)
  sampleMaxStack := fromOrder host 16 ((bs.drop 108).take 2)
  auxSampleSize := fromOrder host 32 ((bs.drop 112).take 4)
  sigData := fromOrder host 64 ((bs.drop 120).take 8)
  config3 := fromOrder host 64 ((bs.drop 128).take 8)

namespace Fuzz

/-- `ParseVisitor`, fuzz/fuzz_targets/fuzz_record_basic.rs:14-20, fuzz_record.rs:19-25, tests/regression.rs:7-13, tests/fuzz.rs:7-13. -/
def visitor : Visitor Cow Unit := { unimplemented := fun _ => .ok () }

/-- The fuzz target `fuzz_record_basic`, fuzz/fuzz_targets/fuzz_record_basic.rs:8-12, and `fuzz_test`, tests/regression.rs:37-41, on the
data at address `addr`. -/
def basic (host : Order) (addr : Nat) (data : List Byte) : Out Slice Unit :=
  Heap.record visitor (Parser.new ⟨addr, data⟩ (.default (.little host) host))

/-- The fuzz target `fuzz_record`, fuzz/fuzz_targets/fuzz_record.rs:9-17, and `fuzz_with_config`, tests/regression.rs:44-54.
(`ParseConfig::arbitrary` does not fail.) -/
def withConfig (host : Order) (addr : Nat) (data : List Byte) : Out Slice Unit :=
  let (config, rest) := ParseConfig.arbitrary (.little host) host data
  Heap.record visitor (Parser.new ⟨addr + (data.length - rest.length), rest⟩ config)

/-- `fuzz_test`, tests/fuzz.rs:6-30; `none` is the early return. -/
def withAttr (host : Order) (addr : Nat) (data : List Byte) : Option (Out Slice Unit) :=
  if data.length < 136 then none
  else
    let attr := Attr.ofMemory host (data.take 136)
    some (Heap.record visitor (Parser.new ⟨addr + 136, data.drop 136⟩ (.ofAttr (.native host) host attr)))

/-- `LimitAlloc::MAX_SIZE`, tests/regression.rs:19: the tests fail if a larger piece of memory is requested. (`GlobalAlloc::realloc` is not
overridden there, so a vector that grows comes by `alloc` as well.) -/
def limit : Nat := 4 * 1024 * 1024

end Fuzz
end Perf
