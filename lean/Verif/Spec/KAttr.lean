import Verif.Spec.Kernel
import Verif.Model.Attr
/-!
# The kernel's layout of `perf_event_attr`

From `include/uapi/linux/perf_event.h`: the fields in order, `__reserved_2` and `__reserved_3` included. A caller that
uses an older version of the structure passes the first `size` bytes; one that uses a newer version passes more
bytes, which are zero if the new fields are not used.
-/
namespace Perf

/-- The fields the structure has had since the first version, after `type` and `size`. -/
def kattrFirst (o : Order) (a : Attr) : List Byte :=
  e64 o a.config ++ e64 o a.samplePeriod ++ e64 o a.sampleType ++ e64 o a.readFormat ++ e64 o a.flags ++
  e32 o a.wakeupEvents ++ e32 o a.bpType ++ e64 o a.config1

/-- The 136 bytes of the newest version, with the `size` field `n` and the reserved fields `r2` and `r3`. -/
def kattrFull (o : Order) (a : Attr) (n : Nat) (r2 : U16) (r3 : U32) : List Byte :=
  e32 o a.type_ ++ e32 o (BitVec.ofNat 32 n) ++ kattrFirst o a ++
  e64 o a.config2 ++
  e64 o a.branchSampleType ++
  (e64 o a.sampleRegsUser ++ e32 o a.sampleStackUser ++ e32 o a.clockid) ++
  e64 o a.sampleRegsIntr ++
  (e32 o a.auxWatermark ++ e16 o a.sampleMaxStack ++ e16 o r2) ++
  (e32 o a.auxSampleSize ++ e32 o r3) ++
  e64 o a.sigData ++
  e64 o a.config3

/-- What is passed for a structure of `n` bytes. -/
def kattr (o : Order) (a : Attr) (n : Nat) (r2 : U16) (r3 : U32) : List Byte :=
  (kattrFull o a n r2 r3).take n ++ List.replicate (n - 136) 0#8

/-- The published sizes. -/
def kattrSizes : List Nat := [64, 72, 80, 96, 104, 112, 120, 128, 136]

/-- The fields that end within the first `n` bytes; zero for the others. -/
def Attr.upTo (a : Attr) (n : Nat) : Attr where
  type_ := a.type_
  size := BitVec.ofNat 32 n
  config := a.config
  samplePeriod := a.samplePeriod
  sampleType := a.sampleType
  readFormat := a.readFormat
  flags := a.flags
  wakeupEvents := a.wakeupEvents
  bpType := a.bpType
  config1 := a.config1
  config2 := if 72 ≤ n then a.config2 else 0#64
  branchSampleType := if 80 ≤ n then a.branchSampleType else 0#64
  sampleRegsUser := if 88 ≤ n then a.sampleRegsUser else 0#64
  sampleStackUser := if 92 ≤ n then a.sampleStackUser else 0#32
  clockid := if 96 ≤ n then a.clockid else 0#32
  sampleRegsIntr := if 104 ≤ n then a.sampleRegsIntr else 0#64
  auxWatermark := if 108 ≤ n then a.auxWatermark else 0#32
  sampleMaxStack := if 110 ≤ n then a.sampleMaxStack else 0#16
  auxSampleSize := if 116 ≤ n then a.auxSampleSize else 0#32
  sigData := if 128 ≤ n then a.sigData else 0#64
  config3 := if 136 ≤ n then a.config3 else 0#64

end Perf
