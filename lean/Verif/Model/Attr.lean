import Verif.Model.Sample
/-!
# `src/impls/perf_event_attr.rs` and `From<perf_event_attr> for ParseConfig`
-/
namespace Perf
open ParserM

/-- `perf_event_attr` (bindings): the fields the parser fills; unions are one field, `flags` is the `u64` bit field. -/
structure Attr where
  type_ : U32 := 0#32
  size : U32 := 0#32
  config : U64 := 0#64
  samplePeriod : U64 := 0#64
  sampleType : U64 := 0#64
  readFormat : U64 := 0#64
  flags : U64 := 0#64
  wakeupEvents : U32 := 0#32
  bpType : U32 := 0#32
  config1 : U64 := 0#64
  config2 : U64 := 0#64
  branchSampleType : U64 := 0#64
  sampleRegsUser : U64 := 0#64
  sampleStackUser : U32 := 0#32
  clockid : U32 := 0#32
  sampleRegsIntr : U64 := 0#64
  auxWatermark : U32 := 0#32
  sampleMaxStack : U16 := 0#16
  auxSampleSize : U32 := 0#32
  sigData : U64 := 0#64
  config3 : U64 := 0#64
deriving DecidableEq, Repr

namespace Attr
/-- `PERF_ATTR_SIZE_VER0` … `PERF_ATTR_SIZE_VER8` (bindings). -/
def VER0 : Nat := 64
def VER1 : Nat := 72
def VER2 : Nat := 80
def VER3 : Nat := 96
def VER4 : Nat := 104
def VER5 : Nat := 112
def VER6 : Nat := 120
def VER7 : Nat := 128
def VER8 : Nat := 136
/-- The sizes accepted by the `match`, src/impls/perf_event_attr.rs:25-42. -/
def sizeOk (n : Nat) : Bool :=
  n == VER0 || n == VER1 || n == VER2 || n == VER3 || n == VER4 || n == VER5 || n == VER6 || n == VER7 || n == VER8 ||
    decide (n > VER8)
end Attr

section
variable {M : Type → Type} {C : Type → Type} [ParserM M C]

/-- src/impls/perf_event_attr.rs:46-55 -/
def attrVer0 (a : Attr) : M Attr := do
  let config ← parseU64
  let samplePeriod ← parseU64
  let sampleType ← parseU64
  let readFormat ← parseU64
  let flags ← parseU64
  let wakeupEvents ← parseU32
  let bpType ← parseU32
  let config1 ← parseU64
  pure { a with config, samplePeriod, sampleType, readFormat, flags, wakeupEvents, bpType, config1 }

/-- src/impls/perf_event_attr.rs:57-59 -/
def attrVer1 (a : Attr) : M Attr := do
  let config2 ← parseU64
  pure { a with config2 }

/-- src/impls/perf_event_attr.rs:61-63 -/
def attrVer2 (a : Attr) : M Attr := do
  let branchSampleType ← parseU64
  pure { a with branchSampleType }

/-- src/impls/perf_event_attr.rs:65-69 -/
def attrVer3 (a : Attr) : M Attr := do
  let sampleRegsUser ← parseU64
  let sampleStackUser ← parseU32
  let clockid ← parseU32
  pure { a with sampleRegsUser, sampleStackUser, clockid }

/-- src/impls/perf_event_attr.rs:71-73 -/
def attrVer4 (a : Attr) : M Attr := do
  let sampleRegsIntr ← parseU64
  pure { a with sampleRegsIntr }

/-- src/impls/perf_event_attr.rs:75-79 -/
def attrVer5 (a : Attr) : M Attr := do
  let auxWatermark ← parseU32
  let sampleMaxStack ← parseU16
  let _ ← parseU16
  pure { a with auxWatermark, sampleMaxStack }

/-- src/impls/perf_event_attr.rs:81-84 -/
def attrVer6 (a : Attr) : M Attr := do
  let auxSampleSize ← parseU32
  let _ ← parseU32
  pure { a with auxSampleSize }

/-- src/impls/perf_event_attr.rs:86-88 -/
def attrVer7 (a : Attr) : M Attr := do
  let sigData ← parseU64
  pure { a with sigData }

/-- src/impls/perf_event_attr.rs:90-92 -/
def attrVer8 (a : Attr) : M Attr := do
  let config3 ← parseU64
  pure { a with config3 }

/-- src/impls/perf_event_attr.rs:94-107 -/
def attrTail (a : Attr) : M Attr := do
  let r ← rest
  if (elems M r).all (· == 0#8) then pure a
  else fail (.custom .unsupportedData ("serialized perf_event_attr contains fields not supported " ++
    "by this version of perf-event-data"))

/-- One `if attr.size >= …` block. -/
def attrStep (cond : Bool) (f : Attr → M Attr) (a : Attr) : M Attr :=
  match cond with
  | true => f a
  | false => pure a

/-- The known fields, src/impls/perf_event_attr.rs:46-92. -/
def attrHead (type_ size : U32) : M Attr := do
  let n := size.toNat
  let a : Attr := { type_, size }
  let a ← attrStep (decide (n ≥ Attr.VER0)) attrVer0 a
  let a ← attrStep (decide (n ≥ Attr.VER1)) attrVer1 a
  let a ← attrStep (decide (n ≥ Attr.VER2)) attrVer2 a
  let a ← attrStep (decide (n ≥ Attr.VER3)) attrVer3 a
  let a ← attrStep (decide (n ≥ Attr.VER4)) attrVer4 a
  let a ← attrStep (decide (n ≥ Attr.VER5)) attrVer5 a
  let a ← attrStep (decide (n ≥ Attr.VER6)) attrVer6 a
  let a ← attrStep (decide (n ≥ Attr.VER7)) attrVer7 a
  attrStep (decide (n ≥ Attr.VER8)) attrVer8 a

/-- The part of the parser that runs on the split off region, src/impls/perf_event_attr.rs:46-109. -/
def attrBody (type_ size : U32) : M Attr := do
  let a ← attrHead type_ size
  attrStep (decide (size.toNat > Attr.VER8)) attrTail a

end

/-- `Parse for perf_event_attr`, src/impls/perf_event_attr.rs:13-110. The region split off is `size - 4` bytes
long although 8 bytes have been consumed already. -/
def P.parseAttr {β : Type} [ParseBuf β] : P β Attr := do
  let type_ ← parseU32
  let size ← parseU32
  if !Attr.sizeOk size.toNat then
    P.fail (.custom .invalidRecord s!"{size.toNat} is not a valid size for a perf_event_attr struct")
  else do
    let child ← P.splitAt (size.toNat - 4)
    let r ← P.onChild child (attrBody type_ size)
    pure r.1

/-- `attr.sample_id_all()`: bit 18 of the bit field (bindings). -/
def Attr.sampleIdAll (host : Order) (a : Attr) : U64 := bitfield host a.flags 18 1

/-- `From<perf_event_attr> for ParseConfig<E>`, src/config.rs:201-227, with `E::default() = e`. -/
def ParseConfig.ofAttr (e : Endian) (host : Order) (a : Attr) : ParseConfig :=
  { config :=
      { configFlags := ConfigFlags.new a.readFormat a.sampleType (a.sampleIdAll host != 0#64)
          ((a.branchSampleType &&& PERF_SAMPLE_BRANCH_HW_INDEX) != 0#64) 0#16
        sampleRegsUser := a.sampleRegsUser
        sampleRegsIntr := a.sampleRegsIntr }
    endian := e, host := host }

end Perf
