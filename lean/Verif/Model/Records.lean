import Verif.Model.ParserM
/-!
# `src/records/*.rs` except `read.rs` and `sample.rs`

Structures that hold `Cow` data are parametrised by the container `C` (`Cow` in the Rust code).
-/
namespace Perf
open ParserM

/-! ## Data types -/

/-- `Mmap`, src/records/mmap.rs:15-45. -/
structure Mmap (C : Type → Type) where
  pid : U32
  tid : U32
  addr : U64
  len : U64
  pgoff : U64
  filename : C Byte

/-- `Lost`, src/records/lost.rs:8-14. -/
structure Lost where
  id : U64
  lost : U64
deriving DecidableEq, Repr

/-- `Comm`, src/records/comm.rs:26-37. -/
structure Comm (C : Type → Type) where
  pid : U32
  tid : U32
  comm : C Byte

/-- `Exit` (and `Fork`), src/records/exit.rs:11-17, src/records/mod.rs:54. -/
structure Exit where
  pid : U32
  ppid : U32
  tid : U32
  ptid : U32
  time : U64
deriving DecidableEq, Repr

/-- `Throttle`, src/records/throttle.rs:16-20. -/
structure Throttle where
  time : U64
  id : U64
  streamId : U64
deriving DecidableEq, Repr

/-- `MmapDetail`, src/records/mmap2.rs:62-73. -/
inductive MmapDetail where
  | default (maj min : U32) (ino inoGeneration : U64)
  | buildId (buildId : List Byte) (len : U8)
deriving DecidableEq, Repr

/-- `Mmap2`, src/records/mmap2.rs:21-59. -/
structure Mmap2 (C : Type → Type) where
  pid : U32
  tid : U32
  addr : U64
  len : U64
  pgoff : U64
  prot : U32
  flags : U32
  filename : C Byte
  detail : MmapDetail

/-- `Aux`, src/records/aux_record.rs:14-18 (`AuxFlags` is its bits). -/
structure Aux where
  auxOffset : U64
  auxSize : U64
  flags : U64
deriving DecidableEq, Repr

/-- `ITraceStart`, src/records/itrace_start.rs:11-17. -/
structure ITraceStart where
  pid : U32
  tid : U32
deriving DecidableEq, Repr

/-- `LostSamples`, src/records/lost_samples.rs:11-14. -/
structure LostSamples where
  lost : U64
deriving DecidableEq, Repr

/-- `SwitchCpuWide`, src/records/switch_cpu_wide.rs:20-38. -/
inductive SwitchCpuWide where
  | in (pid tid : U32)
  | out (pid tid : U32)
deriving DecidableEq, Repr

/-- `NamespaceEntry`, src/records/namespaces.rs:34-40. -/
structure NamespaceEntry where
  dev : U64
  inode : U64
deriving DecidableEq, Repr

/-- `Namespaces`, src/records/namespaces.rs:14-29. -/
structure Namespaces (C : Type → Type) where
  pid : U32
  tid : U32
  namespaces : C NamespaceEntry

/-- `KSymbol`, src/records/ksymbol.rs:18-24 (`KSymbolType`, `KSymbolFlags` are their numbers). -/
structure KSymbol (C : Type → Type) where
  addr : U64
  len : U32
  ksymType : U16
  flags : U16
  name : C Byte

/-- `BpfEvent`, src/records/bpf_event.rs:12-17 (`BpfEventType` is its number). -/
structure BpfEvent where
  ty : U16
  flags : U16
  id : U32
  tag : List Byte
deriving DecidableEq, Repr

/-- `CGroup`, src/records/cgroup.rs:13-19. -/
structure CGroup (C : Type → Type) where
  id : U64
  path : C Byte

/-- `TextPoke`, src/records/text_poke.rs:13-22. -/
structure TextPoke (C : Type → Type) where
  addr : U64
  oldBytes : C Byte
  newBytes : C Byte

/-- `AuxOutputHwId`, src/records/aux_output_hw_id.rs:16-19. -/
structure AuxOutputHwId where
  hwId : U64
deriving DecidableEq, Repr

/-- `SampleId`, src/records/mod.rs:56-80; the `option_struct!` storage is modelled in `Model/OptionStruct`, here are
its observable fields. -/
structure SampleId where
  pid : Option U32
  tid : Option U32
  time : Option U64
  id : Option U64
  streamId : Option U64
  cpu : Option U32
deriving DecidableEq, Repr

/-- `SampleId::default()`, src/records/mod.rs:79. -/
def SampleId.default : SampleId := ⟨none, none, none, none, none, none⟩

/-! ## Accessors and conversions -/

namespace Mmap2
variable {C : Type → Type}
/-- src/records/mmap2.rs:96-101 -/
def maj (m : Mmap2 C) : Option U32 := match m.detail with
  | .default maj _ _ _ => some maj
  | _ => none
/-- src/records/mmap2.rs:104-109 -/
def min (m : Mmap2 C) : Option U32 := match m.detail with
  | .default _ min _ _ => some min
  | _ => none
/-- src/records/mmap2.rs:112-117 -/
def ino (m : Mmap2 C) : Option U64 := match m.detail with
  | .default _ _ ino _ => some ino
  | _ => none
/-- src/records/mmap2.rs:120-125 -/
def inoGeneration (m : Mmap2 C) : Option U64 := match m.detail with
  | .default _ _ _ g => some g
  | _ => none
/-- src/records/mmap2.rs:131-136; slicing past the end of the array is the panic `none`. -/
def buildId (m : Mmap2 C) : Option (Option (List Byte)) := match m.detail with
  | .buildId id len => if len.toNat ≤ id.length then some (some (id.take len.toNat)) else none
  | _ => some none
/-- `into_mmap` (and `to_mmap`, `From<Mmap2> for Mmap`), src/records/mmap2.rs:139-154, src/records/mmap.rs:93-97. -/
def intoMmap (m : Mmap2 C) : Mmap C :=
  { pid := m.pid, tid := m.tid, addr := m.addr, len := m.len, pgoff := m.pgoff, filename := m.filename }
end Mmap2

namespace SwitchCpuWide
/-- src/records/switch_cpu_wide.rs:42-46 -/
def pid : SwitchCpuWide → U32
  | .in pid _ => pid
  | .out pid _ => pid
/-- src/records/switch_cpu_wide.rs:49-53 -/
def tid : SwitchCpuWide → U32
  | .in _ tid => tid
  | .out _ tid => tid
end SwitchCpuWide

namespace Namespaces
/-- `NET_NS_INDEX` … `CGROUP_NS_INDEX` of the kernel headers (without `UTS_NS_INDEX` and `MNT_NS_INDEX`, which the code does not use). -/
def NET_NS_INDEX : Nat := 0
def IPC_NS_INDEX : Nat := 2
def PID_NS_INDEX : Nat := 3
def USER_NS_INDEX : Nat := 4
def CGROUP_NS_INDEX : Nat := 6
variable (n : Namespaces Cow)
/-- src/records/namespaces.rs:44-46 -/
def network : Option NamespaceEntry := n.namespaces.data[NET_NS_INDEX]?
/-- src/records/namespaces.rs:49-51 (the code uses `USER_NS_INDEX` here) -/
def uts : Option NamespaceEntry := n.namespaces.data[USER_NS_INDEX]?
/-- src/records/namespaces.rs:54-56 -/
def ipc : Option NamespaceEntry := n.namespaces.data[IPC_NS_INDEX]?
/-- src/records/namespaces.rs:59-61 -/
def pidNs : Option NamespaceEntry := n.namespaces.data[PID_NS_INDEX]?
/-- src/records/namespaces.rs:64-66 -/
def user : Option NamespaceEntry := n.namespaces.data[USER_NS_INDEX]?
/-- src/records/namespaces.rs:69-71 -/
def cgroup : Option NamespaceEntry := n.namespaces.data[CGROUP_NS_INDEX]?
end Namespaces

/-- `AuxFlags::pmu_format_type`, src/records/aux_record.rs:68-70 (`PERF_AUX_FLAG_PMU_FORMAT_TYPE_MASK = 0xff00`). -/
def auxPmuFormatType (flags : U64) : U8 := ((flags &&& 0xff00#64) >>> 8).setWidth 8

/-- `round_up_mod`, src/records/text_poke.rs:76-84 (called with `k = 4`, `m = 8` only). -/
def roundUpMod (v k m : Nat) : Nat :=
  v + (if v % m ≤ k then k - v % m else (k + m) - v % m)

/-! ## `into_owned` -/

/-- src/records/mmap.rs:68-73 -/
def Mmap.intoOwned (m : Mmap Cow) : Mmap Cow := { m with filename := m.filename.intoOwned }
/-- src/records/comm.rs:49-54 -/
def Comm.intoOwned (m : Comm Cow) : Comm Cow := { m with comm := m.comm.intoOwned }
/-- src/records/mmap2.rs:157-162 -/
def Mmap2.intoOwned (m : Mmap2 Cow) : Mmap2 Cow := { m with filename := m.filename.intoOwned }
/-- src/records/ksymbol.rs:28-33 -/
def KSymbol.intoOwned (m : KSymbol Cow) : KSymbol Cow := { m with name := m.name.intoOwned }
/-- src/records/cgroup.rs:33-38 -/
def CGroup.intoOwned (m : CGroup Cow) : CGroup Cow := { m with path := m.path.intoOwned }
/-- `TextPoke::to_owned`, src/records/text_poke.rs:26-32 -/
def TextPoke.toOwned (m : TextPoke Cow) : TextPoke Cow :=
  { m with oldBytes := m.oldBytes.intoOwned, newBytes := m.newBytes.intoOwned }

/-! ## `Parse` implementations -/

/-- `NamespaceEntry` in memory (`repr(C)`, two `u64`), for `parse_slice`. -/
def NamespaceEntry.elem : Elem NamespaceEntry where
  size := 16
  dec conv bs := { dev := conv (bs.take 8), inode := conv (bs.drop 8) }

/-- `u64` in memory, for `parse_slice`. -/
def U64.elem : Elem U64 where
  size := 8
  dec conv bs := conv bs

section
variable {M : Type → Type} {C : Type → Type} [ParserM M C]

/-- src/records/mmap.rs:76-91 -/
def parseMmap : M (Mmap C) := do
  let pid ← parseU32
  let tid ← parseU32
  let addr ← parseU64
  let len ← parseU64
  let pgoff ← parseU64
  let filename ← restTrimNul
  pure { pid, tid, addr, len, pgoff, filename }

/-- src/records/lost.rs:16-27 -/
def parseLost : M Lost := do
  let id ← parseU64
  let lost ← parseU64
  pure { id, lost }

/-- src/records/comm.rs:57-69 -/
def parseComm : M (Comm C) := do
  let pid ← parseU32
  let tid ← parseU32
  let comm ← restTrimNul
  pure { pid, tid, comm }

/-- src/records/exit.rs:19-33 -/
def parseExit : M Exit := do
  let pid ← parseU32
  let ppid ← parseU32
  let tid ← parseU32
  let ptid ← parseU32
  let time ← parseU64
  pure { pid, ppid, tid, ptid, time }

/-- src/records/throttle.rs:22-34 -/
def parseThrottle : M Throttle := do
  let time ← parseU64
  let id ← parseU64
  let streamId ← parseU64
  pure { time, id, streamId }

/-- src/records/mmap2.rs:185-214 -/
def parseMmapDetail : M MmapDetail := do
  let cfg ← config
  if cfg.misc &&& MISC_MMAP_BUILD_ID ≠ 0#16 then do
    let len ← parseU8
    let _ ← parseU8
    let _ ← parseU16
    let buildId ← array 20
    if len.toNat > buildId.length then
      fail (.custom .invalidRecord s!"build_id had invalid length ({len.toNat} > 20)")
    else pure (.buildId buildId len)
  else do
    let maj ← parseU32
    let min ← parseU32
    let ino ← parseU64
    let inoGeneration ← parseU64
    pure (.default maj min ino inoGeneration)

/-- src/records/mmap2.rs:165-183 -/
def parseMmap2 : M (Mmap2 C) := do
  let pid ← parseU32
  let tid ← parseU32
  let addr ← parseU64
  let len ← parseU64
  let pgoff ← parseU64
  let detail ← parseMmapDetail
  let prot ← parseU32
  let flags ← parseU32
  let filename ← restTrimNul
  pure { pid, tid, addr, len, pgoff, prot, flags, filename, detail }

/-- src/records/aux_record.rs:73-95 -/
def parseAux : M Aux := do
  let auxOffset ← parseU64
  let auxSize ← parseU64
  let flags ← parseU64
  pure { auxOffset, auxSize, flags }

/-- src/records/itrace_start.rs:19-30 -/
def parseITraceStart : M ITraceStart := do
  let pid ← parseU32
  let tid ← parseU32
  pure { pid, tid }

/-- src/records/lost_samples.rs:16-24 -/
def parseLostSamples : M LostSamples := do
  let lost ← parseU64
  pure { lost }

/-- src/records/switch_cpu_wide.rs:56-71 -/
def parseSwitchCpuWide : M SwitchCpuWide := do
  let pid ← parseU32
  let tid ← parseU32
  let cfg ← config
  if cfg.misc &&& MISC_SWITCH_OUT ≠ 0#16 then pure (.out pid tid)
  else pure (.in pid tid)

/-- src/records/namespaces.rs:74-85 -/
def parseNamespaceEntry : M NamespaceEntry := do
  let dev ← parseU64
  let inode ← parseU64
  pure { dev, inode }

/-- src/records/namespaces.rs:87-104 -/
def parseNamespaces : M (Namespaces C) := do
  let pid ← parseU32
  let tid ← parseU32
  let len ← parseU64
  let namespaces ← slice NamespaceEntry.elem parseNamespaceEntry len.toNat
  pure { pid, tid, namespaces }

/-- src/records/ksymbol.rs:83-117 -/
def parseKSymbol : M (KSymbol C) := do
  let addr ← parseU64
  let len ← parseU32
  let ksymType ← parseU16
  let flags ← parseU16
  let name ← restTrimNul
  pure { addr, len, ksymType, flags, name }

/-- src/records/bpf_event.rs:41-64 -/
def parseBpfEvent : M BpfEvent := do
  let ty ← parseU16
  let flags ← parseU16
  let id ← parseU32
  let tag ← array 8
  pure { ty, flags, id, tag }

/-- src/records/cgroup.rs:41-52 -/
def parseCGroup : M (CGroup C) := do
  let id ← parseU64
  let path ← restTrimNul
  pure { id, path }

/-- src/records/text_poke.rs:35-63 -/
def parseTextPoke : M (TextPoke C) := do
  let addr ← parseU64
  let oldLen ← parseU16
  let newLen ← parseU16
  let fullLen := roundUpMod (oldLen.toNat + newLen.toNat) 4 8
  let data ← bytes fullLen
  let (oldBytes, newBytes) ← cowSplitAt data oldLen.toNat
  pure { addr, oldBytes, newBytes := cowTruncate M newBytes newLen.toNat }

/-- src/records/aux_output_hw_id.rs:21-29 -/
def parseAuxOutputHwId : M AuxOutputHwId := do
  let hwId ← parseU64
  pure { hwId }

/-- The closure `|p| Ok((p.parse_u32()?, p.parse_u32()?).0)`, src/records/mod.rs:167-169,
src/records/sample.rs:187-189. -/
def parseCpu : M U32 := do
  let cpu ← parseU32
  let _ ← parseU32
  pure cpu

/-- src/records/mod.rs:149-181 -/
def parseSampleId : M SampleId := do
  let cfg ← config
  let sty := cfg.sampleType
  if !cfg.sampleIdAll then pure SampleId.default
  else do
    let pid ← parseIf (contains sty SampleFlags.TID) parseU32
    let tid ← parseIf (contains sty SampleFlags.TID) parseU32
    let time ← parseIf (contains sty SampleFlags.TIME) parseU64
    let id ← parseIf (contains sty SampleFlags.ID) parseU64
    let streamId ← parseIf (contains sty SampleFlags.STREAM_ID) parseU64
    let cpu ← parseIf (contains sty SampleFlags.CPU) parseCpu
    let identifier ← parseIf (contains sty SampleFlags.IDENTIFIER) parseU64
    pure { pid, tid, time, id := id.or identifier, streamId, cpu }

end

/-- `SampleId::estimate_len`, src/records/mod.rs:131-146. -/
def SampleId.estimateLen (cfg : ParseConfig) : Nat :=
  if !cfg.sampleIdAll then 0
  else
    popcount (cfg.sampleType &&& (SampleFlags.TID ||| SampleFlags.TIME ||| SampleFlags.ID |||
      SampleFlags.STREAM_ID ||| SampleFlags.CPU ||| SampleFlags.IDENTIFIER)) * 8

end Perf
