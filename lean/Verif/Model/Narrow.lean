import Verif.Model.Visitor
/-!
# The record parsers on machines with another word size

Elsewhere `usize` has 64 bits and `u64` is aligned to 8 bytes. Here both are parameters (32-bit machines: 32 bits, and
8 bytes on ARM, 4 on x86). Only two record types convert a 64-bit number from the record to `usize`: `SAMPLE` and
`NAMESPACES`; all other code is that of the main model. (`ParseBufCursor::advance` has an overflow check too; the
offsets it adds up stay below the record's size, which is a `u16`, and so below any limit considered here.)
-/
namespace Perf

/-- What depends on the machine. -/
structure Platform where
  /-- `usize::BITS` -/
  bits : Nat
  /-- `align_of::<u64>()` -/
  align : Nat

namespace Platform
/-- The machine of the main model. -/
def wide : Platform := ⟨64, 8⟩
/-- 32-bit ARM, MIPS, PowerPC, RISC-V. -/
def arm32 : Platform := ⟨32, 8⟩
/-- 32-bit x86. -/
def x86 : Platform := ⟨32, 4⟩
/-- One more than `usize::MAX`. -/
def limit (w : Platform) : Nat := 2 ^ w.bits
/-- `x as usize`: the high bits are dropped. -/
def asUsize (w : Platform) (x : U64) : Nat := x.toNat % w.limit
end Platform

section
variable {β : Type} [ParseBuf β] {T O : Type} (w : Platform)

/-- `Parser::parse_slice_direct`, src/parse.rs:441-468. -/
def P.sliceDirectOn (e : Elem T) (len : Nat) : P β (Option (List T)) := do
  let cfg ← P.config
  if !cfg.endian.isNative then pure none
  else if len * e.size ≥ w.limit then
    P.fail (.custom .invalidRecord "array length in bytes larger than usize::MAX")
  else do
    match ← P.bytesDirect (len * e.size) with
    | none => pure none
    | some (addr, bs) =>
      if bs = [] ∨ addr % w.align = 0 then pure (some (e.decodeAll (fromOrder cfg.host 64) len bs))
      else pure none

/-- `Parser::parse_slice`, src/parse.rs:477-485. -/
def P.sliceOn (e : Elem T) (item : P β T) (len : Nat) : P β (Cow T) := do
  match ← P.sliceDirectOn w e len with
  | some s => pure (.borrowed s)
  | none =>
    let v ← P.repeated e.size item len
    pure (.owned v)

/-- `Parse for Namespaces`, src/records/namespaces.rs:87-105. -/
def parseNamespacesOn : P β (Namespaces Cow) := do
  let pid ← parseU32
  let tid ← parseU32
  let len ← parseU64
  let namespaces ← P.sliceOn w NamespaceEntry.elem parseNamespaceEntry (w.asUsize len)
  pure { pid, tid, namespaces }

/-- `Parse for ReadGroup`, src/records/read.rs:399-447. -/
def parseReadGroupOn : P β (ReadGroup Cow) := do
  let cfg ← P.config
  let rf := cfg.readFormat
  if !contains rf ReadFormat.GROUP then
    P.fail (.custom .unsupportedConfig
      "attempted to parse a GroupRead with a config that does not have GROUP set in read_format")
  else if ReadFormat.diff rf ReadFormat.all ≠ 0#64 then
    P.fail (.custom .unsupportedConfig "read_format contains unsupported flags")
  else do
    let nr ← parseU64
    let timeEnabled ← parseIf (contains rf ReadFormat.TOTAL_TIME_ENABLED) parseU64
    let timeRunning ← parseIf (contains rf ReadFormat.TOTAL_TIME_RUNNING) parseU64
    let elementLen := ReadFormat.elementLen rf
    if w.asUsize nr * elementLen ≥ w.limit then
      P.fail (.custom .invalidRecord "number of elements in group read was too large for data type")
    else do
      let data ← P.sliceOn w U64.elem parseU64 (w.asUsize nr * elementLen)
      pure { readFormat := rf, timeEnabled := timeEnabled.getD 0#64, timeRunning := timeRunning.getD 0#64, data }

/-- `Registers::parse`, src/records/sample.rs:353-363. -/
def parseRegistersOn (mask : U64) : P β (Registers Cow) := do
  let abi ← parseU64
  let regs ← P.sliceOn w U64.elem parseU64 (popcount mask)
  pure { abi, mask, regs }

/-- `Registers::parse_user`, src/records/sample.rs:336-342. -/
def parseRegistersUserOn : P β (Registers Cow) := do
  let cfg ← P.config
  parseRegistersOn w cfg.regsUser

/-- `Registers::parse_intr`, src/records/sample.rs:345-351. -/
def parseRegistersIntrOn : P β (Registers Cow) := do
  let cfg ← P.config
  parseRegistersOn w cfg.regsIntr

/-- The `values` closure, src/records/sample.rs:191-197. -/
def parseValuesOn : P β (ReadGroup Cow) := do
  let cfg ← P.config
  if contains cfg.readFormat ReadFormat.GROUP then parseReadGroupOn w
  else do
    let v ← parseReadValue
    pure (ReadGroup.ofValue (P β) v)

/-- The `callchain` closure, src/records/sample.rs:198-201. -/
def parseCallchainOn : P β (Cow U64) := do
  let nr ← parseU64
  P.sliceOn w U64.elem parseU64 (w.asUsize nr)

/-- The `lbr` closure, src/records/sample.rs:208-214. -/
def parseLbrOn (branchHwIndex : Bool) : P β (Cow BranchEntry × Option U64) := do
  let nr ← parseU64
  let hwIndex ← parseIf branchHwIndex parseU64
  let lbr ← P.sliceOn w BranchEntry.elem parseBranchEntry (w.asUsize nr)
  pure (lbr, hwIndex)

/-- `match size { 0 => 0, _ => p.parse_u64()? … }`, src/records/sample.rs:228-231 (`as usize` is left to the caller). -/
def parseDynSizeOn (size : Nat) : P β U64 :=
  if size = 0 then pure 0#64 else parseU64

/-- The `stack_user` closure, src/records/sample.rs:222-246. -/
def parseStackUserOn : P β (Cow Byte) := do
  let size ← parseU64
  let data ← P.bytes (w.asUsize size)
  let dynSize ← parseDynSizeOn (w.asUsize size)
  if w.asUsize dynSize > data.data.length then
    P.fail (.custom .invalidRecord "stack dyn_size was greater than the record size")
  else pure (data.truncate (w.asUsize dynSize))

/-- The `aux` closure, src/records/sample.rs:257-260. -/
def parseAuxDataOn : P β (Cow Byte) := do
  let size ← parseU64
  P.bytes (w.asUsize size)

/-- `Parse for Sample`, src/records/sample.rs:169-290. (`parse_u32()? as _` for raw data loses nothing with 32 bits or
more.) -/
def parseSampleOn : P β (Sample Cow) := do
  let cfg ← P.config
  let sty := cfg.sampleType
  let branchHwIndex := cfg.branchHwIndex
  let identifier ← parseIf (contains sty SampleFlags.IDENTIFIER) parseU64
  let ip ← parseIf (contains sty SampleFlags.IP) parseU64
  let pid ← parseIf (contains sty SampleFlags.TID) parseU32
  let tid ← parseIf (contains sty SampleFlags.TID) parseU32
  let time ← parseIf (contains sty SampleFlags.TIME) parseU64
  let addr ← parseIf (contains sty SampleFlags.ADDR) parseU64
  let id ← parseIf (contains sty SampleFlags.ID) parseU64
  let streamId ← parseIf (contains sty SampleFlags.STREAM_ID) parseU64
  let cpu ← parseIf (contains sty SampleFlags.CPU) parseCpu
  let period ← parseIf (contains sty SampleFlags.PERIOD) parseU64
  let values ← parseIf (contains sty SampleFlags.READ) (parseValuesOn w)
  let callchain ← parseIf (contains sty SampleFlags.CALLCHAIN) (parseCallchainOn w)
  let raw ← parseIf (contains sty SampleFlags.RAW) (P.padded 8 parseRawInner)
  let lbr ← parseIf (contains sty SampleFlags.BRANCH_STACK) (parseLbrOn w branchHwIndex)
  let regsUser ← parseIf (contains sty SampleFlags.REGS_USER) (parseRegistersUserOn w)
  let stackUser ← parseIf (contains sty SampleFlags.STACK_USER) (parseStackUserOn w)
  let weight ← parseIf (contains sty SampleFlags.WEIGHT) parseU64
  let dataSrc ← parseIf (contains sty SampleFlags.DATA_SRC) parseU64
  let transaction ← parseIf (contains sty SampleFlags.TRANSACTION) parseU64
  let regsIntr ← parseIf (contains sty SampleFlags.REGS_INTR) (parseRegistersIntrOn w)
  let physAddr ← parseIf (contains sty SampleFlags.PHYS_ADDR) parseU64
  let cgroup ← parseIf (contains sty SampleFlags.CGROUP) parseU64
  let dataPageSize ← parseIf (contains sty SampleFlags.DATA_PAGE_SIZE) parseU64
  let codePageSize ← parseIf (contains sty SampleFlags.CODE_PAGE_SIZE) parseU64
  let aux ← parseIf (contains sty SampleFlags.AUX) (parseAuxDataOn w)
  pure { ip, pid, tid, time, addr, id := id.or identifier, streamId, cpu, period, values, callchain, raw
         lbrHwIndex := lbr.bind (·.2), lbr := lbr.map (·.1), regsUser, stackUser, weight, dataSrc, transaction
         regsIntr, physAddr, aux, cgroup, dataPageSize, codePageSize }

/-- The `match metadata.ty()` of `Parser::parse_record_impl`, src/parse.rs:569-591. -/
def P.dispatchOn (v : Visitor Cow O) (md : Metadata) : P β O :=
  match md.ty.toNat with
  | 9 => do let r ← parseSampleOn w; P.ofExcept (v.visitSample r md)
  | 16 => do let r ← parseNamespacesOn w; P.ofExcept (v.visitNamespaces r md)
  | _ => P.dispatch v md

/-- `Parser::parse_record_impl`, src/parse.rs:560-592. -/
def P.recordImplOn {γ : Type} [ParseBuf γ] (p : Parser γ) (v : Visitor Cow O) (md : Metadata) : P β O := do
  let r ← P.onChild (Parser.new p.data (p.config.withMisc md.misc)) (P.dispatchOn w v md)
  pure r.1

/-- `Parser::parse_record_with_header`, src/parse.rs:596-614. -/
def P.recordWithHeaderOn (v : Visitor Cow O) (header : Header) : P β O := do
  let (p, md) ← P.metadataWithHeader header
  match p.data.buf.asSlice with
  | some data => P.recordImplOn w (Parser.new data p.config) v md
  | none => P.recordImplOn w p v md

/-- `Parser::parse_record`, src/parse.rs:555-558. -/
def P.recordOn (v : Visitor Cow O) : P β O := do
  let header ← parseHeader
  P.recordWithHeaderOn w v header

/-- `Parse for Record`, src/records/mod.rs:417-425. -/
def P.parseRecordOn : P β (Record Cow) := P.recordOn w (recordVisitor Cow)

end
end Perf
