import Verif.Spec.Record
/-!
# The crate with its defects corrected

This is not the code in /repo. It is that code with the functions named in DESIGN.md, section "Where the code and the
properties disagree", changed in the smallest way that removes the disagreement; every definition cites the lines it
replaces. C84 proves that with these changes the properties that fail for the crate hold without exception. So
these places, and no others, are what the exceptions in the other theorems come from.
-/
namespace Perf
open ParserM

/-- `Mend β α` is `P β α`, with the corrected operations. -/
def Mend (β α : Type) : Type := P β α

namespace Mend
variable {β γ : Type} {α T O : Type} [ParseBuf β] [ParseBuf γ]

/-- Replaces src/parse.rs:289-306: no bytes are there even at the end of the input. -/
def array (n : Nat) : P β (List Byte) :=
  if n = 0 then pure [] else P.array n

/-- Replaces src/parse.rs:236-250: no bytes are there even at the end of the input. -/
def bytes (n : Nat) : P β (Cow Byte) :=
  if n = 0 then pure (.borrowed []) else P.bytes n

/-- Replaces src/parse.rs:391-409: an `Eof` at the first chunk means there is nothing left. -/
def rest : P β (Cow Byte) := do
  match ← P.chunkResult with
  | .error e => if e.kind = .eof then pure (.borrowed []) else P.fail e
  | .ok c =>
    let bytes ← P.toCow c
    P.advance bytes.data.length
    let n ← P.fuel
    P.restLoop n bytes

/-- As src/parse.rs:412-423. -/
def restTrimNul : P β (Cow Byte) := do
  let bytes ← rest
  pure (bytes.truncate (trimNul bytes.data).length)

/-- Replaces src/parse.rs:441-468: the alignment is looked at before the bytes are consumed. -/
def sliceDirect (e : Elem T) (len : Nat) : P β (Option (List T)) := do
  let cfg ← P.config
  if !cfg.endian.isNative then pure none
  else do
    let c ← P.chunk
    match c.loc with
    | .temporary => pure none
    | .external addr =>
      if c.data.length < len * e.size ∨ addr % 8 ≠ 0 then pure none
      else do
        P.advance (len * e.size)
        pure (some (e.decodeAll (fromOrder cfg.host 64) len (c.data.take (len * e.size))))

/-- Replaces src/parse.rs:477-485: the size is checked whatever the byte order, and no elements are there even at the
end of the input. -/
def slice (e : Elem T) (item : P β T) (len : Nat) : P β (Cow T) :=
  if len * e.size ≥ usizeLimit then P.fail (.custom .invalidRecord "array length in bytes larger than usize::MAX")
  else if len = 0 then pure (.borrowed [])
  else do
    match ← sliceDirect e len with
    | some s => pure (.borrowed s)
    | none =>
      let v ← P.repeated e.size item len
      pure (.owned v)

/-- Replaces `CowSliceExt::split_at`, src/util/cow.rs:20-33: the two halves of an owned value in the right order. -/
def splitCow (c : Cow T) (n : Nat) : P β (Cow T × Cow T) :=
  if n ≤ c.data.length then
    match c with
    | .borrowed d => pure (.borrowed (d.take n), .borrowed (d.drop n))
    | .owned d => pure (.owned (d.take n), .owned (d.drop n))
  else P.fault .panic

end Mend

instance {β : Type} [ParseBuf β] : ParserM (Mend β) Cow where
  pure := P.pure
  bind := P.bind
  config := P.config
  fail := P.fail
  array := Mend.array
  bytes := Mend.bytes
  rest := Mend.rest
  restTrimNul := Mend.restTrimNul
  padded := P.padded
  slice := Mend.slice
  elems := Cow.data
  cowSplitAt := Mend.splitCow
  cowTruncate := Cow.truncate
  cowOwned := Cow.owned

section
variable {M : Type → Type} {C : Type → Type} [ParserM M C]

/-- The values of the registers: none are there under `PERF_SAMPLE_REGS_ABI_NONE`. -/
def mendedRegs (abi mask : U64) : M (C U64) :=
  if abi = 0#64 then pure (cowOwned M []) else slice U64.elem parseU64 (popcount mask)

/-- Replaces src/records/sample.rs:353-363. -/
def mendedRegisters (mask : U64) : M (Registers C) := do
  let abi ← parseU64
  let regs ← mendedRegs abi mask
  pure { abi, mask, regs }

/-- As src/records/sample.rs:336-342. -/
def mendedRegistersUser : M (Registers C) := do
  let cfg ← config
  mendedRegisters cfg.regsUser

/-- As src/records/sample.rs:345-351. -/
def mendedRegistersIntr : M (Registers C) := do
  let cfg ← config
  mendedRegisters cfg.regsIntr

/-- Replaces src/records/sample.rs:169-290: `WEIGHT_STRUCT` also announces the eight bytes of the weight (line 247), and
registers are as above. -/
def mendedSample : M (Sample C) := do
  let cfg ← config
  let sty := cfg.sampleType
  let branchHwIndex := cfg.branchHwIndex
  let identifier ← parseIf (contains sty SampleFlags.IDENTIFIER) parseU64
  let ip ← parseIf (contains sty SampleFlags.IP) parseU64
  let pid ← parseIf (contains sty SampleFlags.TID) parseU32
  let tid ← parseIf (contains sty SampleFlags.TID) parseU32
  let time ← parseIf (contains sty SampleFlags.TIME) parseU64
  let addr ← parseIf (contains sty SampleFlags.ADDR) parseU64
  let id ← parseIf (contains sty SampleFlags.ID) parseU64
  let streamId ← parseIf (contains sty SampleFlags.STREAM_ID) parseU64
  let cpu ← parseIf (contains sty SampleFlags.CPU) parseCpu
  let period ← parseIf (contains sty SampleFlags.PERIOD) parseU64
  let values ← parseIf (contains sty SampleFlags.READ) parseValues
  let callchain ← parseIf (contains sty SampleFlags.CALLCHAIN) parseCallchain
  let raw ← parseIf (contains sty SampleFlags.RAW) (padded 8 parseRawInner)
  let lbr ← parseIf (contains sty SampleFlags.BRANCH_STACK) (parseLbr branchHwIndex)
  let regsUser ← parseIf (contains sty SampleFlags.REGS_USER) mendedRegistersUser
  let stackUser ← parseIf (contains sty SampleFlags.STACK_USER) parseStackUser
  let weight ← parseIf (contains sty SampleFlags.WEIGHT || contains sty SampleFlags.WEIGHT_STRUCT) parseU64
  let dataSrc ← parseIf (contains sty SampleFlags.DATA_SRC) parseU64
  let transaction ← parseIf (contains sty SampleFlags.TRANSACTION) parseU64
  let regsIntr ← parseIf (contains sty SampleFlags.REGS_INTR) mendedRegistersIntr
  let physAddr ← parseIf (contains sty SampleFlags.PHYS_ADDR) parseU64
  let cgroup ← parseIf (contains sty SampleFlags.CGROUP) parseU64
  let dataPageSize ← parseIf (contains sty SampleFlags.DATA_PAGE_SIZE) parseU64
  let codePageSize ← parseIf (contains sty SampleFlags.CODE_PAGE_SIZE) parseU64
  let aux ← parseIf (contains sty SampleFlags.AUX) parseAuxData
  pure { ip, pid, tid, time, addr, id := id.or identifier, streamId, cpu, period, values, callchain, raw
         lbrHwIndex := lbr.bind (·.2), lbr := lbr.map (·.1), regsUser, stackUser, weight, dataSrc, transaction
         regsIntr, physAddr, aux, cgroup, dataPageSize, codePageSize }

/-- Replaces the dispatch of src/parse.rs:569-591: SWITCH has an arm of its own. Written as the record handed to the
visitor (the calls are in `Visitor.apply`); for the original `P.dispatch` the two are shown to be the same. -/
def mendedBody (ty : U32) : M (Record C) :=
  match ty.toNat with
  | 1 => do let r ← parseMmap; pure (.mmap r)
  | 2 => do let r ← parseLost; pure (.lost r)
  | 3 => do let r ← parseComm; pure (.comm r)
  | 4 => do let r ← parseExit; pure (.exit r)
  | 5 => do let r ← parseThrottle; pure (.throttle r)
  | 6 => do let r ← parseThrottle; pure (.unthrottle r)
  | 7 => do let r ← parseExit; pure (.fork r)
  | 8 => do let r ← parseRead; pure (.read r)
  | 9 => do let r ← mendedSample; pure (.sample r)
  | 10 => do let r ← parseMmap2; pure (.mmap2 r)
  | 11 => do let r ← parseAux; pure (.aux r)
  | 12 => do let r ← parseITraceStart; pure (.itraceStart r)
  | 13 => do let r ← parseLostSamples; pure (.lostSamples r)
  | 14 => pure .switch
  | 15 => do let r ← parseSwitchCpuWide; pure (.switchCpuWide r)
  | 16 => do let r ← parseNamespaces; pure (.namespaces r)
  | 17 => do let r ← parseKSymbol; pure (.ksymbol r)
  | 18 => do let r ← parseBpfEvent; pure (.bpfEvent r)
  | 19 => do let r ← parseCGroup; pure (.cgroup r)
  | 20 => do let r ← parseTextPoke; pure (.textPoke r)
  | 21 => do let r ← parseAuxOutputHwId; pure (.auxOutputHwId r)
  | _ => do let data ← rest; pure (.unknown ty data)

end

namespace Mend
variable {β γ : Type} {O : Type} [ParseBuf β] [ParseBuf γ]

/-- Replaces src/parse.rs:560-592, with the dispatch above. -/
def recordImpl (p : Parser γ) (v : Visitor Cow O) (md : Metadata) : P β O := do
  let r ← P.onChild (Parser.new p.data (p.config.withMisc md.misc)) (mendedBody md.ty : Mend (Tracking γ) (Record Cow))
  P.ofExcept (v.apply r.1 md)

/-- Replaces src/parse.rs:509-544: every record but SAMPLE ends in a `sample_id`, MMAP too (line 528). -/
def metadataWithHeader (header : Header) : P β (Parser Cursor × Metadata) := do
  if header.size.toNat < 8 then
    P.fail (.custom .invalidRecord "header size was too small to be valid")
  else do
    let dataLen := header.size.toNat - 8
    let rp ← P.splitAt dataLen
    if header.type_.toNat = 9 then
      pure (rp, Metadata.new header SampleId.default)
    else if dataLen < SampleId.estimateLen rp.config then
      P.fail (.custom .invalidRecord ("config has sample_id_all bit set but record does not have enough data " ++
        "to store the sample_id"))
    else do
      let remainingLen := dataLen - SampleId.estimateLen rp.config
      let (p, rp) ← P.onChild rp (P.splitAt remainingLen)
      let (sampleId, _) ← P.onChild rp (parseSampleId : Mend Cursor SampleId)
      pure (p, Metadata.new header sampleId)

/-- As src/parse.rs:596-614. -/
def recordWithHeader (v : Visitor Cow O) (header : Header) : P β O := do
  let (p, md) ← metadataWithHeader header
  match p.data.buf.asSlice with
  | some data => recordImpl (Parser.new data p.config) v md
  | none => recordImpl p v md

/-- As src/parse.rs:555-558. -/
def record (v : Visitor Cow O) : P β O := do
  let header ← (parseHeader : Mend β Header)
  recordWithHeader v header

end Mend
end Perf
