import Verif.Model.Read
/-!
# `src/records/sample.rs`
-/
namespace Perf
open ParserM

/-- `Registers`, src/records/sample.rs:304-315 (`SampleRegsAbi` is its number). -/
structure Registers (C : Type → Type) where
  abi : U64
  mask : U64
  regs : C U64

/-- `BranchEntry`, src/records/sample.rs:407: `perf_branch_entry` of the bindings, whose third word is a bit field
stored as the 8 native bytes of a `u64` (kept here as that `u64`). -/
structure BranchEntry where
  from_ : U64
  to : U64
  bits : U64
deriving DecidableEq, Repr

/-- `Sample`, src/records/sample.rs:25-64; the `option_struct!` storage is modelled in `Model/OptionStruct`, here are
its observable fields. -/
structure Sample (C : Type → Type) where
  ip : Option U64
  pid : Option U32
  tid : Option U32
  time : Option U64
  addr : Option U64
  id : Option U64
  streamId : Option U64
  cpu : Option U32
  period : Option U64
  values : Option (ReadGroup C)
  callchain : Option (C U64)
  raw : Option (C Byte)
  lbrHwIndex : Option U64
  lbr : Option (C BranchEntry)
  regsUser : Option (Registers C)
  stackUser : Option (C Byte)
  weight : Option U64
  dataSrc : Option U64
  transaction : Option U64
  regsIntr : Option (Registers C)
  physAddr : Option U64
  aux : Option (C Byte)
  cgroup : Option U64
  dataPageSize : Option U64
  codePageSize : Option U64

/-! ## Bit fields -/

/-- A getter generated by `bindgen` for a bit field of `width` bits at bit `off` of an 8-byte unit whose native value
is `raw` (`__BindgenBitfieldUnit::get`): bits are counted from the least significant end on a little endian host
and from the most significant end on a big endian host. -/
def bitfield (host : Order) (raw : U64) (off width : Nat) : U64 :=
  match host with
  | .little => (raw >>> off) &&& ((1#64 <<< width) - 1#64)
  | .big => (raw >>> (64 - off - width)) &&& ((1#64 <<< width) - 1#64)

namespace BranchEntry
variable (host : Order) (e : BranchEntry)
/-- src/records/sample.rs:423-425 -/
def mispred : Bool := bitfield host e.bits 0 1 != 0#64
/-- src/records/sample.rs:428-430 -/
def predicted : Bool := bitfield host e.bits 1 1 != 0#64
/-- src/records/sample.rs:433-435 -/
def inTx : Bool := bitfield host e.bits 2 1 != 0#64
/-- src/records/sample.rs:438-440 -/
def abort : Bool := bitfield host e.bits 3 1 != 0#64
/-- src/records/sample.rs:443-445 -/
def cycles : U16 := (bitfield host e.bits 4 16).setWidth 16
/-- src/records/sample.rs:451-453 -/
def ty : U8 := (bitfield host e.bits 20 4).setWidth 8
end BranchEntry

/-! `DataSource` accessors, src/records/sample.rs:479-551, on the `u64` value (`perf_mem_data_src.val`). The kernel header
declares the fields in one order for little endian targets (`mem_op` 5 bits, `mem_lvl` 14, `mem_snoop` 5, `mem_lock` 2,
`mem_dtlb` 7, `mem_lvl_num` 4, `mem_remote` 1, `mem_snoopx` 2, `mem_blk` 3, `mem_hops` 3, 18 reserved) and in the reverse
order for big endian ones. `decl` is the target the bindings crate was generated for; it is a parameter because the bindings
are not part of the repository. -/
namespace DataSource
variable (host decl : Order) (val : U64)
/-- Offset of the field of `width` bits that begins at bit `off` in the little endian declaration. -/
def declared (off width : Nat) : Nat :=
  match decl with
  | .little => off
  | .big => 64 - off - width
/-- The generated getter. -/
def field (off width : Nat) : U64 := bitfield host val (declared decl off width) width
/-- src/records/sample.rs:485-487 -/
def memOp : U64 := field host decl val 0 5
/-- src/records/sample.rs:490-492 -/
def memLvl : U64 := field host decl val 5 14
/-- `MemSnoop::new`, src/records/sample.rs:672-683; `from_bits_truncate` keeps the declared bits (19-23, 38-39). -/
def snoopNew (snoop snoopx : U64) : U64 :=
  (((snoop &&& 0b11111#64) <<< 19) ||| ((snoopx &&& 0b11#64) <<< 38)) &&& ((0b11111#64 <<< 19) ||| (0b11#64 <<< 38))
/-- src/records/sample.rs:498-500 -/
def memSnoop : U64 := snoopNew (field host decl val 19 5) (field host decl val 38 2)
/-- src/records/sample.rs:503-505 -/
def memLock : U64 := field host decl val 24 2
/-- src/records/sample.rs:508-510 -/
def memDtlb : U64 := field host decl val 26 7
/-- src/records/sample.rs:518-520 -/
def memLvlNum : U8 := (field host decl val 33 4).setWidth 8
/-- src/records/sample.rs:528-530 -/
def memRemote : Bool := field host decl val 37 1 != 0#64
/-- src/records/sample.rs:538-540 -/
def memBlk : U64 := field host decl val 40 3
/-- src/records/sample.rs:548-550 -/
def memHops : U8 := (field host decl val 43 3).setWidth 8
end DataSource

/-- `Txn::abort`, src/records/sample.rs:705-707 (`PERF_TXN_ABORT_SHIFT = 32`). -/
def txnAbort (bits : U64) : U32 := (bits >>> 32).setWidth 32

/-! ## Parsing -/

/-- `BranchEntry` in memory, for `parse_slice`. -/
def BranchEntry.elem : Elem BranchEntry where
  size := 24
  dec conv bs := { from_ := conv (bs.take 8), to := conv ((bs.drop 8).take 8), bits := conv (bs.drop 16) }

section
variable {M : Type → Type} {C : Type → Type} [ParserM M C]

/-- src/records/sample.rs:456-469 -/
def parseBranchEntry : M BranchEntry := do
  let from_ ← parseU64
  let to ← parseU64
  let bits ← parseU64
  pure { from_, to, bits }

/-- `Registers::parse`, src/records/sample.rs:353-363. -/
def parseRegisters (mask : U64) : M (Registers C) := do
  let abi ← parseU64
  let regs ← slice U64.elem parseU64 (popcount mask)
  pure { abi, mask, regs }

/-- `Registers::parse_user`, src/records/sample.rs:336-342. -/
def parseRegistersUser : M (Registers C) := do
  let cfg ← config
  parseRegisters cfg.regsUser

/-- `Registers::parse_intr`, src/records/sample.rs:345-351. -/
def parseRegistersIntr : M (Registers C) := do
  let cfg ← config
  parseRegisters cfg.regsIntr

/-- The `values` closure, src/records/sample.rs:191-197. -/
def parseValues : M (ReadGroup C) := do
  let cfg ← config
  if contains cfg.readFormat ReadFormat.GROUP then parseReadGroup
  else do
    let v ← parseReadValue
    pure (ReadGroup.ofValue M v)

/-- The `callchain` closure, src/records/sample.rs:198-201. -/
def parseCallchain : M (C U64) := do
  let nr ← parseU64
  slice U64.elem parseU64 nr.toNat

/-- The inner `raw` closure, src/records/sample.rs:203-206. -/
def parseRawInner : M (C Byte) := do
  let size ← parseU32
  bytes size.toNat

/-- The `lbr` closure, src/records/sample.rs:208-214. -/
def parseLbr (branchHwIndex : Bool) : M (C BranchEntry × Option U64) := do
  let nr ← parseU64
  let hwIndex ← parseIf branchHwIndex parseU64
  let lbr ← slice BranchEntry.elem parseBranchEntry nr.toNat
  pure (lbr, hwIndex)

/-- `let dyn_size = match size { 0 => 0, _ => p.parse_u64()? … }`, src/records/sample.rs:228-231. -/
def parseDynSize (size : U64) : M U64 :=
  if size.toNat = 0 then pure 0#64 else parseU64

/-- The `stack_user` closure, src/records/sample.rs:222-246. (`dyn_size ≤ data.len()` at the final `truncate` /
slice, so both arms are `CowSliceExt::truncate`.) -/
def parseStackUser : M (C Byte) := do
  let size ← parseU64
  let data ← bytes size.toNat
  let dynSize ← parseDynSize size
  if dynSize.toNat > (elems M data).length then
    fail (.custom .invalidRecord "stack dyn_size was greater than the record size")
  else pure (cowTruncate M data dynSize.toNat)

/-- The `aux` closure, src/records/sample.rs:257-260. -/
def parseAuxData : M (C Byte) := do
  let size ← parseU64
  bytes size.toNat

/-- `Parse for Sample`, src/records/sample.rs:169-290. -/
def parseSample : M (Sample C) := do
  let cfg ← config
  let sty := cfg.sampleType
  let branchHwIndex := cfg.branchHwIndex
  let identifier ← parseIf (contains sty SampleFlags.IDENTIFIER) parseU64
  let ip ← parseIf (contains sty SampleFlags.IP) parseU64
  let pid ← parseIf (contains sty SampleFlags.TID) parseU32
  let tid ← parseIf (contains sty SampleFlags.TID) parseU32
  let time ← parseIf (contains sty SampleFlags.TIME) parseU64
  let addr ← parseIf (contains sty SampleFlags.ADDR) parseU64
  let id ← parseIf (contains sty SampleFlags.ID) parseU64
  let streamId ← parseIf (contains sty SampleFlags.STREAM_ID) parseU64
  let cpu ← parseIf (contains sty SampleFlags.CPU) parseCpu
  let period ← parseIf (contains sty SampleFlags.PERIOD) parseU64
  let values ← parseIf (contains sty SampleFlags.READ) parseValues
  let callchain ← parseIf (contains sty SampleFlags.CALLCHAIN) parseCallchain
  let raw ← parseIf (contains sty SampleFlags.RAW) (padded 8 parseRawInner)
  let lbr ← parseIf (contains sty SampleFlags.BRANCH_STACK) (parseLbr branchHwIndex)
  let regsUser ← parseIf (contains sty SampleFlags.REGS_USER) parseRegistersUser
  let stackUser ← parseIf (contains sty SampleFlags.STACK_USER) parseStackUser
  let weight ← parseIf (contains sty SampleFlags.WEIGHT) parseU64
  let dataSrc ← parseIf (contains sty SampleFlags.DATA_SRC) parseU64
  let transaction ← parseIf (contains sty SampleFlags.TRANSACTION) parseU64
  let regsIntr ← parseIf (contains sty SampleFlags.REGS_INTR) parseRegistersIntr
  let physAddr ← parseIf (contains sty SampleFlags.PHYS_ADDR) parseU64
  let cgroup ← parseIf (contains sty SampleFlags.CGROUP) parseU64
  let dataPageSize ← parseIf (contains sty SampleFlags.DATA_PAGE_SIZE) parseU64
  let codePageSize ← parseIf (contains sty SampleFlags.CODE_PAGE_SIZE) parseU64
  let aux ← parseIf (contains sty SampleFlags.AUX) parseAuxData
  pure { ip, pid, tid, time, addr, id := id.or identifier, streamId, cpu, period, values, callchain, raw
         lbrHwIndex := lbr.bind (·.2), lbr := lbr.map (·.1), regsUser, stackUser, weight, dataSrc, transaction
         regsIntr, physAddr, aux, cgroup, dataPageSize, codePageSize }

end

/-- `SampleId::from_sample` and the `From` impls, src/records/mod.rs:85-94,189-199. -/
def SampleId.fromSample {C : Type → Type} (s : Sample C) : SampleId :=
  { pid := s.pid, tid := s.tid, time := s.time, id := s.id, streamId := s.streamId, cpu := s.cpu }

end Perf
