import Verif.Model.Fmt
import Verif.Model.OptionStruct
import Verif.Model.Stored
import Verif.Model.Visitor
/-!
# `Debug` implementations

The output of `{:?}`, `{:#?}`, `{:x?}`, `{:#x?}`, `{:X?}` and `{:#X?}` as text. What comes from outside the repository is a parameter
(`Outside`): the text of values of the types made by `bitflags!` and `c_enum!`, of `perf_branch_entry`, and what `char::escape_debug`
makes of valid text. The standard `debug_struct`, `debug_list` and `debug_tuple` helpers are modelled. Width, precision, fill and sign
flags are not modelled.
-/
namespace Perf

/-- How `Debug` prints an integer: `{:?}`, `{:x?}`, `{:X?}`. -/
inductive Radix where
  | decimal | lower | upper
deriving DecidableEq, Repr

/-- The flags of `core::fmt::Formatter` that the code of this crate passes on to every field. A class, as a `Formatter` is passed to
every `fmt` function; there is no instance, so that every statement is about all of them. -/
class Formatter where
  /-- `#` -/
  alternate : Bool
  radix : Radix

/-- Text produced by code outside the repository. -/
structure Outside where
  /-- `char::escape_debug` over a piece of valid UTF-8, as character codes. -/
  escapeText : List Byte → List Nat
  /-- `Debug` of the `bitflags!`/`c_enum!` type `ty` holding `bits`. -/
  flags : [Formatter] → (ty : String) → (bits : Nat) → String
  /-- `Debug` of `BranchEntry`, which derives it from `perf_branch_entry` of the bindings. -/
  branch : [Formatter] → BranchEntry → String

/-! ## Numbers -/

/-- An upper case hexadecimal digit, as `core::fmt::UpperHex` writes it (its character code). -/
def upperDigit (n : Nat) : Nat := if n < 10 then 0x30 + n else 0x41 + (n - 10)

/-- The digit loop of `core::fmt::UpperHex` for integers: least significant digit first, at least one digit. -/
def upperHexRev : Nat → Nat → List Nat
  | 0, _ => []
  | fuel + 1, n => upperDigit (n % 16) :: if n / 16 = 0 then [] else upperHexRev fuel (n / 16)

/-- `{:#0width$X}` of a number of at most 64 bits: `Formatter::pad_integral` with the prefix `0x`, zero padding after the
prefix up to `width` characters in total. -/
def alternateUpperHex (width n : Nat) : List Nat :=
  let digits := (upperHexRev 16 n).reverse
  [0x30, 0x78] ++ List.replicate (width - (2 + digits.length)) 0x30 ++ digits

/-- `Debug for HexAddr`, src/util/fmt.rs:69-73. -/
def hexAddr (n : U64) : List Nat := alternateUpperHex 16 n.toNat

/-- Text from character codes. -/
def textOf (codes : List Nat) : String := String.ofList (codes.map Char.ofNat)

/-! ## The standard helpers -/

/-- `PadAdapter` of `core::fmt::builders`, with its flag `on_newline`: four blanks before the first character of every line. -/
def padChars : Bool → List Char → List Char
  | _, [] => []
  | onNewline, c :: cs => (if onNewline then [' ', ' ', ' ', ' '] else []) ++ c :: padChars (c == '\n') cs

/-- What a fresh `PadAdapter` makes of a text. -/
def pad (s : String) : String := String.ofList (padChars true s.toList)

variable [fmt : Formatter]

/-- `DebugList` (std): `[a, b]`, or one entry on each line. -/
def debugList (xs : List String) : String :=
  if fmt.alternate then "[" ++ (if xs.isEmpty then "" else "\n" ++ "".intercalate (xs.map fun s => pad (s ++ ",\n"))) ++ "]"
  else "[" ++ ", ".intercalate xs ++ "]"

/-- `name: value, ...`, or one field on each line. -/
def debugFields (fs : List (String × String)) : String :=
  if fmt.alternate then "".intercalate (fs.map fun f => pad (f.1 ++ ": " ++ f.2 ++ ",\n"))
  else ", ".intercalate (fs.map fun f => f.1 ++ ": " ++ f.2)

/-- `debug_struct(name)`, `.field(..)*`, `.finish()` (std). -/
def debugStruct (name : String) (fs : List (String × String)) : String :=
  if fs.isEmpty then name
  else if fmt.alternate then name ++ " {\n" ++ debugFields fs ++ "}"
  else name ++ " { " ++ debugFields fs ++ " }"

/-- The same ended by `.finish_non_exhaustive()` (std). -/
def debugStructOpen (name : String) (fs : List (String × String)) : String :=
  if fs.isEmpty then name ++ " { .. }"
  else if fmt.alternate then name ++ " {\n" ++ debugFields fs ++ pad "..\n" ++ "}"
  else name ++ " { " ++ debugFields fs ++ ", .. }"

/-- `debug_tuple(name).field(..).finish()` (std). -/
def debugTuple (name : String) (s : String) : String :=
  if fmt.alternate then name ++ "(\n" ++ pad (s ++ ",\n") ++ ")" else name ++ "(" ++ s ++ ")"

omit fmt in
/-- A lower case hexadecimal digit, as `core::fmt::LowerHex` writes it (its character code). -/
def lowerDigit (n : Nat) : Nat := if n < 10 then 0x30 + n else 0x61 + (n - 10)

omit fmt in
/-- The digit loop of `core::fmt::LowerHex` for integers. -/
def lowerHexRev : Nat → Nat → List Nat
  | 0, _ => []
  | fuel + 1, n => lowerDigit (n % 16) :: if n / 16 = 0 then [] else lowerHexRev fuel (n / 16)

/-- `Debug` of an unsigned integer of at most 64 bits (std): `Display`, or `LowerHex` or `UpperHex` with the same formatter, so with the
prefix `0x` under `#`. -/
def debugNum {w : Nat} (n : BitVec w) : String :=
  match fmt.radix with
  | .decimal => toString n.toNat
  | .lower => textOf ((if fmt.alternate then [0x30, 0x78] else []) ++ (lowerHexRev 16 n.toNat).reverse)
  | .upper => textOf ((if fmt.alternate then [0x30, 0x78] else []) ++ (upperHexRev 16 n.toNat).reverse)

/-- `Debug` of a slice of integers. -/
def debugNums {w : Nat} (l : List (BitVec w)) : String := debugList (l.map debugNum)

/-! ## The crate's own helpers -/

omit fmt in
/-- The fields that the `debug_if!` macro adds, src/macros.rs:57-73: those whose condition holds (`true` when there is none). -/
def debugIf (fs : List (String × Bool × String)) : List (String × String) :=
  fs.filterMap fun f => if f.2.1 then some (f.1, f.2.2) else none

omit fmt in
/-- The fields that `Debug` of an `option_struct!` adds, src/macros.rs:159-176,209-218: for each field, in order, the
accessor is called. `none` is a read of an uninitialised cell. -/
def OptionStruct.debugFrom {w n : Nat} {F : Fin n → Type} (s : OptionStruct w F) (name : Fin n → String)
    (fmt : (i : Fin n) → F i → String) : List (Fin n) → Option (List (String × String))
  | [] => some []
  | i :: is =>
    match s.get i with
    | none => none
    | some none => s.debugFrom name fmt is
    | some (some v) => (s.debugFrom name fmt is).map ((name i, fmt i v) :: ·)

omit fmt in
/-- `Debug` of an `option_struct!` over all fields. -/
def OptionStruct.debug {w n : Nat} {F : Fin n → Type} (s : OptionStruct w F) (name : Fin n → String)
    (fmt : (i : Fin n) → F i → String) : Option (List (String × String)) := s.debugFrom name fmt (List.finRange n)

omit fmt in
/-- `Debug for ByteStr`, src/util/fmt.rs:10-42. -/
def debugByteStr (x : Outside) (bs : List Byte) : Except Fault String :=
  match byteStr bs with
  | some ps => .ok (textOf (byteStrRender x.escapeText ps))
  | none => .error .panic

section
variable (x : Outside)

/-! ## `src/records/read.rs` -/

/-- The fields of `Debug for ReadValue`, src/records/read.rs:108-124. -/
def ReadValue.debugFields (v : ReadValue) : List (String × String) :=
  debugIf [("value", true, debugNum v.value),
    ("time_enabled", contains v.readFormat ReadFormat.TOTAL_TIME_ENABLED, debugNum v.timeEnabled),
    ("time_running", contains v.readFormat ReadFormat.TOTAL_TIME_RUNNING, debugNum v.timeRunning),
    ("id", contains v.readFormat ReadFormat.ID, debugNum v.id),
    ("lost", contains v.readFormat ReadFormat.LOST, debugNum v.lost)]

/-- `Debug for ReadValue`. -/
def ReadValue.debug (v : ReadValue) : String := debugStructOpen "SingleRead" v.debugFields

/-- The fields of `Debug for GroupEntry`, src/records/read.rs:279-294. -/
def GroupEntry.debugFields (e : GroupEntry) : List (String × String) :=
  debugIf [("value", true, debugNum e.value), ("id", contains e.readFormat ReadFormat.ID, debugNum e.id),
    ("lost", contains e.readFormat ReadFormat.LOST, debugNum e.lost)]

/-- `Debug for GroupEntry`. -/
def GroupEntry.debug (e : GroupEntry) : String := debugStructOpen "GroupEntry" e.debugFields

/-- `Debug for ReadGroup`, src/records/read.rs:207-229: the entries are printed by running the iterator to its end. -/
def ReadGroup.debugFields (g : ReadGroup Cow) : Except Fault (List (String × String)) :=
  match GroupIter.collect (g.data.data.length + 1) g.entries with
  | .error e => .error e
  | .ok es => .ok (debugIf [
      ("time_enabled", contains g.readFormat ReadFormat.TOTAL_TIME_ENABLED, debugNum g.timeEnabled),
      ("time_running", contains g.readFormat ReadFormat.TOTAL_TIME_RUNNING, debugNum g.timeRunning),
      ("entries", true, debugList (es.map GroupEntry.debug))])

/-- `Debug for ReadGroup`. -/
def ReadGroup.debug (g : ReadGroup Cow) : Except Fault String := g.debugFields.map (debugStructOpen "GroupRead")

/-! ## `src/records/sample.rs` -/

/-- `Debug for Registers` (derived), src/records/sample.rs:303-315. -/
def Registers.debug (r : Registers Cow) : String :=
  debugStruct "Registers" [("abi", x.flags "SampleRegsAbi" r.abi.toNat), ("mask", debugNum r.mask), ("regs", debugNums r.regs.data)]

/-- `Debug for DataSource`, src/records/sample.rs:553-567. -/
def DataSource.debug (host decl : Order) (val : U64) : String :=
  debugStruct "DataSource" [("mem_op", x.flags "MemOp" (DataSource.memOp host decl val).toNat),
    ("mem_lvl", x.flags "MemLevel" (DataSource.memLvl host decl val).toNat),
    ("mem_snoop", x.flags "MemSnoop" (DataSource.memSnoop host decl val).toNat),
    ("mem_lock", x.flags "MemLock" (DataSource.memLock host decl val).toNat),
    ("mem_dtlb", x.flags "MemDtlb" (DataSource.memDtlb host decl val).toNat),
    ("mem_lvl_num", x.flags "MemLevelNum" (DataSource.memLvlNum host decl val).toNat),
    ("mem_remote", toString (DataSource.memRemote host decl val)),
    ("mem_blk", x.flags "MemBlk" (DataSource.memBlk host decl val).toNat),
    ("mem_hops", debugNum (DataSource.memHops host decl val))]

omit fmt in
/-- One step of the field list of an `option_struct!` (src/macros.rs:209-218) whose value may panic while printing. -/
def debugOpt {α : Type} (name : String) (v : Option α) (fmt : α → Except Fault String) (rest : Except Fault (List (String × String))) :
    Except Fault (List (String × String)) :=
  match v with
  | none => rest
  | some a =>
    match fmt a with
    | .error e => .error e
    | .ok s => rest.map ((name, s) :: ·)

/-- The fields of `Debug for Sample`, src/records/sample.rs:25-54,292-296 with src/macros.rs:159-176,209-218. -/
def Sample.debugFields (host decl : Order) (s : Sample Cow) : Except Fault (List (String × String)) :=
  debugOpt "ip" s.ip (.ok ∘ debugNum) <|
  debugOpt "pid" s.pid (.ok ∘ debugNum) <|
  debugOpt "tid" s.tid (.ok ∘ debugNum) <|
  debugOpt "time" s.time (.ok ∘ debugNum) <|
  debugOpt "addr" s.addr (.ok ∘ textOf ∘ hexAddr) <|
  debugOpt "id" s.id (.ok ∘ debugNum) <|
  debugOpt "stream_id" s.streamId (.ok ∘ debugNum) <|
  debugOpt "cpu" s.cpu (.ok ∘ debugNum) <|
  debugOpt "period" s.period (.ok ∘ debugNum) <|
  debugOpt "values" s.values ReadGroup.debug <|
  debugOpt "callchain" s.callchain (.ok ∘ debugNums ∘ Cow.data) <|
  debugOpt "raw" s.raw (.ok ∘ debugNums ∘ Cow.data) <|
  debugOpt "lbr_hw_index" s.lbrHwIndex (.ok ∘ debugNum) <|
  debugOpt "lbr" s.lbr (fun l => .ok (debugList (l.data.map x.branch))) <|
  debugOpt "regs_user" s.regsUser (.ok ∘ Registers.debug x) <|
  debugOpt "stack_user" s.stackUser (.ok ∘ debugNums ∘ Cow.data) <|
  debugOpt "weight" s.weight (.ok ∘ debugNum) <|
  debugOpt "data_src" s.dataSrc (.ok ∘ DataSource.debug x host decl) <|
  debugOpt "transaction" s.transaction (fun t => .ok (x.flags "Txn" t.toNat)) <|
  debugOpt "regs_intr" s.regsIntr (.ok ∘ Registers.debug x) <|
  debugOpt "phys_addr" s.physAddr (.ok ∘ textOf ∘ hexAddr) <|
  debugOpt "aux" s.aux (.ok ∘ debugNums ∘ Cow.data) <|
  debugOpt "cgroup" s.cgroup (.ok ∘ debugNum) <|
  debugOpt "data_page_size" s.dataPageSize (.ok ∘ debugNum) <|
  debugOpt "code_page_size" s.codePageSize (.ok ∘ debugNum) <| .ok []

/-- `Debug for Sample`. -/
def Sample.debug (host decl : Order) (s : Sample Cow) : Except Fault String :=
  (s.debugFields x host decl).map (debugStructOpen "Sample")

/-- The fields of `Debug for SampleId`, src/records/mod.rs:59-66,183-187. -/
def SampleId.debugFields (s : SampleId) : Except Fault (List (String × String)) :=
  debugOpt "pid" s.pid (.ok ∘ debugNum) <|
  debugOpt "tid" s.tid (.ok ∘ debugNum) <|
  debugOpt "time" s.time (.ok ∘ debugNum) <|
  debugOpt "id" s.id (.ok ∘ debugNum) <|
  debugOpt "stream_id" s.streamId (.ok ∘ debugNum) <|
  debugOpt "cpu" s.cpu (.ok ∘ debugNum) <| .ok []

/-- `Debug for SampleId`, src/records/mod.rs:183-187 with src/macros.rs:159-176. -/
def SampleId.debug (s : SampleId) : Except Fault String := s.debugFields.map (debugStructOpen "SampleId")

/-! ### From the stored form

`Sample::fmt` and `SampleId::fmt` call the accessors of the stored form one after the other. -/

omit fmt in
/-- One `option_struct!(impl(debug_field) ..)`, src/macros.rs:208-218: the accessor is called, and what it returns is printed. The
outer `none` is a read of an uninitialised cell. -/
def debugCell {α : Type} (name : String) (v : Option (Option α)) (fmt : α → Except Fault String)
    (rest : Option (Except Fault (List (String × String)))) : Option (Except Fault (List (String × String))) :=
  match v with
  | none => none
  | some v => rest.map (debugOpt name v fmt)

/-- `Debug` of the stored `Sample`, src/records/sample.rs:24-54,292-296 with src/macros.rs:159-176. -/
def StoredSample.debugFields (host decl : Order) (s : StoredSample Cow) : Option (Except Fault (List (String × String))) :=
  debugCell "ip" s.ip (.ok ∘ debugNum) <|
  debugCell "pid" s.pid (.ok ∘ debugNum) <|
  debugCell "tid" s.tid (.ok ∘ debugNum) <|
  debugCell "time" s.time (.ok ∘ debugNum) <|
  debugCell "addr" s.addr (.ok ∘ textOf ∘ hexAddr) <|
  debugCell "id" s.id (.ok ∘ debugNum) <|
  debugCell "stream_id" s.streamId (.ok ∘ debugNum) <|
  debugCell "cpu" s.cpu (.ok ∘ debugNum) <|
  debugCell "period" s.period (.ok ∘ debugNum) <|
  debugCell "values" s.values ReadGroup.debug <|
  debugCell "callchain" s.callchain (.ok ∘ debugNums ∘ Cow.data) <|
  debugCell "raw" s.raw (.ok ∘ debugNums ∘ Cow.data) <|
  debugCell "lbr_hw_index" s.lbrHwIndex (.ok ∘ debugNum) <|
  debugCell "lbr" s.lbr (fun l => .ok (debugList (l.data.map x.branch))) <|
  debugCell "regs_user" s.regsUser (.ok ∘ Registers.debug x) <|
  debugCell "stack_user" s.stackUser (.ok ∘ debugNums ∘ Cow.data) <|
  debugCell "weight" s.weight (.ok ∘ debugNum) <|
  debugCell "data_src" s.dataSrc (.ok ∘ DataSource.debug x host decl) <|
  debugCell "transaction" s.transaction (fun t => .ok (x.flags "Txn" t.toNat)) <|
  debugCell "regs_intr" s.regsIntr (.ok ∘ Registers.debug x) <|
  debugCell "phys_addr" s.physAddr (.ok ∘ textOf ∘ hexAddr) <|
  debugCell "aux" s.aux (.ok ∘ debugNums ∘ Cow.data) <|
  debugCell "cgroup" s.cgroup (.ok ∘ debugNum) <|
  debugCell "data_page_size" s.dataPageSize (.ok ∘ debugNum) <|
  debugCell "code_page_size" s.codePageSize (.ok ∘ debugNum) <| some (.ok [])

/-- `Debug` of the stored `SampleId`, src/records/mod.rs:57-67,183-187 with src/macros.rs:159-176. -/
def StoredId.debugFields (s : StoredId) : Option (Except Fault (List (String × String))) :=
  debugCell "pid" s.pid (.ok ∘ debugNum) <|
  debugCell "tid" s.tid (.ok ∘ debugNum) <|
  debugCell "time" s.time (.ok ∘ debugNum) <|
  debugCell "id" s.id (.ok ∘ debugNum) <|
  debugCell "stream_id" s.streamId (.ok ∘ debugNum) <|
  debugCell "cpu" s.cpu (.ok ∘ debugNum) <| some (.ok [])

/-- `Debug for RecordMetadata` (derived), src/visitor.rs:11-16. -/
def Metadata.debug (m : Metadata) : Except Fault String := do
  let id ← m.sampleId.debug
  pure (debugStruct "RecordMetadata" [("ty", debugNum m.ty), ("misc", debugNum m.misc), ("sample_id", id)])

/-! ## The other records -/

/-- `Debug for Mmap`, src/records/mmap.rs:99-110. -/
def Mmap.debug (m : Mmap Cow) : Except Fault String := do
  let name ← debugByteStr x m.filename.data
  pure (debugStruct "Mmap" [("pid", debugNum m.pid), ("tid", debugNum m.tid), ("addr", textOf (hexAddr m.addr)),
    ("len", debugNum m.len), ("pgoff", debugNum m.pgoff), ("filename", name)])

/-- The fields `Debug for Mmap2` takes from the detail, src/records/mmap2.rs:225-242. -/
def Mmap2.debugDetail (m : Mmap2 Cow) : Except Fault (List (String × String)) :=
  match m.detail with
  | .default maj min ino gen => .ok [("maj", debugNum maj), ("min", debugNum min), ("ino", debugNum ino), ("ino_generation", debugNum gen)]
  | .buildId .. =>
    match m.buildId with
    | none => .error .panic
    | some none => .ok []
    | some (some id) => .ok [("build_id", textOf (hexStr id))]

/-- `Debug for Mmap2`, src/records/mmap2.rs:216-250. -/
def Mmap2.debug (m : Mmap2 Cow) : Except Fault String := do
  let detail ← m.debugDetail
  let name ← debugByteStr x m.filename.data
  pure (debugStruct "Mmap2" ([("pid", debugNum m.pid), ("tid", debugNum m.tid), ("addr", textOf (hexAddr m.addr)),
    ("len", debugNum m.len), ("pgoff", debugNum m.pgoff)] ++ detail ++
    [("prot", debugNum m.prot), ("flags", debugNum m.flags), ("filename", name)]))

/-- `Debug for Comm`, src/records/comm.rs:71-79. -/
def Comm.debug (c : Comm Cow) : Except Fault String := do
  let name ← debugByteStr x c.comm.data
  pure (debugStruct "Comm" [("pid", debugNum c.pid), ("tid", debugNum c.tid), ("comm", name)])

/-- `Debug for KSymbol`, src/records/ksymbol.rs:36-46. -/
def KSymbol.debug (k : KSymbol Cow) : Except Fault String := do
  let name ← debugByteStr x k.name.data
  pure (debugStruct "KSymbol" [("addr", textOf (hexAddr k.addr)), ("len", debugNum k.len),
    ("ksym_type", x.flags "KSymbolType" k.ksymType.toNat), ("flags", x.flags "KSymbolFlags" k.flags.toNat), ("name", name)])

/-- `Debug for CGroup`, src/records/cgroup.rs:54-61. -/
def CGroup.debug (c : CGroup Cow) : Except Fault String := do
  let path ← debugByteStr x c.path.data
  pure (debugStruct "CGroup" [("id", debugNum c.id), ("path", path)])

/-- `Debug for TextPoke`, src/records/text_poke.rs:65-73. -/
def TextPoke.debug (t : TextPoke Cow) : String :=
  debugStruct "TextPoke" [("addr", textOf (hexAddr t.addr)), ("old_bytes", debugNums t.oldBytes.data), ("new_bytes", debugNums t.newBytes.data)]

/-- `Debug for Exit` (derived), src/records/exit.rs:9. -/
def Exit.debug (e : Exit) : String :=
  debugStruct "Exit" [("pid", debugNum e.pid), ("ppid", debugNum e.ppid), ("tid", debugNum e.tid), ("ptid", debugNum e.ptid), ("time", debugNum e.time)]

/-- `Debug for Throttle` (derived), src/records/throttle.rs:14. -/
def Throttle.debug (t : Throttle) : String :=
  debugStruct "Throttle" [("time", debugNum t.time), ("id", debugNum t.id), ("stream_id", debugNum t.streamId)]

/-- `Debug for NamespaceEntry` (derived), src/records/namespaces.rs:32. -/
def NamespaceEntry.debug (e : NamespaceEntry) : String := debugStruct "NamespaceEntry" [("dev", debugNum e.dev), ("inode", debugNum e.inode)]

/-- `Debug for SwitchCpuWide` (derived), src/records/switch_cpu_wide.rs:19. -/
def SwitchCpuWide.debug : SwitchCpuWide → String
  | .in pid tid => debugStruct "In" [("pid", debugNum pid), ("tid", debugNum tid)]
  | .out pid tid => debugStruct "Out" [("pid", debugNum pid), ("tid", debugNum tid)]

/-- `Debug for Record` (derived), src/records/mod.rs:206-246, with the derived implementations of the records that do not
implement it by hand. -/
def Record.debug (host decl : Order) : Record Cow → Except Fault String
  | .mmap r => (r.debug x).map (debugTuple "Mmap")
  | .lost r => .ok (debugTuple "Lost" (debugStruct "Lost" [("id", debugNum r.id), ("lost", debugNum r.lost)]))
  | .comm r => (r.debug x).map (debugTuple "Comm")
  | .exit r => .ok (debugTuple "Exit" r.debug)
  | .throttle r => .ok (debugTuple "Throttle" r.debug)
  | .unthrottle r => .ok (debugTuple "Unthrottle" r.debug)
  | .fork r => .ok (debugTuple "Fork" r.debug)
  | .read r => .ok (debugTuple "Read" (debugStruct "Read" [("pid", debugNum r.pid), ("tid", debugNum r.tid), ("values", r.values.debug)]))
  | .sample r => (r.debug x host decl).map (debugTuple "Sample")
  | .mmap2 r => (r.debug x).map (debugTuple "Mmap2")
  | .aux r => .ok (debugTuple "Aux" (debugStruct "Aux" [("aux_offset", debugNum r.auxOffset), ("aux_size", debugNum r.auxSize),
      ("flags", x.flags "AuxFlags" r.flags.toNat)]))
  | .itraceStart r => .ok (debugTuple "ITraceStart" (debugStruct "ITraceStart" [("pid", debugNum r.pid), ("tid", debugNum r.tid)]))
  | .lostSamples r => .ok (debugTuple "LostSamples" (debugStruct "LostSamples" [("lost", debugNum r.lost)]))
  | .switch => .ok "Switch"
  | .switchCpuWide r => .ok (debugTuple "SwitchCpuWide" r.debug)
  | .namespaces r => .ok (debugTuple "Namespaces" (debugStruct "Namespaces" [("pid", debugNum r.pid), ("tid", debugNum r.tid),
      ("namespaces", debugList (r.namespaces.data.map NamespaceEntry.debug))]))
  | .ksymbol r => (r.debug x).map (debugTuple "KSymbol")
  | .bpfEvent r => .ok (debugTuple "BpfEvent" (debugStruct "BpfEvent" [("ty", x.flags "BpfEventType" r.ty.toNat),
      ("flags", debugNum r.flags), ("id", debugNum r.id), ("tag", debugNums r.tag)]))
  | .cgroup r => (r.debug x).map (debugTuple "CGroup")
  | .textPoke r => .ok (debugTuple "TextPoke" r.debug)
  | .auxOutputHwId r => .ok (debugTuple "AuxOutputHwId" (debugStruct "AuxOutputHwId" [("hw_id", debugNum r.hwId)]))
  | .unknown ty data => .ok (debugStruct "Unknown" [("ty", debugNum ty), ("data", debugNums data.data)])

/-- `Debug for ParseConfig`, src/config.rs:229-241 (`{:X}` prints without padding). -/
def ParseConfig.debug (c : ParseConfig) : String :=
  let hex := fun n : Nat => textOf ([0x30, 0x78] ++ (upperHexRev 16 n).reverse)
  debugStruct "ParseConfig" [("read_format", x.flags "ReadFormat" c.readFormat.toNat), ("sample_type", x.flags "SampleFlags" c.sampleType.toNat),
    ("sample_id_all", toString c.sampleIdAll), ("branch_hw_index", toString c.branchHwIndex), ("misc", hex c.misc.toNat),
    ("regs_user", hex c.regsUser.toNat), ("regs_intr", hex c.regsIntr.toNat)]

end
end Perf
