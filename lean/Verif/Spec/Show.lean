import Verif.Model.Debug
/-!
# What `{:?}`, `{:#?}`, `{:x?}` and so on should print

Names of types and fields as in the public API, numbers in decimal (or hexadecimal, if asked), addresses by `HexAddr` (C60), text by
`ByteStr` (C44). Written character by character, without the helpers of the code model for structures, lists, indentation and
conditions; fields that may be missing are asked for through their accessors.

A value is described once, by a `Layout`, from which follow the text on one line and the text over several lines at any depth.
-/
namespace Perf

/-- A text as its characters. -/
abbrev Chars := List Char

/-- How a value prints: `none` on one line, `some d` over several lines within `d` other values. -/
abbrev Layout := Option Nat → Chars

/-- A new line within `d` values. -/
def newLine (d : Nat) : Chars := '\n' :: List.replicate (4 * d) ' '

/-- A text that is written as it is, except that its lines, should it have several, keep the indentation. -/
def indented (d : Nat) (t : Chars) : Chars := t.flatMap fun c => if c = '\n' then newLine d else [c]

/-- A text that is the same in both forms. -/
def text (t : Chars) : Layout
  | none => t
  | some d => indented d t

/-- A text from outside, `short` on one line and `long` over several. -/
def outer (short long : Chars) : Layout
  | none => short
  | some d => indented d long

/-- The items of a list and the closing bracket. -/
def itemChars : List Chars → Chars
  | [] => [']']
  | [t] => t ++ [']']
  | t :: ts => t ++ ',' :: ' ' :: itemChars ts

/-- `[a, b]`, or each item on its own line. -/
def listChars (ts : List Layout) : Layout
  | none => '[' :: itemChars (ts.map (· none))
  | some d => '[' :: (ts.flatMap fun t => newLine (d + 1) ++ t (some (d + 1)) ++ [',']) ++ (if ts = [] then [] else newLine d) ++ [']']

/-- How a structure ends, `..` for those that may get more fields. -/
def closeChars (more : Bool) : Chars := if more then [',', ' ', '.', '.', ' ', '}'] else [' ', '}']

/-- `field: value, ... }` -/
def fieldChars (more : Bool) : List (String × Layout) → Chars
  | [] => []
  | [(n, t)] => n.toList ++ ':' :: ' ' :: t none ++ closeChars more
  | (n, t) :: fs => n.toList ++ ':' :: ' ' :: t none ++ ',' :: ' ' :: fieldChars more fs

/-- `Name { field: value, ... }`, or each field on its own line, or `Name` without fields. -/
def structChars (name : String) (more : Bool) (fs : List (String × Layout)) : Layout := fun depth =>
  text name.toList depth ++
    match fs, depth with
    | [], _ => if more then [' ', '{', ' ', '.', '.', ' ', '}'] else []
    | fs, none => ' ' :: '{' :: ' ' :: fieldChars more fs
    | fs, some d => ' ' :: '{' :: (fs.flatMap fun f => newLine (d + 1) ++ text f.1.toList (some (d + 1)) ++ ':' :: ' ' :: f.2 (some (d + 1)) ++ [',']) ++
        (if more then newLine (d + 1) ++ ['.', '.'] else []) ++ newLine d ++ ['}']

/-- `Name(value)`, or the value on its own lines. -/
def tupleChars (name : String) (t : Layout) : Layout := fun depth =>
  text name.toList depth ++
    match depth with
    | none => '(' :: t none ++ [')']
    | some d => '(' :: newLine (d + 1) ++ t (some (d + 1)) ++ ',' :: newLine d ++ [')']

/-- An optional field. -/
def optField {α : Type} (name : String) (v : Option α) (show_ : α → Layout) : List (String × Layout) :=
  match v with
  | some a => [(name, show_ a)]
  | none => []

/-- An address. -/
def addrChars (n : U64) : Layout := text ((hexAddr n).map Char.ofNat)

/-- A boolean. -/
def boolChars (b : Bool) : Layout := text (if b then ['t', 'r', 'u', 'e'] else ['f', 'a', 'l', 's', 'e'])

section
variable (rx : Radix)

/-- A number: decimal, or hexadecimal with `0x` only in the long form. -/
def numChars (n : Nat) : Layout
  | none => match rx with
    | .decimal => Nat.toDigits 10 n
    | .lower => Nat.toDigits 16 n
    | .upper => (Nat.toDigits 16 n).map Char.toUpper
  | some _ => match rx with
    | .decimal => Nat.toDigits 10 n
    | .lower => '0' :: 'x' :: Nat.toDigits 16 n
    | .upper => '0' :: 'x' :: (Nat.toDigits 16 n).map Char.toUpper

/-- A list of numbers. -/
def numsChars {w : Nat} (l : List (BitVec w)) : Layout := listChars (l.map fun n => numChars rx n.toNat)

/-- A field that is a number. -/
def numField {w : Nat} (name : String) (n : BitVec w) : String × Layout := (name, numChars rx n.toNat)

/-- A value of a type made by `bitflags!` or `c_enum!`. -/
def flagChars (x : Outside) (ty : String) (bits : Nat) : Layout :=
  outer (@Outside.flags x ⟨false, rx⟩ ty bits).toList (@Outside.flags x ⟨true, rx⟩ ty bits).toList

/-- A branch entry. -/
def branchChars (x : Outside) (b : BranchEntry) : Layout :=
  outer (@Outside.branch x ⟨false, rx⟩ b).toList (@Outside.branch x ⟨true, rx⟩ b).toList

def ReadValue.chars (v : ReadValue) : Layout :=
  structChars "SingleRead" true (numField rx "value" v.value :: (optField "time_enabled" v.getTimeEnabled (numChars rx ·.toNat) ++
    optField "time_running" v.getTimeRunning (numChars rx ·.toNat) ++ optField "id" v.getId (numChars rx ·.toNat) ++
    optField "lost" v.getLost (numChars rx ·.toNat)))

def GroupEntry.chars (e : GroupEntry) : Layout :=
  structChars "GroupEntry" true (numField rx "value" e.value :: (optField "id" e.getId (numChars rx ·.toNat) ++
    optField "lost" e.getLost (numChars rx ·.toNat)))

/-- `es` are the entries the iterator yields. -/
def ReadGroup.chars (g : ReadGroup Cow) (es : List GroupEntry) : Layout :=
  structChars "GroupRead" true (optField "time_enabled" g.getTimeEnabled (numChars rx ·.toNat) ++
    optField "time_running" g.getTimeRunning (numChars rx ·.toNat) ++ [("entries", listChars (es.map (GroupEntry.chars rx)))])

def Registers.chars (x : Outside) (r : Registers Cow) : Layout :=
  structChars "Registers" false [("abi", flagChars rx x "SampleRegsAbi" r.abi.toNat), numField rx "mask" r.mask, ("regs", numsChars rx r.regs.data)]

def DataSource.chars (x : Outside) (host decl : Order) (v : U64) : Layout :=
  structChars "DataSource" false [("mem_op", flagChars rx x "MemOp" (DataSource.memOp host decl v).toNat),
    ("mem_lvl", flagChars rx x "MemLevel" (DataSource.memLvl host decl v).toNat),
    ("mem_snoop", flagChars rx x "MemSnoop" (DataSource.memSnoop host decl v).toNat),
    ("mem_lock", flagChars rx x "MemLock" (DataSource.memLock host decl v).toNat),
    ("mem_dtlb", flagChars rx x "MemDtlb" (DataSource.memDtlb host decl v).toNat),
    ("mem_lvl_num", flagChars rx x "MemLevelNum" (DataSource.memLvlNum host decl v).toNat),
    ("mem_remote", boolChars (DataSource.memRemote host decl v)),
    ("mem_blk", flagChars rx x "MemBlk" (DataSource.memBlk host decl v).toNat),
    numField rx "mem_hops" (DataSource.memHops host decl v)]

/-- `es` are the entries of `values`. -/
def Sample.chars (x : Outside) (host decl : Order) (s : Sample Cow) (es : List GroupEntry) : Layout :=
  structChars "Sample" true (
    optField "ip" s.ip (numChars rx ·.toNat) ++
    optField "pid" s.pid (numChars rx ·.toNat) ++
    optField "tid" s.tid (numChars rx ·.toNat) ++
    optField "time" s.time (numChars rx ·.toNat) ++
    optField "addr" s.addr addrChars ++
    optField "id" s.id (numChars rx ·.toNat) ++
    optField "stream_id" s.streamId (numChars rx ·.toNat) ++
    optField "cpu" s.cpu (numChars rx ·.toNat) ++
    optField "period" s.period (numChars rx ·.toNat) ++
    optField "values" s.values (fun g => ReadGroup.chars rx g es) ++
    optField "callchain" s.callchain (fun c => numsChars rx c.data) ++
    optField "raw" s.raw (fun c => numsChars rx c.data) ++
    optField "lbr_hw_index" s.lbrHwIndex (numChars rx ·.toNat) ++
    optField "lbr" s.lbr (fun c => listChars (c.data.map (branchChars rx x))) ++
    optField "regs_user" s.regsUser (Registers.chars rx x) ++
    optField "stack_user" s.stackUser (fun c => numsChars rx c.data) ++
    optField "weight" s.weight (numChars rx ·.toNat) ++
    optField "data_src" s.dataSrc (DataSource.chars rx x host decl) ++
    optField "transaction" s.transaction (fun t => flagChars rx x "Txn" t.toNat) ++
    optField "regs_intr" s.regsIntr (Registers.chars rx x) ++
    optField "phys_addr" s.physAddr addrChars ++
    optField "aux" s.aux (fun c => numsChars rx c.data) ++
    optField "cgroup" s.cgroup (numChars rx ·.toNat) ++
    optField "data_page_size" s.dataPageSize (numChars rx ·.toNat) ++
    optField "code_page_size" s.codePageSize (numChars rx ·.toNat))

def SampleId.chars (s : SampleId) : Layout :=
  structChars "SampleId" true (optField "pid" s.pid (numChars rx ·.toNat) ++ optField "tid" s.tid (numChars rx ·.toNat) ++
    optField "time" s.time (numChars rx ·.toNat) ++ optField "id" s.id (numChars rx ·.toNat) ++
    optField "stream_id" s.streamId (numChars rx ·.toNat) ++ optField "cpu" s.cpu (numChars rx ·.toNat))

def Metadata.chars (m : Metadata) : Layout :=
  structChars "RecordMetadata" false [numField rx "ty" m.ty, numField rx "misc" m.misc, ("sample_id", m.sampleId.chars rx)]

/-- `0x` and upper case digits, without leading zeros. -/
def hexChars (n : Nat) : Layout := text ('0' :: 'x' :: (Nat.toDigits 16 n).map Char.toUpper)

def ParseConfig.chars (x : Outside) (c : ParseConfig) : Layout :=
  structChars "ParseConfig" false [("read_format", flagChars rx x "ReadFormat" c.readFormat.toNat),
    ("sample_type", flagChars rx x "SampleFlags" c.sampleType.toNat), ("sample_id_all", boolChars c.sampleIdAll),
    ("branch_hw_index", boolChars c.branchHwIndex), ("misc", hexChars c.misc.toNat), ("regs_user", hexChars c.regsUser.toNat),
    ("regs_intr", hexChars c.regsIntr.toNat)]

/-- Text that need not be valid, as `ByteStr` prints it (C44): valid pieces escaped, other bytes as `\xNN`. -/
def nameChars (x : Outside) (bs : List Byte) (t : Layout) : Prop :=
  ∃ ps, byteStr bs = some ps ∧ t = text ((byteStrRender x.escapeText ps).map Char.ofNat)

/-- The text of a MMAP2 build id, if there is one, as `HexStr` prints it (see C43). -/
def Mmap2.detailChars (m : Mmap2 Cow) (id : Option (List Byte)) : List (String × Layout) :=
  match m.detail with
  | .default maj min ino gen => [numField rx "maj" maj, numField rx "min" min, numField rx "ino" ino, numField rx "ino_generation" gen]
  | .buildId .. => optField "build_id" id fun b => text ((hexStr b).map Char.ofNat)

/-- `t` is how the record prints. -/
def Record.Shows (x : Outside) (host decl : Order) (r : Record Cow) (t : Layout) : Prop :=
  match r with
  | .mmap r => ∃ n, nameChars x r.filename.data n ∧ t = tupleChars "Mmap" (structChars "Mmap" false
      [numField rx "pid" r.pid, numField rx "tid" r.tid, ("addr", addrChars r.addr), numField rx "len" r.len, numField rx "pgoff" r.pgoff, ("filename", n)])
  | .lost r => t = tupleChars "Lost" (structChars "Lost" false [numField rx "id" r.id, numField rx "lost" r.lost])
  | .comm r => ∃ n, nameChars x r.comm.data n ∧ t = tupleChars "Comm" (structChars "Comm" false
      [numField rx "pid" r.pid, numField rx "tid" r.tid, ("comm", n)])
  | .exit r => t = tupleChars "Exit" (structChars "Exit" false
      [numField rx "pid" r.pid, numField rx "ppid" r.ppid, numField rx "tid" r.tid, numField rx "ptid" r.ptid, numField rx "time" r.time])
  | .fork r => t = tupleChars "Fork" (structChars "Exit" false
      [numField rx "pid" r.pid, numField rx "ppid" r.ppid, numField rx "tid" r.tid, numField rx "ptid" r.ptid, numField rx "time" r.time])
  | .throttle r => t = tupleChars "Throttle" (structChars "Throttle" false
      [numField rx "time" r.time, numField rx "id" r.id, numField rx "stream_id" r.streamId])
  | .unthrottle r => t = tupleChars "Unthrottle" (structChars "Throttle" false
      [numField rx "time" r.time, numField rx "id" r.id, numField rx "stream_id" r.streamId])
  | .read r => t = tupleChars "Read" (structChars "Read" false [numField rx "pid" r.pid, numField rx "tid" r.tid, ("values", r.values.chars rx)])
  | .sample r => ∃ es, (∀ g, r.values = some g → g.entries.collect (g.len + 1) = .ok es) ∧ t = tupleChars "Sample" (r.chars rx x host decl es)
  | .mmap2 r => ∃ n id, nameChars x r.filename.data n ∧ r.buildId = some id ∧ t = tupleChars "Mmap2" (structChars "Mmap2" false
      (numField rx "pid" r.pid :: numField rx "tid" r.tid :: ("addr", addrChars r.addr) :: numField rx "len" r.len :: numField rx "pgoff" r.pgoff ::
        (r.detailChars rx id ++ [numField rx "prot" r.prot, numField rx "flags" r.flags, ("filename", n)])))
  | .aux r => t = tupleChars "Aux" (structChars "Aux" false [numField rx "aux_offset" r.auxOffset, numField rx "aux_size" r.auxSize,
      ("flags", flagChars rx x "AuxFlags" r.flags.toNat)])
  | .itraceStart r => t = tupleChars "ITraceStart" (structChars "ITraceStart" false [numField rx "pid" r.pid, numField rx "tid" r.tid])
  | .lostSamples r => t = tupleChars "LostSamples" (structChars "LostSamples" false [numField rx "lost" r.lost])
  | .switch => t = text ['S', 'w', 'i', 't', 'c', 'h']
  | .switchCpuWide r => t = tupleChars "SwitchCpuWide" (match r with
    | .in pid tid => structChars "In" false [numField rx "pid" pid, numField rx "tid" tid]
    | .out pid tid => structChars "Out" false [numField rx "pid" pid, numField rx "tid" tid])
  | .namespaces r => t = tupleChars "Namespaces" (structChars "Namespaces" false [numField rx "pid" r.pid, numField rx "tid" r.tid,
      ("namespaces", listChars (r.namespaces.data.map fun e => structChars "NamespaceEntry" false
        [numField rx "dev" e.dev, numField rx "inode" e.inode]))])
  | .ksymbol r => ∃ n, nameChars x r.name.data n ∧ t = tupleChars "KSymbol" (structChars "KSymbol" false
      [("addr", addrChars r.addr), numField rx "len" r.len, ("ksym_type", flagChars rx x "KSymbolType" r.ksymType.toNat),
        ("flags", flagChars rx x "KSymbolFlags" r.flags.toNat), ("name", n)])
  | .bpfEvent r => t = tupleChars "BpfEvent" (structChars "BpfEvent" false [("ty", flagChars rx x "BpfEventType" r.ty.toNat),
      numField rx "flags" r.flags, numField rx "id" r.id, ("tag", numsChars rx r.tag)])
  | .cgroup r => ∃ n, nameChars x r.path.data n ∧ t = tupleChars "CGroup" (structChars "CGroup" false [numField rx "id" r.id, ("path", n)])
  | .textPoke r => t = tupleChars "TextPoke" (structChars "TextPoke" false
      [("addr", addrChars r.addr), ("old_bytes", numsChars rx r.oldBytes.data), ("new_bytes", numsChars rx r.newBytes.data)])
  | .auxOutputHwId r => t = tupleChars "AuxOutputHwId" (structChars "AuxOutputHwId" false [numField rx "hw_id" r.hwId])
  | .unknown ty d => t = structChars "Unknown" false [numField rx "ty" ty, ("data", numsChars rx d.data)]

end
end Perf
