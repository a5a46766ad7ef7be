import Verif.Spec.Record
/-!
# Byte layout of perf records as written by the kernel

Written from `include/uapi/linux/perf_event.h` and perf_event_open(2), independently of the parsers. Used in the
statements of the round-trip properties: parsing the layout of a value gives back the value.
-/
namespace Perf

/-! ## Integers -/

/-- The `n` least significant base-256 digits of `v`, least significant first. -/
def digits : Nat → Nat → List Byte
  | 0, _ => []
  | n + 1, v => BitVec.ofNat 8 v :: digits n (v / 256)

/-- `v` as `n` bytes in byte order `o`. -/
def enc (o : Order) (n v : Nat) : List Byte :=
  match o with
  | .little => digits n v
  | .big => (digits n v).reverse

def e16 (o : Order) (x : U16) : List Byte := enc o 2 x.toNat
def e32 (o : Order) (x : U32) : List Byte := enc o 4 x.toNat
def e64 (o : Order) (x : U64) : List Byte := enc o 8 x.toNat

/-- Something that is only written if a flag is set. -/
def opt (c : Bool) (bs : List Byte) : List Byte := if c then bs else []
/-- The value of something that is only there if a flag is set. -/
def optv {α : Type} (c : Bool) (a : α) : Option α := if c then some a else none

/-! ## The `sample_id` trailer -/

/-- The values the kernel has for `struct sample_id`. -/
structure KTrailer where
  pid : U32
  tid : U32
  time : U64
  id : U64
  streamId : U64
  cpu : U32
  res : U32
  identifier : U64

/-- `struct sample_id` for the `sample_type` bits `st`. -/
def KTrailer.enc (o : Order) (st : U64) (t : KTrailer) : List Byte :=
  opt (st.getLsbD 1) (e32 o t.pid ++ e32 o t.tid) ++ opt (st.getLsbD 2) (e64 o t.time) ++
  opt (st.getLsbD 6) (e64 o t.id) ++ opt (st.getLsbD 9) (e64 o t.streamId) ++
  opt (st.getLsbD 7) (e32 o t.cpu ++ e32 o t.res) ++ opt (st.getLsbD 16) (e64 o t.identifier)

/-- What `id()` should be: the ID field, or else the IDENTIFIER field. -/
def chooseId (st : U64) (id identifier : U64) : Option U64 :=
  if st.getLsbD 6 then some id else if st.getLsbD 16 then some identifier else none

/-- The trailer as the crate's `SampleId`. -/
def KTrailer.value (st : U64) (t : KTrailer) : SampleId :=
  { pid := optv (st.getLsbD 1) t.pid, tid := optv (st.getLsbD 1) t.tid, time := optv (st.getLsbD 2) t.time
    id := chooseId st t.id t.identifier, streamId := optv (st.getLsbD 9) t.streamId, cpu := optv (st.getLsbD 7) t.cpu }

/-! ## Counter values -/

/-- One counter read without `PERF_FORMAT_GROUP`. -/
structure KRead where
  value : U64
  timeEnabled : U64
  timeRunning : U64
  id : U64
  lost : U64

/-- `struct read_format` without GROUP (`rf`: bits of `read_format`). -/
def KRead.enc (o : Order) (rf : U64) (k : KRead) : List Byte :=
  e64 o k.value ++ opt (rf.getLsbD 0) (e64 o k.timeEnabled) ++ opt (rf.getLsbD 1) (e64 o k.timeRunning) ++
  opt (rf.getLsbD 2) (e64 o k.id) ++ opt (rf.getLsbD 4) (e64 o k.lost)

def KRead.readValue (rf : U64) (k : KRead) : ReadValue :=
  { readFormat := rf, value := k.value
    timeEnabled := if rf.getLsbD 0 then k.timeEnabled else 0#64
    timeRunning := if rf.getLsbD 1 then k.timeRunning else 0#64
    id := if rf.getLsbD 2 then k.id else 0#64
    lost := if rf.getLsbD 4 then k.lost else 0#64 }

/-- One counter of a group read. -/
structure KCounter where
  value : U64
  id : U64
  lost : U64

/-- The words written for one counter. -/
def KCounter.words (rf : U64) (c : KCounter) : List U64 :=
  [c.value] ++ (if rf.getLsbD 2 then [c.id] else []) ++ (if rf.getLsbD 4 then [c.lost] else [])

/-- A group read. -/
structure KGroup where
  timeEnabled : U64
  timeRunning : U64
  counters : List KCounter

/-- `struct read_format` with GROUP. -/
def KGroup.enc (o : Order) (rf : U64) (g : KGroup) : List Byte :=
  e64 o (BitVec.ofNat 64 g.counters.length) ++ opt (rf.getLsbD 0) (e64 o g.timeEnabled) ++
  opt (rf.getLsbD 1) (e64 o g.timeRunning) ++ (g.counters.flatMap (KCounter.words rf)).flatMap (e64 o)

def KGroup.readGroup (rf : U64) (g : KGroup) : ReadGroup List :=
  { readFormat := rf
    timeEnabled := if rf.getLsbD 0 then g.timeEnabled else 0#64
    timeRunning := if rf.getLsbD 1 then g.timeRunning else 0#64
    data := g.counters.flatMap (KCounter.words rf) }

/-! ## Samples -/

/-- Registers as dumped by the kernel. -/
structure KRegs where
  abi : U64
  values : List U64

/-- `abi`, then the values; none are written for `PERF_SAMPLE_REGS_ABI_NONE`. -/
def KRegs.enc (o : Order) (r : KRegs) : List Byte :=
  e64 o r.abi ++ (if r.abi = 0#64 then [] else r.values.flatMap (e64 o))

/-- `struct perf_branch_entry`: from, to, and the bit field as one word. -/
def encBranch (o : Order) (b : BranchEntry) : List Byte := e64 o b.from_ ++ e64 o b.to ++ e64 o b.bits

/-- The values the kernel has for a sample. `rawPad` is what follows the raw data. -/
structure KSample where
  identifier : U64
  ip : U64
  pid : U32
  tid : U32
  time : U64
  addr : U64
  id : U64
  streamId : U64
  cpu : U32
  res : U32
  period : U64
  read : KRead
  group : KGroup
  callchain : List U64
  raw : List Byte
  rawPad : List Byte
  lbrHwIndex : U64
  lbr : List BranchEntry
  regsUser : KRegs
  stack : List Byte
  dynSize : U64
  weight : U64
  dataSrc : U64
  transaction : U64
  regsIntr : KRegs
  physAddr : U64
  cgroup : U64
  dataPageSize : U64
  codePageSize : U64
  aux : List Byte

namespace KSample

/-- Counter values inside a sample. -/
def encValues (o : Order) (rf : U64) (s : KSample) : List Byte :=
  if rf.getLsbD 3 then s.group.enc o rf else s.read.enc o rf
def encCallchain (o : Order) (s : KSample) : List Byte :=
  e64 o (BitVec.ofNat 64 s.callchain.length) ++ s.callchain.flatMap (e64 o)
def encRaw (o : Order) (s : KSample) : List Byte :=
  e32 o (BitVec.ofNat 32 s.raw.length) ++ s.raw ++ s.rawPad
def encLbr (o : Order) (hwIndex : Bool) (s : KSample) : List Byte :=
  e64 o (BitVec.ofNat 64 s.lbr.length) ++ opt hwIndex (e64 o s.lbrHwIndex) ++ s.lbr.flatMap (encBranch o)
def encStack (o : Order) (s : KSample) : List Byte :=
  e64 o (BitVec.ofNat 64 s.stack.length) ++ s.stack ++ (if s.stack = [] then [] else e64 o s.dynSize)
def encAux (o : Order) (s : KSample) : List Byte :=
  e64 o (BitVec.ofNat 64 s.aux.length) ++ s.aux

/-- The parts of a PERF_RECORD_SAMPLE body in the order the kernel writes them (`perf_output_sample`), for the
`sample_type` bits `st`, the `read_format` bits `rf` and branch stacks with or without the hardware index. -/
def parts (o : Order) (st rf : U64) (hwIndex : Bool) (s : KSample) : List (List Byte) :=
  [opt (st.getLsbD 16) (e64 o s.identifier),
   opt (st.getLsbD 0) (e64 o s.ip),
   opt (st.getLsbD 1) (e32 o s.pid ++ e32 o s.tid),
   opt (st.getLsbD 2) (e64 o s.time),
   opt (st.getLsbD 3) (e64 o s.addr),
   opt (st.getLsbD 6) (e64 o s.id),
   opt (st.getLsbD 9) (e64 o s.streamId),
   opt (st.getLsbD 7) (e32 o s.cpu ++ e32 o s.res),
   opt (st.getLsbD 8) (e64 o s.period),
   opt (st.getLsbD 4) (s.encValues o rf),
   opt (st.getLsbD 5) (s.encCallchain o),
   opt (st.getLsbD 10) (s.encRaw o),
   opt (st.getLsbD 11) (s.encLbr o hwIndex),
   opt (st.getLsbD 12) (s.regsUser.enc o),
   opt (st.getLsbD 13) (s.encStack o),
   opt (st.getLsbD 14 || st.getLsbD 24) (e64 o s.weight),
   opt (st.getLsbD 15) (e64 o s.dataSrc),
   opt (st.getLsbD 17) (e64 o s.transaction),
   opt (st.getLsbD 18) (s.regsIntr.enc o),
   opt (st.getLsbD 19) (e64 o s.physAddr),
   opt (st.getLsbD 21) (e64 o s.cgroup),
   opt (st.getLsbD 22) (e64 o s.dataPageSize),
   opt (st.getLsbD 23) (e64 o s.codePageSize),
   opt (st.getLsbD 20) (s.encAux o)]

/-- A PERF_RECORD_SAMPLE body. -/
def enc (o : Order) (st rf : U64) (hwIndex : Bool) (s : KSample) : List Byte := (s.parts o st rf hwIndex).flatten

/-- The counter values as the crate's `ReadGroup`. -/
def readGroup (rf : U64) (s : KSample) : ReadGroup List :=
  if rf.getLsbD 3 then s.group.readGroup rf
  else
    { readFormat := rf ||| 8#64
      timeEnabled := if rf.getLsbD 0 then s.read.timeEnabled else 0#64
      timeRunning := if rf.getLsbD 1 then s.read.timeRunning else 0#64
      data := KCounter.words rf ⟨s.read.value, s.read.id, s.read.lost⟩ }

/-- The sample as the crate's `Sample`. `ru`, `ri` are the register masks of the configuration. -/
def value (st rf ru ri : U64) (hwIndex : Bool) (s : KSample) : Sample List :=
  { ip := optv (st.getLsbD 0) s.ip
    pid := optv (st.getLsbD 1) s.pid
    tid := optv (st.getLsbD 1) s.tid
    time := optv (st.getLsbD 2) s.time
    addr := optv (st.getLsbD 3) s.addr
    id := chooseId st s.id s.identifier
    streamId := optv (st.getLsbD 9) s.streamId
    cpu := optv (st.getLsbD 7) s.cpu
    period := optv (st.getLsbD 8) s.period
    values := optv (st.getLsbD 4) (s.readGroup rf)
    callchain := optv (st.getLsbD 5) s.callchain
    raw := optv (st.getLsbD 10) s.raw
    lbrHwIndex := optv (st.getLsbD 11 && hwIndex) s.lbrHwIndex
    lbr := optv (st.getLsbD 11) s.lbr
    regsUser := optv (st.getLsbD 12) ⟨s.regsUser.abi, ru, s.regsUser.values⟩
    stackUser := optv (st.getLsbD 13) (if s.stack = [] then [] else s.stack.take s.dynSize.toNat)
    weight := optv (st.getLsbD 14 || st.getLsbD 24) s.weight
    dataSrc := optv (st.getLsbD 15) s.dataSrc
    transaction := optv (st.getLsbD 17) s.transaction
    regsIntr := optv (st.getLsbD 18) ⟨s.regsIntr.abi, ri, s.regsIntr.values⟩
    physAddr := optv (st.getLsbD 19) s.physAddr
    aux := optv (st.getLsbD 20) s.aux
    cgroup := optv (st.getLsbD 21) s.cgroup
    dataPageSize := optv (st.getLsbD 22) s.dataPageSize
    codePageSize := optv (st.getLsbD 23) s.codePageSize }

/-- What comes after part number `i`. -/
def after (o : Order) (st rf : U64) (hwIndex : Bool) (s : KSample) (i : Nat) : List Byte :=
  ((s.parts o st rf hwIndex).drop (i + 1)).flatten

/-- The samples that round-trip. The first group of conditions is what the kernel guarantees, the second excludes
what the crate does not decode (see DESIGN.md for what happens instead): `WEIGHT_STRUCT`, register dumps without
registers, unknown `read_format` bits, and empty payloads at the very end of the record. -/
structure Ok (native : Bool) (o : Order) (st rf ru ri : U64) (hwIndex : Bool) (s : KSample) : Prop where
  rawPad : st.getLsbD 10 = true → s.rawPad.length < 8 ∧ (4 + s.raw.length + s.rawPad.length) % 8 = 0
  stack : st.getLsbD 13 = true → s.stack.length % 8 = 0 ∧ (s.stack ≠ [] → s.dynSize.toNat ≤ s.stack.length)
  regsUserLen : st.getLsbD 12 = true → s.regsUser.values.length = popcount ru
  regsIntrLen : st.getLsbD 18 = true → s.regsIntr.values.length = popcount ri
  weightStruct : st.getLsbD 24 = false
  regsUserAbi : st.getLsbD 12 = true → s.regsUser.abi ≠ 0#64
  regsIntrAbi : st.getLsbD 18 = true → s.regsIntr.abi ≠ 0#64
  readFormat : st.getLsbD 4 = true → rf.getLsbD 5 = false
  endValues : native = true → st.getLsbD 4 = true → rf.getLsbD 3 = true → s.group.counters = [] → s.after o st rf hwIndex 9 ≠ []
  endCallchain : native = true → st.getLsbD 5 = true → s.callchain = [] → s.after o st rf hwIndex 10 ≠ []
  endLbr : native = true → st.getLsbD 11 = true → s.lbr = [] → s.after o st rf hwIndex 12 ≠ []
  endRegsUser : native = true → st.getLsbD 12 = true → s.regsUser.values = [] → s.after o st rf hwIndex 13 ≠ []
  endStack : st.getLsbD 13 = true → s.stack = [] → s.after o st rf hwIndex 14 ≠ []
  endRegsIntr : native = true → st.getLsbD 18 = true → s.regsIntr.values = [] → s.after o st rf hwIndex 18 ≠ []
  endAux : st.getLsbD 20 = true → s.aux ≠ []

end KSample

/-! ## Record bodies -/

/-- A name followed by NUL padding. -/
structure KName where
  text : List Byte
  pad : Nat

def KName.enc (n : KName) : List Byte := n.text ++ List.replicate n.pad 0#8

/-- A C string padded with NULs: the text does not itself end in NUL, and at least one byte is written. -/
def KName.Ok (n : KName) : Prop := n.text.getLast? ≠ some 0#8 ∧ n.enc ≠ []

/-- The union in MMAP2. -/
inductive KDetail where
  | inode (maj min : U32) (ino inoGeneration : U64)
  | buildId (size reserved1 : U8) (reserved2 : U16) (id : List Byte)

def KDetail.enc (o : Order) : KDetail → List Byte
  | .inode maj min ino gen => e32 o maj ++ e32 o min ++ e64 o ino ++ e64 o gen
  | .buildId size r1 r2 id => [size] ++ [r1] ++ e16 o r2 ++ id

def KDetail.value : KDetail → MmapDetail
  | .inode maj min ino gen => .default maj min ino gen
  | .buildId size _ _ id => .buildId id size

/-- The record types of the kernel with their contents. -/
inductive KBody where
  | mmap (pid tid : U32) (addr len pgoff : U64) (name : KName)
  | lost (r : Lost)
  | comm (pid tid : U32) (name : KName)
  | exit (r : Exit)
  | throttle (r : Throttle)
  | unthrottle (r : Throttle)
  | fork (r : Exit)
  | read (pid tid : U32) (values : KRead)
  | sample (s : KSample)
  | mmap2 (pid tid : U32) (addr len pgoff : U64) (detail : KDetail) (prot flags : U32) (name : KName)
  | aux (r : Aux)
  | itraceStart (r : ITraceStart)
  | lostSamples (r : LostSamples)
  | switch
  | switchCpuWide (pid tid : U32)
  | namespaces (pid tid : U32) (entries : List NamespaceEntry)
  | ksymbol (addr : U64) (len : U32) (ksymType flags : U16) (name : KName)
  | bpfEvent (r : BpfEvent)
  | cgroup (id : U64) (name : KName)
  | textPoke (addr : U64) (old new pad : List Byte)
  | auxOutputHwId (r : AuxOutputHwId)
  | other (ty : U32) (data : List Byte)

/-- `PERF_RECORD_*`. -/
def KBody.type : KBody → U32
  | .mmap .. => 1
  | .lost _ => 2
  | .comm .. => 3
  | .exit _ => 4
  | .throttle _ => 5
  | .unthrottle _ => 6
  | .fork _ => 7
  | .read .. => 8
  | .sample _ => 9
  | .mmap2 .. => 10
  | .aux _ => 11
  | .itraceStart _ => 12
  | .lostSamples _ => 13
  | .switch => 14
  | .switchCpuWide .. => 15
  | .namespaces .. => 16
  | .ksymbol .. => 17
  | .bpfEvent _ => 18
  | .cgroup .. => 19
  | .textPoke .. => 20
  | .auxOutputHwId _ => 21
  | .other ty _ => ty

/-- The body (after the header, before the `sample_id` trailer) written in byte order `o` for an event with the
settings of `cfg`. -/
def KBody.enc (o : Order) (cfg : ParseConfig) : KBody → List Byte
  | .mmap pid tid addr len pgoff name => e32 o pid ++ e32 o tid ++ e64 o addr ++ e64 o len ++ e64 o pgoff ++ name.enc
  | .lost r => e64 o r.id ++ e64 o r.lost
  | .comm pid tid name => e32 o pid ++ e32 o tid ++ name.enc
  | .exit r | .fork r => e32 o r.pid ++ e32 o r.ppid ++ e32 o r.tid ++ e32 o r.ptid ++ e64 o r.time
  | .throttle r | .unthrottle r => e64 o r.time ++ e64 o r.id ++ e64 o r.streamId
  | .read pid tid values => e32 o pid ++ e32 o tid ++ values.enc o cfg.readFormat
  | .sample s => s.enc o cfg.sampleType cfg.readFormat cfg.branchHwIndex
  | .mmap2 pid tid addr len pgoff detail prot flags name =>
    e32 o pid ++ e32 o tid ++ e64 o addr ++ e64 o len ++ e64 o pgoff ++ detail.enc o ++ e32 o prot ++ e32 o flags ++ name.enc
  | .aux r => e64 o r.auxOffset ++ e64 o r.auxSize ++ e64 o r.flags
  | .itraceStart r => e32 o r.pid ++ e32 o r.tid
  | .lostSamples r => e64 o r.lost
  | .switch => []
  | .switchCpuWide pid tid => e32 o pid ++ e32 o tid
  | .namespaces pid tid entries =>
    e32 o pid ++ e32 o tid ++ e64 o (BitVec.ofNat 64 entries.length) ++ entries.flatMap fun e => e64 o e.dev ++ e64 o e.inode
  | .ksymbol addr len ksymType flags name => e64 o addr ++ e32 o len ++ e16 o ksymType ++ e16 o flags ++ name.enc
  | .bpfEvent r => e16 o r.ty ++ e16 o r.flags ++ e32 o r.id ++ r.tag
  | .cgroup id name => e64 o id ++ name.enc
  | .textPoke addr old new pad =>
    e64 o addr ++ e16 o (BitVec.ofNat 16 old.length) ++ e16 o (BitVec.ofNat 16 new.length) ++ (old ++ new ++ pad)
  | .auxOutputHwId r => e64 o r.hwId
  | .other _ data => data

/-- The body as the crate's `Record`. -/
def KBody.value (cfg : ParseConfig) (misc : U16) : KBody → Record List
  | .mmap pid tid addr len pgoff name => .mmap ⟨pid, tid, addr, len, pgoff, name.text⟩
  | .lost r => .lost r
  | .comm pid tid name => .comm ⟨pid, tid, name.text⟩
  | .exit r => .exit r
  | .throttle r => .throttle r
  | .unthrottle r => .unthrottle r
  | .fork r => .fork r
  | .read pid tid values => .read ⟨pid, tid, values.readValue cfg.readFormat⟩
  | .sample s => .sample (s.value cfg.sampleType cfg.readFormat cfg.regsUser cfg.regsIntr cfg.branchHwIndex)
  | .mmap2 pid tid addr len pgoff detail prot flags name =>
    .mmap2 ⟨pid, tid, addr, len, pgoff, prot, flags, name.text, detail.value⟩
  | .aux r => .aux r
  | .itraceStart r => .itraceStart r
  | .lostSamples r => .lostSamples r
  | .switch => .switch
  | .switchCpuWide pid tid => .switchCpuWide (if misc.getLsbD 13 then .out pid tid else .in pid tid)
  | .namespaces pid tid entries => .namespaces ⟨pid, tid, entries⟩
  | .ksymbol addr len ksymType flags name => .ksymbol ⟨addr, len, ksymType, flags, name.text⟩
  | .bpfEvent r => .bpfEvent r
  | .cgroup id name => .cgroup ⟨id, name.text⟩
  | .textPoke addr old new _ => .textPoke ⟨addr, old, new⟩
  | .auxOutputHwId r => .auxOutputHwId r
  | .other ty data => .unknown ty data

/-- The union of MMAP2 is chosen by bit 14 of `misc`; build ids are stored in 20 bytes. -/
def KDetail.Ok (misc : U16) : KDetail → Prop
  | .inode .. => misc.getLsbD 14 = false
  | .buildId size _ _ id => misc.getLsbD 14 = true ∧ id.length = 20 ∧ size.toNat ≤ 20

/-- The bodies that round-trip. -/
def KBody.Ok (o : Order) (cfg : ParseConfig) (misc : U16) : KBody → Prop
  | .mmap _ _ _ _ _ name => name.Ok
  | .comm _ _ name => name.Ok
  | .read .. => cfg.readFormat.getLsbD 3 = false ∧ cfg.readFormat.getLsbD 5 = false
  | .sample s => s.Ok cfg.endian.isNative o cfg.sampleType cfg.readFormat cfg.regsUser cfg.regsIntr cfg.branchHwIndex
  | .mmap2 _ _ _ _ _ detail _ _ name => detail.Ok misc ∧ name.Ok
  | .switch => False
  | .namespaces _ _ entries => cfg.endian.isNative = true → entries ≠ []
  | .ksymbol _ _ _ _ name => name.Ok
  | .bpfEvent r => r.tag.length = 8
  | .cgroup _ name => name.Ok
  | .textPoke _ old new pad => old ≠ [] ∧ new ++ pad ≠ [] ∧ pad.length < 8 ∧ (old.length + new.length + pad.length) % 8 = 4
  | .other ty data => data ≠ [] ∧ (ty = 0#32 ∨ 22 ≤ ty.toNat)
  | _ => True

/-- Bodies with arrays that are reinterpreted in place in native byte order. -/
def KBody.needsAlignment : KBody → Bool
  | .sample _ | .namespaces .. => true
  | _ => false

/-! ## Whole records -/

/-- A record. -/
structure KRecord where
  misc : U16
  body : KBody
  trailer : KTrailer

/-- The trailer as written: with `sample_id_all` set, after every record but MMAP and SAMPLE (perf_event_open(2);
the kernel itself also appends it to MMAP, see C58). -/
def KRecord.encTrailer (o : Order) (cfg : ParseConfig) (r : KRecord) : List Byte :=
  if cfg.sampleIdAll && r.body.type != 1#32 && r.body.type != 9#32 then r.trailer.enc o cfg.sampleType else []

/-- Total size in bytes. -/
def KRecord.size (o : Order) (cfg : ParseConfig) (r : KRecord) : Nat :=
  8 + (r.body.enc o cfg).length + (r.encTrailer o cfg).length

/-- `struct perf_event_header`, body, trailer. -/
def KRecord.enc (o : Order) (cfg : ParseConfig) (r : KRecord) : List Byte :=
  e32 o r.body.type ++ e16 o r.misc ++ e16 o (BitVec.ofNat 16 (r.size o cfg)) ++ r.body.enc o cfg ++ r.encTrailer o cfg

/-- The metadata the crate should report. -/
def KRecord.metadata (cfg : ParseConfig) (r : KRecord) : Metadata :=
  { ty := r.body.type, misc := r.misc
    sampleId := if cfg.sampleIdAll && r.body.type != 1#32 && r.body.type != 9#32
      then r.trailer.value cfg.sampleType else SampleId.default }

end Perf
