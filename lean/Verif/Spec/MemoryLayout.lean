import Verif.Spec.CodeLayout
/-!
# The records the crate takes from memory

The layout that the code of /repo expects of a record in memory. It is that of Spec/CodeLayout.lean, with two differences. A list of words in
the host's byte order whose address is not a multiple of 8 is preceded by as many bytes as it is long, which are dropped (B2). And a TEXT_POKE
is what the kernel means by it (B7 concerns copies only).
-/
namespace Perf

/-- The bytes that are dropped in front of each list. -/
structure Dropped where
  values : List Byte := []
  callchain : List Byte := []
  lbr : List Byte := []
  regsUser : List Byte := []
  regsIntr : List Byte := []
  entries : List Byte := []

/-- How many bytes are dropped in front of a list of `n` bytes at the address `a`. -/
def dropLen (native : Bool) (a n : Nat) : Nat := if native = true ∧ a % 8 ≠ 0 then n else 0

/-- Counters, with bytes in front of them. -/
def KGroup.encHeld (o : Order) (rf : U64) (d : List Byte) (g : KGroup) : List Byte :=
  e64 o (BitVec.ofNat 64 g.counters.length) ++ opt (rf.getLsbD 0) (e64 o g.timeEnabled) ++
  opt (rf.getLsbD 1) (e64 o g.timeRunning) ++ d ++ (g.counters.flatMap (KCounter.words rf)).flatMap (e64 o)

/-- A register dump, with bytes in front of the registers. -/
def KRegs.encHeld (o : Order) (d : List Byte) (r : KRegs) : List Byte := e64 o r.abi ++ d ++ r.values.flatMap (e64 o)

namespace KSample

/-- The parts of a sample in the order in which they are read. -/
def partsHeld (o : Order) (st rf : U64) (hwIndex : Bool) (d : Dropped) (s : KSample) : List (List Byte) :=
  [opt (st.getLsbD 16) (e64 o s.identifier),
   opt (st.getLsbD 0) (e64 o s.ip),
   opt (st.getLsbD 1) (e32 o s.pid ++ e32 o s.tid),
   opt (st.getLsbD 2) (e64 o s.time),
   opt (st.getLsbD 3) (e64 o s.addr),
   opt (st.getLsbD 6) (e64 o s.id),
   opt (st.getLsbD 9) (e64 o s.streamId),
   opt (st.getLsbD 7) (e32 o s.cpu ++ e32 o s.res),
   opt (st.getLsbD 8) (e64 o s.period),
   opt (st.getLsbD 4) (if rf.getLsbD 3 then s.group.encHeld o rf d.values else s.read.enc o rf),
   opt (st.getLsbD 5) (e64 o (BitVec.ofNat 64 s.callchain.length) ++ d.callchain ++ s.callchain.flatMap (e64 o)),
   opt (st.getLsbD 10) (s.encRaw o),
   opt (st.getLsbD 11) (e64 o (BitVec.ofNat 64 s.lbr.length) ++ opt hwIndex (e64 o s.lbrHwIndex) ++ d.lbr ++ s.lbr.flatMap (encBranch o)),
   opt (st.getLsbD 12) (s.regsUser.encHeld o d.regsUser),
   opt (st.getLsbD 13) (s.encStack o),
   opt (st.getLsbD 14) (e64 o s.weight),
   opt (st.getLsbD 15) (e64 o s.dataSrc),
   opt (st.getLsbD 17) (e64 o s.transaction),
   opt (st.getLsbD 18) (s.regsIntr.encHeld o d.regsIntr),
   opt (st.getLsbD 19) (e64 o s.physAddr),
   opt (st.getLsbD 21) (e64 o s.cgroup),
   opt (st.getLsbD 22) (e64 o s.dataPageSize),
   opt (st.getLsbD 23) (e64 o s.codePageSize),
   opt (st.getLsbD 20) (s.encAux o)]

/-- All of them. -/
def encHeld (o : Order) (st rf : U64) (hwIndex : Bool) (d : Dropped) (s : KSample) : List Byte := (s.partsHeld o st rf hwIndex d).flatten

/-- What comes after part number `i`. -/
def afterHeld (o : Order) (st rf : U64) (hwIndex : Bool) (d : Dropped) (s : KSample) (i : Nat) : List Byte :=
  ((s.partsHeld o st rf hwIndex d).drop (i + 1)).flatten

/-- The samples that are taken at an address that is `a` modulo 8, with `extra` behind them: their lengths are right, nothing empty stands
at the very end, and in front of every list stands what is dropped. Of the parts only a user stack can change the address modulo 8, and of
the lists only the interrupt registers come after it. -/
structure Held (native : Bool) (o : Order) (st rf ru ri : U64) (hwIndex : Bool) (a : Nat) (d : Dropped) (extra : List Byte) (s : KSample) : Prop where
  rawPad : st.getLsbD 10 = true → s.rawPad.length < 8 ∧ (4 + s.raw.length + s.rawPad.length) % 8 = 0
  dynSize : st.getLsbD 13 = true → s.stack ≠ [] → s.dynSize.toNat ≤ s.stack.length
  regsUser : st.getLsbD 12 = true → s.regsUser.values.length = popcount ru
  regsIntr : st.getLsbD 18 = true → s.regsIntr.values.length = popcount ri
  readFormat : st.getLsbD 4 = true → rf.getLsbD 5 = false
  dropValues : st.getLsbD 4 = true → rf.getLsbD 3 = true →
    d.values.length = dropLen native a (8 * (s.group.counters.flatMap (KCounter.words rf)).length)
  dropCallchain : st.getLsbD 5 = true → d.callchain.length = dropLen native a (8 * s.callchain.length)
  dropLbr : st.getLsbD 11 = true → d.lbr.length = dropLen native a (24 * s.lbr.length)
  dropRegsUser : st.getLsbD 12 = true → d.regsUser.length = dropLen native a (8 * s.regsUser.values.length)
  dropRegsIntr : st.getLsbD 18 = true →
    d.regsIntr.length = dropLen native (a + if st.getLsbD 13 then s.stack.length else 0) (8 * s.regsIntr.values.length)
  endValues : native = true → st.getLsbD 4 = true → rf.getLsbD 3 = true → s.group.counters = [] →
    s.afterHeld o st rf hwIndex d 9 ++ extra ≠ []
  endCallchain : native = true → st.getLsbD 5 = true → s.callchain = [] → s.afterHeld o st rf hwIndex d 10 ++ extra ≠ []
  endLbr : native = true → st.getLsbD 11 = true → s.lbr = [] → s.afterHeld o st rf hwIndex d 12 ++ extra ≠ []
  endRegsUser : native = true → st.getLsbD 12 = true → s.regsUser.values = [] → s.afterHeld o st rf hwIndex d 13 ++ extra ≠ []
  endStack : st.getLsbD 13 = true → s.stack = [] → s.afterHeld o st rf hwIndex d 14 ++ extra ≠ []
  endRegsIntr : native = true → st.getLsbD 18 = true → s.regsIntr.values = [] → s.afterHeld o st rf hwIndex d 18 ++ extra ≠ []
  endAux : st.getLsbD 20 = true → s.aux = [] → extra ≠ []

end KSample

/-- A body as it is read. -/
def KBody.encHeld (o : Order) (cfg : ParseConfig) (d : Dropped) : KBody → List Byte
  | .sample s => s.encHeld o cfg.sampleType cfg.readFormat cfg.branchHwIndex d
  | .namespaces pid tid entries => e32 o pid ++ e32 o tid ++ e64 o (BitVec.ofNat 64 entries.length) ++ d.entries ++
      entries.flatMap fun e => e64 o e.dev ++ e64 o e.inode
  | b => b.enc o cfg

/-- What is returned for a body. -/
def KBody.valueHeld (cfg : ParseConfig) (misc : U16) : KBody → Record List
  | .sample s => .sample (s.valueTaken cfg.sampleType cfg.readFormat cfg.regsUser cfg.regsIntr cfg.branchHwIndex)
  | b => b.value cfg misc

/-- The bodies that are taken at an address that is `a` modulo 8, with `extra` behind them. -/
def KBody.Held (o : Order) (cfg : ParseConfig) (misc : U16) (a : Nat) (d : Dropped) (extra : List Byte) : KBody → Prop
  | .sample s => s.Held cfg.endian.isNative o cfg.sampleType cfg.readFormat cfg.regsUser cfg.regsIntr cfg.branchHwIndex a d extra
  | .namespaces _ _ entries => d.entries.length = dropLen cfg.endian.isNative a (16 * entries.length) ∧
      (cfg.endian.isNative = true → entries = [] → extra ≠ [])
  | b => b.Taken o cfg misc extra

/-- The size of a record that is taken, apart from bytes that belong to nothing. -/
def KRecord.sizeHeld (o : Order) (cfg : ParseConfig) (d : Dropped) (r : KRecord) : Nat :=
  8 + (r.body.encHeld o cfg d).length + (r.encTrailer o cfg).length

/-- `struct perf_event_header`, body, bytes that belong to nothing, trailer. -/
def KRecord.encHeld (o : Order) (cfg : ParseConfig) (r : KRecord) (d : Dropped) (extra : List Byte) : List Byte :=
  e32 o r.body.type ++ e16 o r.misc ++ e16 o (BitVec.ofNat 16 (r.sizeHeld o cfg d + extra.length)) ++ r.body.encHeld o cfg d ++ extra ++
    r.encTrailer o cfg

/-- At the address `a` the bytes `bs` start with a record that is taken, with the bytes `d` in front of its lists and `extra` between body
and trailer. (The header is 8 bytes long, so that the address of the body is the same modulo 8.) -/
structure KRecord.HeldFrom (o : Order) (cfg : ParseConfig) (a : Nat) (r : KRecord) (d : Dropped) (extra bs : List Byte) : Prop where
  held : r.body.Held o cfg r.misc a d extra
  small : r.sizeHeld o cfg d + extra.length < 65536
  toEnd : r.body.toEnd = true → extra = []
  bytes : r.encHeld o cfg d extra <+: bs

end Perf
