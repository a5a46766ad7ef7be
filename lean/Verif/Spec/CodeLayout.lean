import Verif.Spec.KernelExtra
/-!
# The records the crate takes from a reader

The layout that the code of /repo expects, which is not quite that of the kernel. It differs (findings of DESIGN.md) in the weight, which is
there only for `WEIGHT` (B8), in register dumps, which always have as many words as the mask has bits (B10), in SWITCH, which is an unknown
record (B3), in the trailer, which MMAP does not have (B12), and in what may stand at the very end of a record (B9). What is taken for the
old and new code of a TEXT_POKE differs, too (B7).
-/
namespace Perf

/-- `abi`, then the values, whatever `abi` is. -/
def KRegs.encTaken (o : Order) (r : KRegs) : List Byte := e64 o r.abi ++ r.values.flatMap (e64 o)

namespace KSample

/-- The parts of a sample in the order in which they are read. -/
def partsTaken (o : Order) (st rf : U64) (hwIndex : Bool) (s : KSample) : List (List Byte) :=
  [opt (st.getLsbD 16) (e64 o s.identifier),
   opt (st.getLsbD 0) (e64 o s.ip),
   opt (st.getLsbD 1) (e32 o s.pid ++ e32 o s.tid),
   opt (st.getLsbD 2) (e64 o s.time),
   opt (st.getLsbD 3) (e64 o s.addr),
   opt (st.getLsbD 6) (e64 o s.id),
   opt (st.getLsbD 9) (e64 o s.streamId),
   opt (st.getLsbD 7) (e32 o s.cpu ++ e32 o s.res),
   opt (st.getLsbD 8) (e64 o s.period),
   opt (st.getLsbD 4) (s.encValues o rf),
   opt (st.getLsbD 5) (s.encCallchain o),
   opt (st.getLsbD 10) (s.encRaw o),
   opt (st.getLsbD 11) (s.encLbr o hwIndex),
   opt (st.getLsbD 12) (s.regsUser.encTaken o),
   opt (st.getLsbD 13) (s.encStack o),
   opt (st.getLsbD 14) (e64 o s.weight),
   opt (st.getLsbD 15) (e64 o s.dataSrc),
   opt (st.getLsbD 17) (e64 o s.transaction),
   opt (st.getLsbD 18) (s.regsIntr.encTaken o),
   opt (st.getLsbD 19) (e64 o s.physAddr),
   opt (st.getLsbD 21) (e64 o s.cgroup),
   opt (st.getLsbD 22) (e64 o s.dataPageSize),
   opt (st.getLsbD 23) (e64 o s.codePageSize),
   opt (st.getLsbD 20) (s.encAux o)]

/-- All of them. -/
def encTaken (o : Order) (st rf : U64) (hwIndex : Bool) (s : KSample) : List Byte := (s.partsTaken o st rf hwIndex).flatten

/-- What comes after part number `i`. -/
def afterTaken (o : Order) (st rf : U64) (hwIndex : Bool) (s : KSample) (i : Nat) : List Byte :=
  ((s.partsTaken o st rf hwIndex).drop (i + 1)).flatten

/-- What is returned. -/
def valueTaken (st rf ru ri : U64) (hwIndex : Bool) (s : KSample) : Sample List :=
  { s.value st rf ru ri hwIndex with weight := optv (st.getLsbD 14) s.weight }

/-- The samples that are taken, with `extra` behind them: their lengths are right, and nothing empty stands at the very end. -/
structure Taken (native : Bool) (o : Order) (st rf ru ri : U64) (hwIndex : Bool) (extra : List Byte) (s : KSample) : Prop where
  rawPad : st.getLsbD 10 = true → s.rawPad.length < 8 ∧ (4 + s.raw.length + s.rawPad.length) % 8 = 0
  dynSize : st.getLsbD 13 = true → s.stack ≠ [] → s.dynSize.toNat ≤ s.stack.length
  regsUser : st.getLsbD 12 = true → s.regsUser.values.length = popcount ru
  regsIntr : st.getLsbD 18 = true → s.regsIntr.values.length = popcount ri
  readFormat : st.getLsbD 4 = true → rf.getLsbD 5 = false
  endValues : native = true → st.getLsbD 4 = true → rf.getLsbD 3 = true → s.group.counters = [] →
    s.afterTaken o st rf hwIndex 9 ++ extra ≠ []
  endCallchain : native = true → st.getLsbD 5 = true → s.callchain = [] → s.afterTaken o st rf hwIndex 10 ++ extra ≠ []
  endLbr : native = true → st.getLsbD 11 = true → s.lbr = [] → s.afterTaken o st rf hwIndex 12 ++ extra ≠ []
  endRegsUser : native = true → st.getLsbD 12 = true → s.regsUser.values = [] → s.afterTaken o st rf hwIndex 13 ++ extra ≠ []
  endStack : st.getLsbD 13 = true → s.stack = [] → s.afterTaken o st rf hwIndex 14 ++ extra ≠ []
  endRegsIntr : native = true → st.getLsbD 18 = true → s.regsIntr.values = [] → s.afterTaken o st rf hwIndex 18 ++ extra ≠ []
  endAux : st.getLsbD 20 = true → s.aux = [] → extra ≠ []

end KSample

/-- A body as it is read. -/
def KBody.encTaken (o : Order) (cfg : ParseConfig) : KBody → List Byte
  | .sample s => s.encTaken o cfg.sampleType cfg.readFormat cfg.branchHwIndex
  | b => b.enc o cfg

/-- What is returned for a body. Of a TEXT_POKE whose old code is empty, the new code and the padding are taken for the old code; one that
has nothing but old code loses it. -/
def KBody.valueTaken (cfg : ParseConfig) (misc : U16) : KBody → Record List
  | .sample s => .sample (s.valueTaken cfg.sampleType cfg.readFormat cfg.regsUser cfg.regsIntr cfg.branchHwIndex)
  | .textPoke addr old new pad =>
    if old = [] then .textPoke ⟨addr, new ++ pad, []⟩
    else if new ++ pad = [] then .textPoke ⟨addr, [], []⟩
    else .textPoke ⟨addr, old, new⟩
  | b => b.value cfg misc

/-- The bodies that are taken, with `extra` behind them. -/
def KBody.Taken (o : Order) (cfg : ParseConfig) (misc : U16) (extra : List Byte) : KBody → Prop
  | .mmap _ _ _ _ _ name => name.Ok
  | .comm _ _ name => name.Ok
  | .read .. => cfg.readFormat.getLsbD 3 = false ∧ cfg.readFormat.getLsbD 5 = false
  | .sample s => s.Taken cfg.endian.isNative o cfg.sampleType cfg.readFormat cfg.regsUser cfg.regsIntr cfg.branchHwIndex extra
  | .mmap2 _ _ _ _ _ detail _ _ name => detail.Ok misc ∧ name.Ok
  | .switch => False
  | .namespaces _ _ entries => cfg.endian.isNative = true → entries = [] → extra ≠ []
  | .ksymbol _ _ _ _ name => name.Ok
  | .bpfEvent r => r.tag.length = 8
  | .cgroup _ name => name.Ok
  | .textPoke _ old new pad => old.length < 65536 ∧ new.length < 65536 ∧ pad.length < 8 ∧ (old.length + new.length + pad.length) % 8 = 4
  | .other ty data => data ≠ [] ∧ (ty = 0#32 ∨ ty = 14#32 ∨ 22 ≤ ty.toNat)
  | _ => True

/-- The size of a record that is taken, apart from bytes that belong to nothing. -/
def KRecord.sizeTaken (o : Order) (cfg : ParseConfig) (r : KRecord) : Nat :=
  8 + (r.body.encTaken o cfg).length + (r.encTrailer o cfg).length

/-- `struct perf_event_header`, body, bytes that belong to nothing, trailer. -/
def KRecord.encTaken (o : Order) (cfg : ParseConfig) (r : KRecord) (extra : List Byte) : List Byte :=
  e32 o r.body.type ++ e16 o r.misc ++ e16 o (BitVec.ofNat 16 (r.sizeTaken o cfg + extra.length)) ++ r.body.encTaken o cfg ++ extra ++
    r.encTrailer o cfg

/-- The bytes `bs` start with a record that is taken, with `extra` between body and trailer. -/
structure KRecord.TakenFrom (o : Order) (cfg : ParseConfig) (r : KRecord) (extra bs : List Byte) : Prop where
  taken : r.body.Taken o cfg r.misc extra
  small : r.sizeTaken o cfg + extra.length < 65536
  toEnd : r.body.toEnd = true → extra = []
  bytes : r.encTaken o cfg extra <+: bs

end Perf
