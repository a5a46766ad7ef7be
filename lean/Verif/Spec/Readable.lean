import Verif.Spec.KernelAll
import Verif.Spec.View
/-!
# Which of the records the kernel writes can be read

`KBody.Ok` of Spec/Kernel.lean is a sufficient condition. The one here turns out to be necessary as well (C87).
-/
namespace Perf

/-- What the kernel also guarantees in a sample: the dumped part of the stack is a multiple of 8 bytes. -/
def KBody.StackAligned (cfg : ParseConfig) : KBody → Prop
  | .sample s => cfg.sampleType.getLsbD 13 = true → s.stack.length % 8 = 0
  | _ => True

/-- The parts of a sample that are announced are the parts that are there: no `WEIGHT_STRUCT` in place of `WEIGHT`, no register
dump without the registers of the mask. -/
structure KSample.Announced (st ru ri : U64) (s : KSample) : Prop where
  weight : st.getLsbD 24 = true → st.getLsbD 14 = true
  regsUser : st.getLsbD 12 = true → s.regsUser.abi = 0#64 → popcount ru = 0
  regsIntr : st.getLsbD 18 = true → s.regsIntr.abi = 0#64 → popcount ri = 0

/-- No empty part at the very end of the sample: no empty stack or AUX area, and in the host's byte order no empty list. -/
structure KSample.EndFull (native : Bool) (o : Order) (st rf : U64) (hwIndex : Bool) (s : KSample) : Prop where
  values : st.getLsbD 4 = true → native = true → rf.getLsbD 3 = true → s.group.counters = [] → s.after o st rf hwIndex 9 ≠ []
  callchain : st.getLsbD 5 = true → native = true → s.callchain = [] → s.after o st rf hwIndex 10 ≠ []
  lbr : st.getLsbD 11 = true → native = true → s.lbr = [] → s.after o st rf hwIndex 12 ≠ []
  regsUser : st.getLsbD 12 = true → native = true → s.regsUser.values = [] → s.after o st rf hwIndex 13 ≠ []
  stack : st.getLsbD 13 = true → s.stack = [] → s.after o st rf hwIndex 14 ≠ []
  regsIntr : st.getLsbD 18 = true → native = true → s.regsIntr.values = [] → s.after o st rf hwIndex 18 ≠ []
  aux : st.getLsbD 20 = true → s.aux ≠ []

/-- The body does not end in an empty part. SWITCH is never read (it consists of nothing, and is taken for an unknown record). -/
def KBody.EndFull (o : Order) (cfg : ParseConfig) : KBody → Prop
  | .mmap _ _ _ _ _ name => name.enc ≠ []
  | .comm _ _ name => name.enc ≠ []
  | .sample s => s.EndFull cfg.endian.isNative o cfg.sampleType cfg.readFormat cfg.branchHwIndex
  | .mmap2 _ _ _ _ _ _ _ _ name => name.enc ≠ []
  | .switch => False
  | .namespaces _ _ entries => cfg.endian.isNative = true → entries ≠ []
  | .ksymbol _ _ _ _ name => name.enc ≠ []
  | .cgroup _ name => name.enc ≠ []
  | .other _ data => data ≠ []
  | _ => True

/-- What is in the body is what the crate takes to be in it. A copied TEXT_POKE must have something on both sides of the split. -/
def KBody.Announced (copied : Bool) (cfg : ParseConfig) : KBody → Prop
  | .sample s => s.Announced cfg.sampleType cfg.regsUser cfg.regsIntr
  | .textPoke _ old new pad => copied = true → old ≠ [] ∧ new ++ pad ≠ []
  | _ => True

/-- The record can be read: `copied` says that it arrives in temporary data (a reader), as opposed to memory. -/
structure KRecord.Readable (copied : Bool) (o : Order) (cfg : ParseConfig) (r : KRecord) : Prop where
  endFull : r.body.EndFull o cfg
  announced : r.body.Announced copied cfg
  /-- The crate expects no trailer after MMAP. -/
  noTrailer : r.body.type = 1#32 → r.encTrailerAll o cfg = []

/-- The result is the record and its metadata. -/
def KRecord.DeliveredBy (cfg : ParseConfig) (r : KRecord) (res : Except Fault (Record Cow × Metadata)) : Prop :=
  ∃ a : Record Cow, a.view = r.body.value cfg r.misc ∧ res = .ok (a, r.metadataAll cfg)

end Perf
