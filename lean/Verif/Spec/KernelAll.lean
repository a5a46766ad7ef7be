import Verif.Spec.Kernel
/-!
# Everything the kernel writes

`KBody.Ok` of Spec/Kernel.lean leaves out what the crate does not decode. Here only the guarantees of the kernel are kept.
-/
namespace Perf

/-- What the kernel guarantees about a register dump: none under `PERF_SAMPLE_REGS_ABI_NONE`, else one value for each bit of
the mask. -/
def KRegs.Written (mask : U64) (r : KRegs) : Prop := if r.abi = 0#64 then r.values = [] else r.values.length = popcount mask

/-- What the kernel guarantees about a sample. The last condition keeps to the `read_format` bits the crate knows. -/
structure KSample.Written (st rf ru ri : U64) (s : KSample) : Prop where
  rawPad : st.getLsbD 10 = true → s.rawPad.length < 8 ∧ (4 + s.raw.length + s.rawPad.length) % 8 = 0
  stack : st.getLsbD 13 = true → s.stack ≠ [] → s.dynSize.toNat ≤ s.stack.length
  regsUser : st.getLsbD 12 = true → s.regsUser.Written ru
  regsIntr : st.getLsbD 18 = true → s.regsIntr.Written ri
  readFormat : st.getLsbD 4 = true → rf.getLsbD 5 = false

/-- What the kernel guarantees about a body. -/
def KBody.Written (cfg : ParseConfig) (misc : U16) : KBody → Prop
  | .mmap _ _ _ _ _ name => name.text.getLast? ≠ some 0#8
  | .comm _ _ name => name.text.getLast? ≠ some 0#8
  | .read .. => cfg.readFormat.getLsbD 3 = false ∧ cfg.readFormat.getLsbD 5 = false
  | .sample s => s.Written cfg.sampleType cfg.readFormat cfg.regsUser cfg.regsIntr
  | .mmap2 _ _ _ _ _ detail _ _ name => detail.Ok misc ∧ name.text.getLast? ≠ some 0#8
  | .ksymbol _ _ _ _ name => name.text.getLast? ≠ some 0#8
  | .bpfEvent r => r.tag.length = 8
  | .cgroup _ name => name.text.getLast? ≠ some 0#8
  | .textPoke _ old new pad => pad.length < 8 ∧ (old.length + new.length + pad.length) % 8 = 4
  | .other ty _ => ty = 0#32 ∨ 22 ≤ ty.toNat
  | _ => True

/-- There is a trailer: with `sample_id_all` set, after every record but SAMPLE. -/
def KRecord.trailed (cfg : ParseConfig) (r : KRecord) : Bool := cfg.sampleIdAll && r.body.type != 9#32

/-- The trailer as written by the kernel. -/
def KRecord.encTrailerAll (o : Order) (cfg : ParseConfig) (r : KRecord) : List Byte :=
  if r.trailed cfg then r.trailer.enc o cfg.sampleType else []

/-- Total size in bytes. -/
def KRecord.sizeAll (o : Order) (cfg : ParseConfig) (r : KRecord) : Nat :=
  8 + (r.body.enc o cfg).length + (r.encTrailerAll o cfg).length

/-- The record as written by the kernel. -/
def KRecord.encAll (o : Order) (cfg : ParseConfig) (r : KRecord) : List Byte :=
  e32 o r.body.type ++ e16 o r.misc ++ e16 o (BitVec.ofNat 16 (r.sizeAll o cfg)) ++ r.body.enc o cfg ++ r.encTrailerAll o cfg

/-- The metadata that should be reported. -/
def KRecord.metadataAll (cfg : ParseConfig) (r : KRecord) : Metadata :=
  { ty := r.body.type, misc := r.misc
    sampleId := if r.trailed cfg then r.trailer.value cfg.sampleType else SampleId.default }

end Perf
