import Verif.Spec.KAttr
/-!
# A recording: the attr and the records the kernel writes for it

The layout of a record depends on the `perf_event_attr` the event was opened with. `Spec/Kernel.lean` describes records
for the settings of a `ParseConfig`, i.e. for what the crate keeps of the attr; here they are described for the fields of
the attr itself (`perf_event_open(2)`), so that the way from the attr to the configuration is not taken for granted.
-/
namespace Perf

/-- `sample_id_all`, the bit field number 18 of the attr's flags; compilers for big endian machines count from the top. -/
def Attr.trailers : Order → Attr → Bool
  | .little, a => a.flags.getLsbD 18
  | .big, a => a.flags.getLsbD 45

/-- `PERF_SAMPLE_BRANCH_HW_INDEX` is bit 17 of `branch_sample_type`. -/
def Attr.hwIndex (a : Attr) : Bool := a.branchSampleType.getLsbD 17

/-- Some configuration, for the bodies that do not depend on the event. -/
def anyCfg : ParseConfig := { config := ⟨0#64, 0#64, 0#64⟩, endian := .little .little, host := .little }

/-- The body of a record of an event with the attr `a`. -/
def KBody.encFor (o : Order) (a : Attr) : KBody → List Byte
  | .read pid tid values => e32 o pid ++ e32 o tid ++ values.enc o a.readFormat
  | .sample s => s.enc o a.sampleType a.readFormat a.hwIndex
  | b => b.enc o anyCfg

/-- What the body says. -/
def KBody.valueFor (a : Attr) (misc : U16) : KBody → Record List
  | .read pid tid values => .read ⟨pid, tid, values.readValue a.readFormat⟩
  | .sample s => .sample (s.value a.sampleType a.readFormat a.sampleRegsUser a.sampleRegsIntr a.hwIndex)
  | b => b.value anyCfg misc

/-- The bodies that round-trip; `native`: source and host have the same byte order. -/
def KBody.OkFor (native : Bool) (o : Order) (a : Attr) (misc : U16) : KBody → Prop
  | .read .. => a.readFormat.getLsbD 3 = false
  | .sample s => s.Ok native o a.sampleType a.readFormat a.sampleRegsUser a.sampleRegsIntr a.hwIndex
  | .namespaces _ _ entries => native = true → entries ≠ []
  | b => b.Ok o anyCfg misc

/-- Whether a trailer is written behind the body. -/
def KRecord.hasTrailer (o : Order) (a : Attr) (r : KRecord) : Bool :=
  a.trailers o && r.body.type != 1#32 && r.body.type != 9#32

def KRecord.encTrailerFor (o : Order) (a : Attr) (r : KRecord) : List Byte :=
  if r.hasTrailer o a then r.trailer.enc o a.sampleType else []

/-- Total size in bytes. -/
def KRecord.sizeFor (o : Order) (a : Attr) (r : KRecord) : Nat :=
  8 + (r.body.encFor o a).length + (r.encTrailerFor o a).length

/-- `struct perf_event_header`, body, trailer. -/
def KRecord.encFor (o : Order) (a : Attr) (r : KRecord) : List Byte :=
  e32 o r.body.type ++ e16 o r.misc ++ e16 o (BitVec.ofNat 16 (r.sizeFor o a)) ++ r.body.encFor o a ++ r.encTrailerFor o a

/-- What the header and the trailer say. -/
def KRecord.metadataFor (o : Order) (a : Attr) (r : KRecord) : Metadata :=
  { ty := r.body.type, misc := r.misc
    sampleId := if r.hasTrailer o a then r.trailer.value a.sampleType else ⟨none, none, none, none, none, none⟩ }

/-- The records of the ring buffer or file, one after the other. -/
def encSession (o : Order) (a : Attr) (rs : List KRecord) : List Byte := rs.flatMap fun r => r.encFor o a

end Perf
