import Verif.Spec.Session
import Verif.Spec.KernelAll
/-!
# A recording with everything the kernel writes

As Spec/Session.lean, but with nothing left out: every record but SAMPLE has a trailer, and only the guarantees of the kernel are
kept.
-/
namespace Perf

/-- What the kernel guarantees about the body of a record of an event with the attr `a`. -/
def KBody.WrittenFor (a : Attr) (misc : U16) : KBody → Prop
  | .read .. => a.readFormat.getLsbD 3 = false
  | .sample s => s.Written a.sampleType a.readFormat a.sampleRegsUser a.sampleRegsIntr
  | b => b.Written anyCfg misc

/-- With `sample_id_all`, there is a trailer after every record but SAMPLE. -/
def KRecord.trailedFor (o : Order) (a : Attr) (r : KRecord) : Bool := a.trailers o && r.body.type != 9#32

def KRecord.encTrailerAllFor (o : Order) (a : Attr) (r : KRecord) : List Byte :=
  if r.trailedFor o a then r.trailer.enc o a.sampleType else []

/-- Total size in bytes. -/
def KRecord.sizeAllFor (o : Order) (a : Attr) (r : KRecord) : Nat :=
  8 + (r.body.encFor o a).length + (r.encTrailerAllFor o a).length

/-- `struct perf_event_header`, body, trailer. -/
def KRecord.encAllFor (o : Order) (a : Attr) (r : KRecord) : List Byte :=
  e32 o r.body.type ++ e16 o r.misc ++ e16 o (BitVec.ofNat 16 (r.sizeAllFor o a)) ++ r.body.encFor o a ++ r.encTrailerAllFor o a

/-- What the header and the trailer say. -/
def KRecord.metadataAllFor (o : Order) (a : Attr) (r : KRecord) : Metadata :=
  { ty := r.body.type, misc := r.misc
    sampleId := if r.trailedFor o a then r.trailer.value a.sampleType else ⟨none, none, none, none, none, none⟩ }

end Perf
