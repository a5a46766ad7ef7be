import Verif.Spec.KernelAll
/-!
# Records with bytes that belong to nothing

The size in the header of a record may be larger than the record; the bytes between the body and the trailer then belong to nothing. A reader
that finds the trailer from the end of the record, as the kernel's documentation asks for, has to accept them: a later kernel may have
put a new field there.
-/
namespace Perf

/-- The kernel's bodies that end with a name or are not looked into. -/
def KBody.toEnd : KBody → Bool
  | .mmap .. | .comm .. | .mmap2 .. | .ksymbol .. | .cgroup .. | .other .. => true
  | _ => false

/-- `struct perf_event_header`, body, bytes that belong to nothing, trailer. -/
def KRecord.encExtra (o : Order) (cfg : ParseConfig) (r : KRecord) (extra : List Byte) : List Byte :=
  e32 o r.body.type ++ e16 o r.misc ++ e16 o (BitVec.ofNat 16 (r.sizeAll o cfg + extra.length)) ++ r.body.enc o cfg ++ extra ++
    r.encTrailerAll o cfg

/-- The bytes `bs` start with a record written by the kernel, with `extra` between body and trailer; there is nothing between them if
the body has no length of its own. -/
structure KRecord.Leads (o : Order) (cfg : ParseConfig) (r : KRecord) (extra bs : List Byte) : Prop where
  written : r.body.Written cfg r.misc
  small : r.sizeAll o cfg + extra.length < 65536
  toEnd : r.body.toEnd = true → extra = []
  bytes : r.encExtra o cfg extra <+: bs

end Perf
