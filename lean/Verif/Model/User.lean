import Verif.Spec.View
import Verif.Model.Attr
import Verif.Spec.Record
/-!
# Parsers written against the public interface

`trait Parse` (src/parse.rs:115-123) is implemented by users too. `Prog α` is such an implementation: a program that
calls the public methods of `Parser` in any order, looks at what they return, and may go on after an error.
Programs see the contents of a `Cow`, not whether it is borrowed.
-/
namespace Perf

/-- A visitor that hands the record and its metadata back: what any visitor gets to see (`c63_visitor`). Every method is
overridden, so `unimplemented` is not called. -/
def pairVisitor : Visitor Cow (Record Cow × Metadata) where
  unimplemented md := .ok (.unknown md.ty (.borrowed []), md)
  mmap := some fun r md => .ok (.mmap r, md)
  lost := some fun r md => .ok (.lost r, md)
  comm := some fun r md => .ok (.comm r, md)
  exit := some fun r md => .ok (.exit r, md)
  throttle := some fun r md => .ok (.throttle r, md)
  unthrottle := some fun r md => .ok (.unthrottle r, md)
  fork := some fun r md => .ok (.fork r, md)
  read := some fun r md => .ok (.read r, md)
  sample := some fun r md => .ok (.sample r, md)
  mmap2 := some fun r md => .ok (.mmap2 r, md)
  aux := some fun r md => .ok (.aux r, md)
  itraceStart := some fun r md => .ok (.itraceStart r, md)
  lostSamples := some fun r md => .ok (.lostSamples r, md)
  switch := some fun md => .ok (.switch, md)
  switchCpuWide := some fun r md => .ok (.switchCpuWide r, md)
  namespaces := some fun r md => .ok (.namespaces r, md)
  ksymbol := some fun r md => .ok (.ksymbol r, md)
  bpfEvent := some fun r md => .ok (.bpfEvent r, md)
  cgroup := some fun r md => .ok (.cgroup r, md)
  textPoke := some fun r md => .ok (.textPoke r, md)
  auxOutputHwId := some fun r md => .ok (.auxOutputHwId r, md)
  unknown := some fun data md => .ok (.unknown md.ty data, md)

/-- Calls of the public interface that use the crate's own `Parse` implementations and visitors. -/
inductive Call : Type → Type where
  /-- `p.parse::<[u8; N]>()`, src/parse.rs:657-665 -/
  | array (n : Nat) : Call (List Byte)
  /-- `p.parse_slice_direct::<u64>(n)`, src/parse.rs:441-468 -/
  | direct (n : Nat) : Call (Option (List U64))
  /-- `p.parse_slice::<NamespaceEntry>(n)`, src/parse.rs:477-485 -/
  | entries (n : Nat) : Call (List NamespaceEntry)
  /-- `p.parse_slice::<BranchEntry>(n)`, src/parse.rs:477-485 -/
  | branches (n : Nat) : Call (List BranchEntry)
  /-- `p.parse::<perf_event_header>()`, src/parse.rs:667-679 -/
  | header : Call Header
  /-- `p.parse::<perf_event_attr>()`, src/impls/perf_event_attr.rs:12-110 -/
  | attr : Call Attr
  /-- `p.parse::<NamespaceEntry>()`, src/records/namespaces.rs:74-85 -/
  | entry : Call NamespaceEntry
  /-- `p.parse::<BranchEntry>()`, src/records/sample.rs:456-469 -/
  | branch : Call BranchEntry
  /-- `p.parse::<MmapDetail>()`, src/records/mmap2.rs:185-214 -/
  | mmapDetail : Call MmapDetail
  /-- `p.parse::<SampleId>()`, src/records/mod.rs:149-177 -/
  | sampleId : Call SampleId
  /-- `p.parse::<ReadValue>()`, src/records/read.rs:358-397 -/
  | readValue : Call ReadValue
  /-- `p.parse::<ReadGroup>()`, src/records/read.rs:399-447 -/
  | readGroup : Call (ReadGroup List)
  /-- `p.parse::<T>()` for the record type `T` with this `PERF_RECORD_*` number; `p.parse_rest()` for other numbers. The
  outcome is wrapped as a `Record`. -/
  | body (ty : U32) : Call (Record List)
  /-- `p.parse_record(visitor)`, src/parse.rs:555-558 -/
  | visit : Call (Record List × Metadata)
  /-- `p.parse_record_with_header(visitor, header)`, src/parse.rs:596-614 -/
  | visitWith (h : Header) : Call (Record List × Metadata)

/-- A program over the public methods of `Parser`. -/
inductive Prog : Type → Type 1 where
  /-- `Ok(a)` -/
  | done {α : Type} (a : α) : Prog α
  /-- `Err(e)` with an error of its own -/
  | fail {α : Type} (e : ParseError) : Prog α
  /-- `p.config()`, src/parse.rs:165-167 -/
  | config {α : Type} (k : ParseConfig → Prog α) : Prog α
  /-- `p.parse_u8()?`, src/parse.rs:367-370 -/
  | u8 {α : Type} (k : U8 → Prog α) : Prog α
  /-- `p.parse_u16()?`, src/parse.rs:373-376 -/
  | u16 {α : Type} (k : U16 → Prog α) : Prog α
  /-- `p.parse_u32()?`, src/parse.rs:379-382 -/
  | u32 {α : Type} (k : U32 → Prog α) : Prog α
  /-- `p.parse_u64()?`, src/parse.rs:385-388 -/
  | u64 {α : Type} (k : U64 → Prog α) : Prog α
  /-- `p.parse_bytes(n)?`, src/parse.rs:236-250 -/
  | bytes {α : Type} (n : Nat) (k : List Byte → Prog α) : Prog α
  /-- `p.parse_rest()?`, src/parse.rs:391-409 -/
  | rest {α : Type} (k : List Byte → Prog α) : Prog α
  /-- `p.parse_rest_trim_nul()?`, src/parse.rs:412-423 -/
  | restTrimNul {α : Type} (k : List Byte → Prog α) : Prog α
  /-- `p.parse_slice::<u64>(n)?`, src/parse.rs:477-485 -/
  | words {α : Type} (n : Nat) (k : List U64 → Prog α) : Prog α
  /-- `p.parse_repeated::<T>(n)?`, src/parse.rs:488-495, for a `T` of `size` bytes whose `Parse` is `item` -/
  | repeated {α T : Type} (size : Nat) (item : Prog T) (n : Nat) (k : List T → Prog α) : Prog α
  /-- `p.parse_metadata()?`, src/parse.rs:502-507, then `body` on the parser it returns -/
  | metadata {α T : Type} (body : Prog T) (k : Metadata → Except ParseError T → Prog α) : Prog α
  /-- `p.parse_metadata_with_header(header)?`, src/parse.rs:547-552, then `body` on the parser it returns -/
  | metadataWith {α T : Type} (h : Header) (body : Prog T) (k : Metadata → Except ParseError T → Prog α) : Prog α
  /-- One of the other calls, with `?` -/
  | call {α T : Type} (c : Call T) (k : T → Prog α) : Prog α
  /-- `p.parse::<Record>()?`, src/parse.rs:311-313 -/
  | record {α : Type} (k : Record List → Prog α) : Prog α
  /-- `match m(p) { Ok(a) => .., Err(e) => .. }` on the same parser -/
  | attempt {α T : Type} (m : Prog T) (k : Except ParseError T → Prog α) : Prog α

/-- The outcome of `m` as a value; a panic goes through. -/
def P.attempt {β α : Type} (m : P β α) : P β (Except ParseError α) := fun p =>
  match (m p).res with
  | .ok a => ⟨.ok (.ok a), (m p).st, (m p).log⟩
  | .error (.err e) => ⟨.ok (.error e), (m p).st, (m p).log⟩
  | .error f => ⟨.error f, (m p).st, (m p).log⟩

/-- The outcome of `m` on another parser. -/
def P.attemptOn {β δ α : Type} (c : Parser δ) (m : P δ α) : P β (Except ParseError α) := fun p =>
  match (m c).res with
  | .ok a => ⟨.ok (.ok a), p, (m c).log⟩
  | .error (.err e) => ⟨.ok (.error e), p, (m c).log⟩
  | .error f => ⟨.error f, p, (m c).log⟩

/-- What the call does on a parser over `β`. -/
def Call.run {T : Type} (β : Type) [ParseBuf β] : Call T → P β T
  | .array n => P.array n
  | .direct n => P.sliceDirect U64.elem n
  | .entries n => P.slice NamespaceEntry.elem parseNamespaceEntry n >>= fun c => pure c.data
  | .branches n => P.slice BranchEntry.elem parseBranchEntry n >>= fun c => pure c.data
  | .header => parseHeader
  | .attr => P.parseAttr
  | .entry => parseNamespaceEntry
  | .branch => parseBranchEntry
  | .mmapDetail => parseMmapDetail
  | .sampleId => parseSampleId
  | .readValue => parseReadValue
  | .readGroup => (parseReadGroup : P β (ReadGroup Cow)) >>= fun r => pure r.view
  | .body ty => (parseBody ty : P β (Record Cow)) >>= fun r => pure r.view
  | .visit => P.record pairVisitor >>= fun r => pure (r.1.view, r.2)
  | .visitWith h => P.recordWithHeader pairVisitor h >>= fun r => pure (r.1.view, r.2)

/-- What the program does on a parser over `β`. -/
def Prog.run : {α : Type} → Prog α → (β : Type) → [ParseBuf β] → P β α
  | _, .done a, _, _ => pure a
  | _, .fail e, _, _ => P.fail e
  | _, .config k, β, _ => P.config >>= fun c => (k c).run β
  | _, .u8 k, β, _ => (parseU8 : P β U8) >>= fun x => (k x).run β
  | _, .u16 k, β, _ => (parseU16 : P β U16) >>= fun x => (k x).run β
  | _, .u32 k, β, _ => (parseU32 : P β U32) >>= fun x => (k x).run β
  | _, .u64 k, β, _ => (parseU64 : P β U64) >>= fun x => (k x).run β
  | _, .bytes n k, β, _ => P.bytes n >>= fun c => (k c.data).run β
  | _, .rest k, β, _ => P.rest >>= fun c => (k c.data).run β
  | _, .restTrimNul k, β, _ => P.restTrimNul >>= fun c => (k c.data).run β
  | _, .words n k, β, _ => P.slice U64.elem parseU64 n >>= fun c => (k c.data).run β
  | _, .repeated size item n k, β, _ => P.repeated size (item.run β) n >>= fun l => (k l).run β
  | _, .metadata body k, β, _ => P.metadata >>= fun x => P.attemptOn x.1 (body.run Cursor) >>= fun r => (k x.2 r).run β
  | _, .metadataWith h body k, β, _ =>
    P.metadataWithHeader h >>= fun x => P.attemptOn x.1 (body.run Cursor) >>= fun r => (k x.2 r).run β
  | _, .call c k, β, _ => c.run β >>= fun x => (k x).run β
  | _, .record k, β, _ => P.parseRecord >>= fun r => (k r.view).run β
  | _, .attempt m k, β, _ => P.attempt (m.run β) >>= fun r => (k r).run β

end Perf
