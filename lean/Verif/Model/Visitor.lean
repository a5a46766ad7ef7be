import Verif.Model.Sample
/-!
# `src/visitor.rs`, the `Record` enum of `src/records/mod.rs` and record parsing in `src/parse.rs`
-/
namespace Perf
open ParserM

/-- `perf_event_header` (bindings): 8 bytes. -/
structure Header where
  type_ : U32
  misc : U16
  size : U16
deriving DecidableEq, Repr

/-- `RecordMetadata`, src/visitor.rs:12-16. -/
structure Metadata where
  ty : U32
  misc : U16
  sampleId : SampleId
deriving DecidableEq, Repr

/-- `RecordMetadata::new`, src/visitor.rs:20-26. -/
def Metadata.new (h : Header) (sampleId : SampleId) : Metadata :=
  { ty := h.type_, misc := h.misc, sampleId }

/-- `Record`, src/records/mod.rs:209-246. -/
inductive Record (C : Type → Type) where
  | mmap (r : Mmap C)
  | lost (r : Lost)
  | comm (r : Comm C)
  | exit (r : Exit)
  | throttle (r : Throttle)
  | unthrottle (r : Throttle)
  | fork (r : Exit)
  | read (r : Read)
  | sample (r : Sample C)
  | mmap2 (r : Mmap2 C)
  | aux (r : Aux)
  | itraceStart (r : ITraceStart)
  | lostSamples (r : LostSamples)
  | switch
  | switchCpuWide (r : SwitchCpuWide)
  | namespaces (r : Namespaces C)
  | ksymbol (r : KSymbol C)
  | bpfEvent (r : BpfEvent)
  | cgroup (r : CGroup C)
  | textPoke (r : TextPoke C)
  | auxOutputHwId (r : AuxOutputHwId)
  | unknown (ty : U32) (data : C Byte)

/-! The conversions `From<T> for Record`, src/records/mod.rs:248-286 (written by a macro; there is none for `Exit` and
`Throttle`, each the contents of two kinds of record). -/
namespace Record
variable {C : Type → Type}
/-- src/records/mod.rs:265 -/
def fromMmap (value : Mmap C) : Record C := .mmap value
/-- src/records/mod.rs:266 -/
def fromLost (value : Lost) : Record C := .lost value
/-- src/records/mod.rs:267 -/
def fromComm (value : Comm C) : Record C := .comm value
/-- src/records/mod.rs:271 -/
def fromRead (value : Read) : Record C := .read value
/-- src/records/mod.rs:272 -/
def fromMmap2 (value : Mmap2 C) : Record C := .mmap2 value
/-- src/records/mod.rs:273 -/
def fromAux (value : Aux) : Record C := .aux value
/-- src/records/mod.rs:274 -/
def fromITraceStart (value : ITraceStart) : Record C := .itraceStart value
/-- src/records/mod.rs:275 -/
def fromLostSamples (value : LostSamples) : Record C := .lostSamples value
/-- src/records/mod.rs:276 -/
def fromSwitchCpuWide (value : SwitchCpuWide) : Record C := .switchCpuWide value
/-- src/records/mod.rs:277 -/
def fromNamespaces (value : Namespaces C) : Record C := .namespaces value
/-- src/records/mod.rs:278 -/
def fromKSymbol (value : KSymbol C) : Record C := .ksymbol value
/-- src/records/mod.rs:279 -/
def fromBpfEvent (value : BpfEvent) : Record C := .bpfEvent value
/-- src/records/mod.rs:280 -/
def fromCGroup (value : CGroup C) : Record C := .cgroup value
/-- src/records/mod.rs:281 -/
def fromTextPoke (value : TextPoke C) : Record C := .textPoke value
/-- src/records/mod.rs:282 -/
def fromAuxOutputHwId (value : AuxOutputHwId) : Record C := .auxOutputHwId value
/-- src/records/mod.rs:284-288; the box is not modelled. -/
def fromSample (value : Sample C) : Record C := .sample value
end Record

/-- A `Visitor` implementation, src/visitor.rs:76-218: the required method, and the overridden methods
(`none` = the trait's default). User code may panic, hence `Except Fault`. -/
structure Visitor (C : Type → Type) (O : Type) where
  unimplemented : Metadata → Except Fault O
  mmap : Option (Mmap C → Metadata → Except Fault O) := none
  lost : Option (Lost → Metadata → Except Fault O) := none
  comm : Option (Comm C → Metadata → Except Fault O) := none
  exit : Option (Exit → Metadata → Except Fault O) := none
  throttle : Option (Throttle → Metadata → Except Fault O) := none
  unthrottle : Option (Throttle → Metadata → Except Fault O) := none
  fork : Option (Exit → Metadata → Except Fault O) := none
  read : Option (Read → Metadata → Except Fault O) := none
  sample : Option (Sample C → Metadata → Except Fault O) := none
  mmap2 : Option (Mmap2 C → Metadata → Except Fault O) := none
  aux : Option (Aux → Metadata → Except Fault O) := none
  itraceStart : Option (ITraceStart → Metadata → Except Fault O) := none
  lostSamples : Option (LostSamples → Metadata → Except Fault O) := none
  switch : Option (Metadata → Except Fault O) := none
  switchCpuWide : Option (SwitchCpuWide → Metadata → Except Fault O) := none
  namespaces : Option (Namespaces C → Metadata → Except Fault O) := none
  ksymbol : Option (KSymbol C → Metadata → Except Fault O) := none
  bpfEvent : Option (BpfEvent → Metadata → Except Fault O) := none
  cgroup : Option (CGroup C → Metadata → Except Fault O) := none
  textPoke : Option (TextPoke C → Metadata → Except Fault O) := none
  auxOutputHwId : Option (AuxOutputHwId → Metadata → Except Fault O) := none
  unknown : Option (C Byte → Metadata → Except Fault O) := none

namespace Visitor
variable {C : Type → Type} {O : Type} (v : Visitor C O)
/-- src/visitor.rs:90-92 -/
def visitMmap (r : Mmap C) (md : Metadata) : Except Fault O :=
  match v.mmap with
  | some f => f r md
  | none => v.unimplemented md
/-- src/visitor.rs:95-97 -/
def visitLost (r : Lost) (md : Metadata) : Except Fault O :=
  match v.lost with
  | some f => f r md
  | none => v.unimplemented md
/-- src/visitor.rs:100-102 -/
def visitComm (r : Comm C) (md : Metadata) : Except Fault O :=
  match v.comm with
  | some f => f r md
  | none => v.unimplemented md
/-- src/visitor.rs:105-107 -/
def visitExit (r : Exit) (md : Metadata) : Except Fault O :=
  match v.exit with
  | some f => f r md
  | none => v.unimplemented md
/-- src/visitor.rs:110-112 -/
def visitThrottle (r : Throttle) (md : Metadata) : Except Fault O :=
  match v.throttle with
  | some f => f r md
  | none => v.unimplemented md
/-- src/visitor.rs:115-117 -/
def visitUnthrottle (r : Throttle) (md : Metadata) : Except Fault O :=
  match v.unthrottle with
  | some f => f r md
  | none => v.unimplemented md
/-- src/visitor.rs:120-122 -/
def visitFork (r : Exit) (md : Metadata) : Except Fault O :=
  match v.fork with
  | some f => f r md
  | none => v.unimplemented md
/-- src/visitor.rs:125-127 -/
def visitRead (r : Read) (md : Metadata) : Except Fault O :=
  match v.read with
  | some f => f r md
  | none => v.unimplemented md
/-- src/visitor.rs:130-132 -/
def visitSample (r : Sample C) (md : Metadata) : Except Fault O :=
  match v.sample with
  | some f => f r md
  | none => v.unimplemented md
/-- src/visitor.rs:138-140 -/
def visitMmap2 (r : Mmap2 C) (md : Metadata) : Except Fault O :=
  match v.mmap2 with
  | some f => f r md
  | none => v.visitMmap r.intoMmap md
/-- src/visitor.rs:143-145 -/
def visitAux (r : Aux) (md : Metadata) : Except Fault O :=
  match v.aux with
  | some f => f r md
  | none => v.unimplemented md
/-- src/visitor.rs:148-150 -/
def visitItraceStart (r : ITraceStart) (md : Metadata) : Except Fault O :=
  match v.itraceStart with
  | some f => f r md
  | none => v.unimplemented md
/-- src/visitor.rs:153-155 -/
def visitLostSamples (r : LostSamples) (md : Metadata) : Except Fault O :=
  match v.lostSamples with
  | some f => f r md
  | none => v.unimplemented md
/-- src/visitor.rs:158-160 -/
def visitSwitch (md : Metadata) : Except Fault O :=
  match v.switch with
  | some f => f md
  | none => v.unimplemented md
/-- src/visitor.rs:163-169 -/
def visitSwitchCpuWide (r : SwitchCpuWide) (md : Metadata) : Except Fault O :=
  match v.switchCpuWide with
  | some f => f r md
  | none => v.unimplemented md
/-- src/visitor.rs:172-174 -/
def visitNamespaces (r : Namespaces C) (md : Metadata) : Except Fault O :=
  match v.namespaces with
  | some f => f r md
  | none => v.unimplemented md
/-- src/visitor.rs:177-179 -/
def visitKsymbol (r : KSymbol C) (md : Metadata) : Except Fault O :=
  match v.ksymbol with
  | some f => f r md
  | none => v.unimplemented md
/-- src/visitor.rs:182-184 -/
def visitBpfEvent (r : BpfEvent) (md : Metadata) : Except Fault O :=
  match v.bpfEvent with
  | some f => f r md
  | none => v.unimplemented md
/-- src/visitor.rs:187-189 -/
def visitCgroup (r : CGroup C) (md : Metadata) : Except Fault O :=
  match v.cgroup with
  | some f => f r md
  | none => v.unimplemented md
/-- src/visitor.rs:192-194 -/
def visitTextPoke (r : TextPoke C) (md : Metadata) : Except Fault O :=
  match v.textPoke with
  | some f => f r md
  | none => v.unimplemented md
/-- src/visitor.rs:197-203 -/
def visitAuxOutputHwId (r : AuxOutputHwId) (md : Metadata) : Except Fault O :=
  match v.auxOutputHwId with
  | some f => f r md
  | none => v.unimplemented md
/-- src/visitor.rs:215-217 -/
def visitUnknown (data : C Byte) (md : Metadata) : Except Fault O :=
  match v.unknown with
  | some f => f data md
  | none => v.unimplemented md
end Visitor

/-- `RecordVisitor`, src/records/mod.rs:290-400. -/
def recordVisitor (C : Type → Type) : Visitor C (Record C) where
  unimplemented _ := .error .panic
  mmap := some fun r _ => .ok (.mmap r)
  lost := some fun r _ => .ok (.lost r)
  comm := some fun r _ => .ok (.comm r)
  exit := some fun r _ => .ok (.exit r)
  throttle := some fun r _ => .ok (.throttle r)
  unthrottle := some fun r _ => .ok (.unthrottle r)
  fork := some fun r _ => .ok (.fork r)
  read := some fun r _ => .ok (.read r)
  sample := some fun r _ => .ok (.sample r)
  mmap2 := some fun r _ => .ok (.mmap2 r)
  aux := some fun r _ => .ok (.aux r)
  itraceStart := some fun r _ => .ok (.itraceStart r)
  lostSamples := some fun r _ => .ok (.lostSamples r)
  switch := some fun _ => .ok .switch
  switchCpuWide := some fun r _ => .ok (.switchCpuWide r)
  namespaces := some fun r _ => .ok (.namespaces r)
  ksymbol := some fun r _ => .ok (.ksymbol r)
  bpfEvent := some fun r _ => .ok (.bpfEvent r)
  cgroup := some fun r _ => .ok (.cgroup r)
  textPoke := some fun r _ => .ok (.textPoke r)
  auxOutputHwId := some fun r _ => .ok (.auxOutputHwId r)
  unknown := some fun data md => .ok (.unknown md.ty data)

/-- A value or a fault computed outside the parser. -/
def P.ofExcept {β α : Type} (r : Except Fault α) : P β α := fun p => ⟨r, p, []⟩

/-- `Parse for perf_event_header`, src/parse.rs:667-679. -/
def parseHeader {M : Type → Type} {C : Type → Type} [ParserM M C] : M Header := do
  let type_ ← parseU32
  let misc ← parseU16
  let size ← parseU16
  pure { type_, misc, size }

namespace P
variable {β γ O : Type} [ParseBuf β] [ParseBuf γ]

/-- The `match metadata.ty()` of `Parser::parse_record_impl`, src/parse.rs:569-591, run on the record's own parser.
The numbers are the `PERF_RECORD_*` constants; there is no arm for `PERF_RECORD_SWITCH` (14). -/
def dispatch (v : Visitor Cow O) (md : Metadata) : P γ O :=
  match md.ty.toNat with
  | 1 => do let r ← parseMmap; ofExcept (v.visitMmap r md)
  | 2 => do let r ← parseLost; ofExcept (v.visitLost r md)
  | 3 => do let r ← parseComm; ofExcept (v.visitComm r md)
  | 4 => do let r ← parseExit; ofExcept (v.visitExit r md)
  | 5 => do let r ← parseThrottle; ofExcept (v.visitThrottle r md)
  | 6 => do let r ← parseThrottle; ofExcept (v.visitUnthrottle r md)
  | 7 => do let r ← parseExit; ofExcept (v.visitFork r md)
  | 8 => do let r ← parseRead; ofExcept (v.visitRead r md)
  | 9 => do let r ← parseSample; ofExcept (v.visitSample r md)
  | 10 => do let r ← parseMmap2; ofExcept (v.visitMmap2 r md)
  | 11 => do let r ← parseAux; ofExcept (v.visitAux r md)
  | 12 => do let r ← parseITraceStart; ofExcept (v.visitItraceStart r md)
  | 13 => do let r ← parseLostSamples; ofExcept (v.visitLostSamples r md)
  | 15 => do let r ← parseSwitchCpuWide; ofExcept (v.visitSwitchCpuWide r md)
  | 16 => do let r ← parseNamespaces; ofExcept (v.visitNamespaces r md)
  | 17 => do let r ← parseKSymbol; ofExcept (v.visitKsymbol r md)
  | 18 => do let r ← parseBpfEvent; ofExcept (v.visitBpfEvent r md)
  | 19 => do let r ← parseCGroup; ofExcept (v.visitCgroup r md)
  | 20 => do let r ← parseTextPoke; ofExcept (v.visitTextPoke r md)
  | 21 => do let r ← parseAuxOutputHwId; ofExcept (v.visitAuxOutputHwId r md)
  | _ => do let data ← rest; ofExcept (v.visitUnknown data md)

/-- `Parser::parse_record_impl`, src/parse.rs:560-592 (it consumes the parser `p` it is called on). -/
def recordImpl (p : Parser γ) (v : Visitor Cow O) (md : Metadata) : P β O := do
  let r ← onChild (Parser.new p.data (p.config.withMisc md.misc)) (dispatch v md)
  pure r.1

/-- `Parser::parse_metadata_with_header_impl`, src/parse.rs:509-544; the public `parse_metadata_with_header`
(src/parse.rs:547-552) is the same function. -/
def metadataWithHeader (header : Header) : P β (Parser Cursor × Metadata) := do
  if header.size.toNat < 8 then
    fail (.custom .invalidRecord "header size was too small to be valid")
  else do
    let dataLen := header.size.toNat - 8
    let rp ← splitAt dataLen
    if header.type_.toNat = 1 ∨ header.type_.toNat = 9 then
      pure (rp, Metadata.new header SampleId.default)
    else if dataLen < SampleId.estimateLen rp.config then
      fail (.custom .invalidRecord ("config has sample_id_all bit set but record does not have enough data " ++
        "to store the sample_id"))
    else do
      let remainingLen := dataLen - SampleId.estimateLen rp.config
      let (p, rp) ← onChild rp (splitAt remainingLen)
      let (sampleId, _) ← onChild rp parseSampleId
      pure (p, Metadata.new header sampleId)

/-- `Parser::parse_metadata`, src/parse.rs:502-507. -/
def metadata : P β (Parser Cursor × Metadata) := do
  let header ← parseHeader
  metadataWithHeader header

/-- `Parser::parse_record_with_header`, src/parse.rs:596-614. -/
def recordWithHeader (v : Visitor Cow O) (header : Header) : P β O := do
  let (p, md) ← metadataWithHeader header
  match p.data.buf.asSlice with
  | some data => recordImpl (Parser.new data p.config) v md
  | none => recordImpl p v md

/-- `Parser::parse_record`, src/parse.rs:555-558. -/
def record (v : Visitor Cow O) : P β O := do
  let header ← parseHeader
  recordWithHeader v header

/-- `Parse for Record`, src/records/mod.rs:417-425. -/
def parseRecord : P β (Record Cow) := record (recordVisitor Cow)

/-- `Record::parse_with_header`, src/records/mod.rs:405-414. -/
def parseRecordWithHeader (header : Header) : P β (Record Cow) := recordWithHeader (recordVisitor Cow) header

end P
end Perf
