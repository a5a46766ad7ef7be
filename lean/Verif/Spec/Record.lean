import Verif.Spec.Flat
import Verif.Spec.View
/-!
# Record parsing over flat bytes
-/
namespace Perf
open ParserM

/-- Parse the body of a record of type `ty` (what the visitor will be given). -/
def parseBody {M : Type → Type} {C : Type → Type} [ParserM M C] (ty : U32) : M (Record C) :=
  match ty.toNat with
  | 1 => do let r ← parseMmap; pure (.mmap r)
  | 2 => do let r ← parseLost; pure (.lost r)
  | 3 => do let r ← parseComm; pure (.comm r)
  | 4 => do let r ← parseExit; pure (.exit r)
  | 5 => do let r ← parseThrottle; pure (.throttle r)
  | 6 => do let r ← parseThrottle; pure (.unthrottle r)
  | 7 => do let r ← parseExit; pure (.fork r)
  | 8 => do let r ← parseRead; pure (.read r)
  | 9 => do let r ← parseSample; pure (.sample r)
  | 10 => do let r ← parseMmap2; pure (.mmap2 r)
  | 11 => do let r ← parseAux; pure (.aux r)
  | 12 => do let r ← parseITraceStart; pure (.itraceStart r)
  | 13 => do let r ← parseLostSamples; pure (.lostSamples r)
  | 15 => do let r ← parseSwitchCpuWide; pure (.switchCpuWide r)
  | 16 => do let r ← parseNamespaces; pure (.namespaces r)
  | 17 => do let r ← parseKSymbol; pure (.ksymbol r)
  | 18 => do let r ← parseBpfEvent; pure (.bpfEvent r)
  | 19 => do let r ← parseCGroup; pure (.cgroup r)
  | 20 => do let r ← parseTextPoke; pure (.textPoke r)
  | 21 => do let r ← parseAuxOutputHwId; pure (.auxOutputHwId r)
  | _ => do let data ← rest; pure (.unknown ty data)

/-- Hand a parsed record to the visitor's method for it. -/
def Visitor.apply {C : Type → Type} {O : Type} (v : Visitor C O) (r : Record C) (md : Metadata) : Except Fault O :=
  match r with
  | .mmap r => v.visitMmap r md
  | .lost r => v.visitLost r md
  | .comm r => v.visitComm r md
  | .exit r => v.visitExit r md
  | .throttle r => v.visitThrottle r md
  | .unthrottle r => v.visitUnthrottle r md
  | .fork r => v.visitFork r md
  | .read r => v.visitRead r md
  | .sample r => v.visitSample r md
  | .mmap2 r => v.visitMmap2 r md
  | .aux r => v.visitAux r md
  | .itraceStart r => v.visitItraceStart r md
  | .lostSamples r => v.visitLostSamples r md
  | .switch => v.visitSwitch md
  | .switchCpuWide r => v.visitSwitchCpuWide r md
  | .namespaces r => v.visitNamespaces r md
  | .ksymbol r => v.visitKsymbol r md
  | .bpfEvent r => v.visitBpfEvent r md
  | .cgroup r => v.visitCgroup r md
  | .textPoke r => v.visitTextPoke r md
  | .auxOutputHwId r => v.visitAuxOutputHwId r md
  | .unknown _ data => v.visitUnknown data md

/-- The next `len` bytes as an input of their own. -/
def Flat.region (f : Flat) (len : Nat) : Flat := ⟨⟨f.s.bytes.take len, f.s.al, .eof⟩, 0, f.cfg⟩

/-- The same input parsed with the record's `misc` bits. -/
def Flat.withMisc (f : Flat) (m : U16) : Flat := { f with cfg := f.cfg.withMisc m }

/-- The record's body, without its `sample_id`, and its metadata. -/
def Spec.metadataWithHeader (h : Header) : Spec (Flat × Metadata) := fun f =>
  if h.size.toNat < 8 then .error (.err (.custom .invalidRecord "header size was too small to be valid"))
  else if h.size.toNat - 8 ≤ f.s.bytes.length then
    if h.type_.toNat = 1 ∨ h.type_.toNat = 9 then
      .ok ((f.region (h.size.toNat - 8), Metadata.new h SampleId.default), f.adv (h.size.toNat - 8))
    else if h.size.toNat - 8 < SampleId.estimateLen f.cfg then
      .error (.err (.custom .invalidRecord ("config has sample_id_all bit set but record does not have enough data " ++
        "to store the sample_id")))
    else match (parseSampleId : Spec SampleId)
        ((f.region (h.size.toNat - 8)).adv (h.size.toNat - 8 - SampleId.estimateLen f.cfg)) with
      | .error e => .error e
      | .ok (sid, _) => .ok ((f.region (h.size.toNat - 8 - SampleId.estimateLen f.cfg), Metadata.new h sid),
          f.adv (h.size.toNat - 8))
  else .error (.err f.s.fin)

/-- The record and its metadata. -/
def Spec.recordWithHeader (h : Header) : Spec (Record List × Metadata) := fun f =>
  match Spec.metadataWithHeader h f with
  | .error e => .error e
  | .ok ((r, md), f') =>
    match (parseBody md.ty : Spec (Record List)) (r.withMisc md.misc) with
    | .error e => .error e
    | .ok (rec, _) => .ok ((rec, md), f')

def Spec.record : Spec (Record List × Metadata) := do
  let h ← parseHeader
  Spec.recordWithHeader h

/-- `perf_event_attr` over flat bytes. -/
def Spec.parseAttr : Spec Attr := do
  let type_ ← parseU32
  let size ← parseU32
  if !Attr.sizeOk size.toNat then
    Spec.fail (.custom .invalidRecord s!"{size.toNat} is not a valid size for a perf_event_attr struct")
  else fun f =>
    if size.toNat - 4 ≤ f.s.bytes.length then
      match (attrBody type_ size : Spec Attr) (f.region (size.toNat - 4)) with
      | .error e => .error e
      | .ok (a, _) => .ok (a, f.adv (size.toNat - 4))
    else .error (.err f.s.fin)

end Perf
