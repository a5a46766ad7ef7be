import Verif.Model.MendedAttr
import Verif.Model.User
/-!
# Programs against the corrected crate

As Model/User.lean, with the corrected methods of Model/Mended.lean and Model/MendedAttr.lean; this is not the code in /repo.
-/
namespace Perf

/-- Replaces `Parser::parse_metadata_with_header`, src/parse.rs:547-552: the parser of the body knows the `misc` bits of its record. -/
def Mend.metadataWith {β : Type} [ParseBuf β] (h : Header) : P β (Parser Cursor × Metadata) := do
  let (p, md) ← Mend.metadataWithHeader h
  pure ({ p with config := p.config.withMisc md.misc }, md)

/-- What the call does on a parser of the corrected crate. -/
def Call.mended {T : Type} (β : Type) [ParseBuf β] : Call T → P β T
  | .array n => Mend.array n
  | .direct n => Mend.sliceDirect U64.elem n
  | .entries n => Mend.slice NamespaceEntry.elem (parseNamespaceEntry : Mend β _) n >>= fun c => pure c.data
  | .branches n => Mend.slice BranchEntry.elem (parseBranchEntry : Mend β _) n >>= fun c => pure c.data
  | .header => (parseHeader : Mend β _)
  | .attr => Mend.parseAttr
  | .entry => (parseNamespaceEntry : Mend β _)
  | .branch => (parseBranchEntry : Mend β _)
  | .mmapDetail => (parseMmapDetail : Mend β _)
  | .sampleId => (parseSampleId : Mend β _)
  | .readValue => (parseReadValue : Mend β _)
  | .readGroup => P.bind (parseReadGroup : Mend β (ReadGroup Cow)) fun r => pure r.view
  | .body ty => P.bind (mendedBody ty : Mend β (Record Cow)) fun r => pure r.view
  | .visit => Mend.record pairVisitor >>= fun r => pure (r.1.view, r.2)
  | .visitWith h => Mend.recordWithHeader pairVisitor h >>= fun r => pure (r.1.view, r.2)

/-- What the program does on a parser of the corrected crate. -/
def Prog.mended : {α : Type} → Prog α → (β : Type) → [ParseBuf β] → P β α
  | _, .done a, _, _ => pure a
  | _, .fail e, _, _ => P.fail e
  | _, .config k, β, _ => P.config >>= fun c => (k c).mended β
  | _, .u8 k, β, _ => P.bind (parseU8 : Mend β U8) fun x => (k x).mended β
  | _, .u16 k, β, _ => P.bind (parseU16 : Mend β U16) fun x => (k x).mended β
  | _, .u32 k, β, _ => P.bind (parseU32 : Mend β U32) fun x => (k x).mended β
  | _, .u64 k, β, _ => P.bind (parseU64 : Mend β U64) fun x => (k x).mended β
  | _, .bytes n k, β, _ => Mend.bytes n >>= fun c => (k c.data).mended β
  | _, .rest k, β, _ => Mend.rest >>= fun c => (k c.data).mended β
  | _, .restTrimNul k, β, _ => Mend.restTrimNul >>= fun c => (k c.data).mended β
  | _, .words n k, β, _ => Mend.slice U64.elem (parseU64 : Mend β U64) n >>= fun c => (k c.data).mended β
  | _, .repeated size item n k, β, _ => P.repeated size (item.mended β) n >>= fun l => (k l).mended β
  | _, .metadata body k, β, _ => Mend.metadata >>= fun x => P.attemptOn x.1 (body.mended Cursor) >>= fun r => (k x.2 r).mended β
  | _, .metadataWith h body k, β, _ =>
    Mend.metadataWith h >>= fun x => P.attemptOn x.1 (body.mended Cursor) >>= fun r => (k x.2 r).mended β
  | _, .call c k, β, _ => c.mended β >>= fun x => (k x).mended β
  | _, .record k, β, _ => Mend.record (recordVisitor Cow) >>= fun r => (k r.view).mended β
  | _, .attempt m k, β, _ => P.attempt (m.mended β) >>= fun r => (k r).mended β

end Perf
