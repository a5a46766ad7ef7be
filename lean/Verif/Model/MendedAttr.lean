import Verif.Model.Mended
import Verif.Model.Attr
/-!
# The rest of the crate with its defects corrected: attrs, configurations and `parse_metadata`

As Model/Mended.lean, this is not the code in /repo; every definition cites the lines it replaces.
-/
namespace Perf
open ParserM
variable {β : Type} [ParseBuf β]

/-- Replaces src/impls/perf_event_attr.rs:13-110: eight bytes have been consumed when the rest is split off (line 44). -/
def Mend.parseAttr : P β Attr := do
  let type_ ← (parseU32 : Mend β U32)
  let size ← (parseU32 : Mend β U32)
  if !Attr.sizeOk size.toNat then
    P.fail (.custom .invalidRecord s!"{size.toNat} is not a valid size for a perf_event_attr struct")
  else do
    let child ← P.splitAt (size.toNat - 8)
    let r ← P.onChild child (attrBody type_ size : Mend Cursor Attr)
    pure r.1

/-- The other byte order. -/
def Order.opposite : Order → Order
  | .little => .big
  | .big => .little

/-- Replaces `attr.sample_id_all()` in src/config.rs:201-227: in data of the other byte order the bit fields are where a
compiler for that byte order puts them. -/
def Attr.mendedSampleIdAll (e : Endian) (host : Order) (a : Attr) : U64 :=
  if e.isNative then a.sampleIdAll host else a.sampleIdAll host.opposite

/-- Replaces `From<perf_event_attr> for ParseConfig<E>`, src/config.rs:201-227. -/
def ParseConfig.mendedOfAttr (e : Endian) (host : Order) (a : Attr) : ParseConfig :=
  { config :=
      { configFlags := ConfigFlags.new a.readFormat a.sampleType (a.mendedSampleIdAll e host != 0#64)
          ((a.branchSampleType &&& PERF_SAMPLE_BRANCH_HW_INDEX) != 0#64) 0#16
        sampleRegsUser := a.sampleRegsUser
        sampleRegsIntr := a.sampleRegsIntr }
    endian := e, host := host }

/-- Replaces `Parser::parse_metadata`, src/parse.rs:502-507: the parser of the body knows the `misc` bits of its record, as in
`parse_record_impl` (src/parse.rs:567). -/
def Mend.metadata : P β (Parser Cursor × Metadata) := do
  let header ← (parseHeader : Mend β Header)
  let (p, md) ← Mend.metadataWithHeader header
  pure ({ p with config := p.config.withMisc md.misc }, md)

/-- `parse_metadata` and then the body, chosen by the type of the record. -/
def Mend.byHand : P β (Record Cow × Metadata) := do
  let (p, md) ← Mend.metadata
  let (value, _) ← P.onChild p (mendedBody md.ty : Mend Cursor (Record Cow))
  pure (value, md)

end Perf
