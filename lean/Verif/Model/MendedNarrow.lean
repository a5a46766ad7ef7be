import Verif.Model.Mended
import Verif.Model.Narrow
/-!
# The corrected crate on machines with another word size

As Model/Mended.lean, this is not the code in /repo. Where that converts a 64-bit count with `as usize`
(src/records/read.rs:421, namespaces.rs:95, sample.rs:199,209,223,230,258), here a count that does not fit is an error. As the generic
parsers (Model/Records, Model/Sample) hand the 64-bit count to the operation that reads so many bytes or elements, the check is made there.
-/
namespace Perf
open ParserM

/-- `MendOn w β α` is `P β α`, with the corrected operations on the machine `w`. -/
def MendOn (_w : Platform) (β α : Type) : Type := P β α

namespace MendOn
variable {β γ : Type} {α T O : Type} [ParseBuf β] [ParseBuf γ] (w : Platform)

/-- `usize::try_from(n)?` and then `Parser::parse_bytes`. -/
def bytes (n : Nat) : P β (Cow Byte) :=
  if n ≥ w.limit then P.fail (.custom .invalidRecord "length larger than usize::MAX") else Mend.bytes n

/-- As `Mend.sliceDirect`, with the alignment of `u64` on this machine. -/
def sliceDirect (e : Elem T) (len : Nat) : P β (Option (List T)) := do
  let cfg ← P.config
  if !cfg.endian.isNative then pure none
  else do
    let c ← P.chunk
    match c.loc with
    | .temporary => pure none
    | .external addr =>
      if c.data.length < len * e.size ∨ addr % w.align ≠ 0 then pure none
      else do
        P.advance (len * e.size)
        pure (some (e.decodeAll (fromOrder cfg.host 64) len (c.data.take (len * e.size))))

/-- As `Mend.slice`, with `usize::try_from(len)?` and the `usize::MAX` of this machine. -/
def slice (e : Elem T) (item : P β T) (len : Nat) : P β (Cow T) :=
  if len * e.size ≥ w.limit then P.fail (.custom .invalidRecord "array length in bytes larger than usize::MAX")
  else if len = 0 then pure (.borrowed [])
  else do
    match ← sliceDirect w e len with
    | some s => pure (.borrowed s)
    | none =>
      let v ← P.repeated e.size item len
      pure (.owned v)

end MendOn

instance {w : Platform} {β : Type} [ParseBuf β] : ParserM (MendOn w β) Cow where
  pure := P.pure
  bind := P.bind
  config := P.config
  fail := P.fail
  array := Mend.array
  bytes := MendOn.bytes w
  rest := Mend.rest
  restTrimNul := Mend.restTrimNul
  padded := P.padded
  slice := MendOn.slice w
  elems := Cow.data
  cowSplitAt := Mend.splitCow
  cowTruncate := Cow.truncate
  cowOwned := Cow.owned

namespace MendOn
variable {β γ : Type} {O : Type} [ParseBuf β] [ParseBuf γ] (w : Platform)

/-- As `Mend.recordImpl`. -/
def recordImpl (p : Parser γ) (v : Visitor Cow O) (md : Metadata) : P β O := do
  let r ← P.onChild (Parser.new p.data (p.config.withMisc md.misc)) (mendedBody md.ty : MendOn w (Tracking γ) (Record Cow))
  P.ofExcept (v.apply r.1 md)

/-- As `Mend.recordWithHeader`. Sizes in the framing are 16 bits wide. -/
def recordWithHeader (v : Visitor Cow O) (header : Header) : P β O := do
  let (p, md) ← Mend.metadataWithHeader header
  match p.data.buf.asSlice with
  | some data => recordImpl w (Parser.new data p.config) v md
  | none => recordImpl w p v md

/-- As `Mend.record`. -/
def record (v : Visitor Cow O) : P β O := do
  let header ← (parseHeader : Mend β Header)
  recordWithHeader w v header

end MendOn
end Perf
