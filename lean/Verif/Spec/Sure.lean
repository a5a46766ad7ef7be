import Verif.Model.MendedUser
import Verif.Spec.Ideal
/-!
# What a program over a sequence of bytes should mean

As Spec/Ideal.lean, but saying where the parser stands after an error too, so that programs can go on behind it. There are no addresses,
no chunks, no panics, and nothing is left open.
-/
namespace Perf

/-- A parser whose outcome and whose position, after errors too, is a function of the input. -/
def Sure (α : Type) : Type := Input → Except ParseError α × Input

namespace Sure
variable {α γ T : Type}

protected def pure (a : α) : Sure α := fun i => (.ok a, i)

protected def bind (m : Sure α) (k : α → Sure γ) : Sure γ := fun i =>
  match m i with
  | (.error e, i') => (.error e, i')
  | (.ok a, i') => k a i'

instance : Monad Sure where
  pure := Sure.pure
  bind := Sure.bind

def fail (e : ParseError) : Sure α := fun i => (.error e, i)
def config : Sure ParseConfig := fun i => (.ok i.cfg, i)

/-- The next `n` bytes; if there are fewer, they are gone. -/
def take (n : Nat) : Sure (List Byte) := fun i =>
  if n ≤ i.bytes.length then (.ok (i.bytes.take n), i.adv n) else (.error i.fin, i.adv i.bytes.length)

/-- Everything up to the end. -/
def rest : Sure (List Byte) := fun i =>
  (if i.fin.kind = .eof then .ok i.bytes else .error i.fin, i.adv i.bytes.length)

/-- Run `m`, then skip to a multiple of `padding` bytes from where it started. -/
def padded (padding : Nat) (m : Sure α) : Sure α := fun i =>
  match m i with
  | (.error e, i') => (.error e, i')
  | (.ok a, i') =>
    if (i'.off - i.off) % padding = 0 then (.ok a, i')
    else Sure.bind (take (padding - (i'.off - i.off) % padding)) (fun _ => Sure.pure a) i'

/-- `n` items one after the other. -/
def repeated (item : Sure T) : Nat → Sure (List T)
  | 0 => pure []
  | n + 1 => do
    let x ← item
    let xs ← repeated item n
    pure (x :: xs)

/-- `n` items one after the other, unless they could not fit into memory. -/
def slice (e : Elem T) (item : Sure T) (n : Nat) : Sure (List T) := fun i =>
  if n * e.size ≥ usizeLimit then (.error (.custom .invalidRecord "array length in bytes larger than usize::MAX"), i)
  else repeated item n i

instance : ParserM Sure List where
  config := config
  fail := fail
  array := take
  bytes := take
  rest := rest
  restTrimNul := do
    let bs ← rest
    pure (trimNul bs)
  padded := padded
  slice := slice
  elems l := l
  cowSplitAt l n := pure (l.take n, l.drop n)
  cowTruncate l n := l.take n
  cowOwned l := l

/-- `perf_event_attr`: after a size that is accepted the parser stands behind the structure. -/
def attr : Sure Attr := do
  let t ← parseU32
  let s ← parseU32
  if !Attr.sizeOk s.toNat then
    fail (.custom .invalidRecord s!"{s.toNat} is not a valid size for a perf_event_attr struct")
  else fun i =>
    if s.toNat - 8 ≤ i.bytes.length then
      (((attrBody t s : Sure Attr) (Ideal.region i (s.toNat - 8))).1, i.adv (s.toNat - 8))
    else (.error i.fin, i.adv i.bytes.length)

/-- Behind the record whose header was read, or at the end if it is cut off; a size below 8 is refused on the spot. -/
def past (h : Header) (i : Input) : Input :=
  if h.size.toNat < 8 then i else i.adv (min (h.size.toNat - 8) i.bytes.length)

/-- The body and the metadata of the record with this header. -/
def metadataWith (h : Header) : Sure (Input × Metadata) := fun i =>
  (match Ideal.frame h i with
    | .error e => .error e
    | .ok (r, md) => .ok ({ r with cfg := r.cfg.withMisc md.misc }, md), past h i)

/-- The body and the metadata of the next record. -/
def metadata : Sure (Input × Metadata) := do
  let h ← parseHeader
  metadataWith h

/-- The record with this header. -/
def recordWithHeader (h : Header) : Sure (Record List × Metadata) := fun i => (Ideal.recordWithHeader h i, past h i)

/-- The next record. -/
def record : Sure (Record List × Metadata) := do
  let h ← parseHeader
  recordWithHeader h

/-- The outcome of `m` as a value. -/
def attempt (m : Sure α) : Sure (Except ParseError α) := fun i => (.ok (m i).1, (m i).2)

/-- The outcome of `m` on another input. -/
def attemptOn (r : Input) (m : Sure α) : Sure (Except ParseError α) := fun i => (.ok (m r).1, i)

end Sure

/-- The call as a function of the bytes. (`parse_slice_direct` is excluded by `NoDirect` below.) -/
def Call.sure : {T : Type} → Call T → Sure T
  | _, .array n => Sure.take n
  | _, .direct _ => Sure.pure none
  | _, .entries n => Sure.slice NamespaceEntry.elem parseNamespaceEntry n
  | _, .branches n => Sure.slice BranchEntry.elem parseBranchEntry n
  | _, .header => parseHeader
  | _, .attr => Sure.attr
  | _, .entry => parseNamespaceEntry
  | _, .branch => parseBranchEntry
  | _, .mmapDetail => parseMmapDetail
  | _, .sampleId => parseSampleId
  | _, .readValue => parseReadValue
  | _, .readGroup => parseReadGroup
  | _, .body ty => mendedBody ty
  | _, .visit => Sure.record
  | _, .visitWith h => Sure.recordWithHeader h

/-- The program as a function of the bytes. -/
def Prog.sure : {α : Type} → Prog α → Sure α
  | _, .done a => Sure.pure a
  | _, .fail e => Sure.fail e
  | _, .config k => Sure.config.bind fun c => (k c).sure
  | _, .u8 k => Sure.bind parseU8 fun x => (k x).sure
  | _, .u16 k => Sure.bind parseU16 fun x => (k x).sure
  | _, .u32 k => Sure.bind parseU32 fun x => (k x).sure
  | _, .u64 k => Sure.bind parseU64 fun x => (k x).sure
  | _, .bytes n k => (Sure.take n).bind fun x => (k x).sure
  | _, .rest k => Sure.rest.bind fun x => (k x).sure
  | _, .restTrimNul k => Sure.rest.bind fun x => (k (trimNul x)).sure
  | _, .words n k => (Sure.slice U64.elem parseU64 n).bind fun x => (k x).sure
  | _, .repeated _ item n k => (Sure.repeated item.sure n).bind fun l => (k l).sure
  | _, .metadata body k => Sure.metadata.bind fun x => (Sure.attemptOn x.1 body.sure).bind fun r => (k x.2 r).sure
  | _, .metadataWith h body k =>
    (Sure.metadataWith h).bind fun x => (Sure.attemptOn x.1 body.sure).bind fun r => (k x.2 r).sure
  | _, .call c k => c.sure.bind fun x => (k x).sure
  | _, .record k => Sure.record.bind fun r => (k r.1).sure
  | _, .attempt m k => (Sure.attempt m.sure).bind fun r => (k r).sure

/-- Not `parse_slice_direct`, which is there to tell whether the data can be borrowed. -/
def Call.NoDirect : {T : Type} → Call T → Prop
  | _, .direct _ => False
  | _, _ => True

/-- Programs that do not call `parse_slice_direct`. -/
def Prog.NoDirect : {α : Type} → Prog α → Prop
  | _, .done _ => True
  | _, .fail _ => True
  | _, .config k => ∀ x, (k x).NoDirect
  | _, .u8 k => ∀ x, (k x).NoDirect
  | _, .u16 k => ∀ x, (k x).NoDirect
  | _, .u32 k => ∀ x, (k x).NoDirect
  | _, .u64 k => ∀ x, (k x).NoDirect
  | _, .bytes _ k => ∀ x, (k x).NoDirect
  | _, .rest k => ∀ x, (k x).NoDirect
  | _, .restTrimNul k => ∀ x, (k x).NoDirect
  | _, .words _ k => ∀ x, (k x).NoDirect
  | _, .repeated _ item _ k => item.NoDirect ∧ ∀ x, (k x).NoDirect
  | _, .metadata body k => body.NoDirect ∧ ∀ x y, (k x y).NoDirect
  | _, .metadataWith _ body k => body.NoDirect ∧ ∀ x y, (k x y).NoDirect
  | _, .call c k => c.NoDirect ∧ ∀ x, (k x).NoDirect
  | _, .record k => ∀ x, (k x).NoDirect
  | _, .attempt m k => m.NoDirect ∧ ∀ x, (k x).NoDirect

end Perf
