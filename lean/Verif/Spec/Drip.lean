import Verif.Spec.Piped
import Verif.Spec.User
/-!
# Programs over bytes that arrive in temporary portions

As `Spec/Piped`, but saying where the parser stands after an error too, so that programs can go on behind it. Nothing is left open: the
outcome of a program, whatever it calls, is a function of the bytes and the configuration.
-/
namespace Perf

/-- A parser over bytes that must be copied, with its position after success and after errors. (After a panic there is no position; the
state is then without meaning.) -/
def Drip (α : Type) : Type := Flat → Except Fault α × Flat

namespace Drip
variable {α γ T : Type}

protected def pure (a : α) : Drip α := fun f => (.ok a, f)

protected def bind (m : Drip α) (k : α → Drip γ) : Drip γ := fun f =>
  match m f with
  | (.error e, f') => (.error e, f')
  | (.ok a, f') => k a f'

instance : Monad Drip where
  pure := Drip.pure
  bind := Drip.bind

def fault (e : Fault) : Drip α := fun f => (.error e, f)
def config : Drip ParseConfig := fun f => (.ok f.cfg, f)

/-- A parser whose only errors come from the end of the input, which is then all consumed. -/
def drain (s : Piped α) : Drip α := fun f =>
  match s f with
  | .ok (a, f') => (.ok a, f')
  | .error e => (.error e, f.adv f.s.bytes.length)

/-- Everything up to the end, without the NUL bytes there. -/
def restTrimNul : Drip (Cow Byte) := do
  let bs ← drain Piped.rest
  pure (bs.truncate (trimNul bs.data).length)

/-- Run `m`, then skip to a multiple of `padding` bytes from where it started. -/
def padded (padding : Nat) (m : Drip α) : Drip α := fun f =>
  if padding = 0 then (.error .panic, f)
  else match m f with
    | (.error e, f') => (.error e, f')
    | (.ok a, f') =>
      let n := (f'.off - f.off) % padding
      if n = 0 then (.ok a, f')
      else Drip.bind (drain (Piped.take (padding - n))) (fun _ => Drip.pure a) f'

/-- `n` items one after the other. -/
def repeated (item : Drip T) : Nat → Drip (List T)
  | 0 => pure []
  | n + 1 => do
    let x ← item
    let xs ← repeated item n
    pure (x :: xs)

/-- The items copied into a vector. -/
def copied (item : Drip T) (n : Nat) : Drip (Cow T) := do
  let xs ← repeated item n
  pure (.owned xs)

/-- `parse_slice`: always a copy. In the host's byte order too large a size is refused on the spot, and at the end of the input even the
empty list is refused. -/
def slice (e : Elem T) (item : Drip T) (n : Nat) : Drip (Cow T) := fun f =>
  if f.cfg.endian.isNative ∧ n * e.size ≥ usizeLimit then
    (.error (.err (.custom .invalidRecord "array length in bytes larger than usize::MAX")), f)
  else if f.cfg.endian.isNative ∧ f.s.bytes = [] then (.error (.err f.s.fin), f)
  else copied item n f

/-- `parse_slice_direct`: nothing can be borrowed. -/
def sliceDirect (size n : Nat) : Drip (Option (List T)) := fun f =>
  if f.cfg.endian.isNative ∧ n * size ≥ usizeLimit then
    (.error (.err (.custom .invalidRecord "array length in bytes larger than usize::MAX")), f)
  else if f.cfg.endian.isNative ∧ f.s.bytes = [] then (.error (.err f.s.fin), f)
  else (.ok none, f)

instance : ParserM Drip Cow where
  config := config
  fail e := fault (.err e)
  array n := drain (Piped.array n)
  bytes n := drain (Piped.bytes n)
  rest := drain Piped.rest
  restTrimNul := restTrimNul
  padded := padded
  slice := slice
  elems := Cow.data
  cowSplitAt c n := match c.splitAt n with
    | some r => pure r
    | none => fault .panic
  cowTruncate := Cow.truncate
  cowOwned := Cow.owned

/-- `perf_event_attr`: after a size that is accepted the parser stands behind the structure. -/
def attr : Drip Attr := do
  let type_ ← parseU32
  let size ← parseU32
  if !Attr.sizeOk size.toNat then
    fault (.err (.custom .invalidRecord s!"{size.toNat} is not a valid size for a perf_event_attr struct"))
  else fun f =>
    if size.toNat - 4 ≤ f.s.bytes.length then
      match (attrBody type_ size : Spec Attr) (f.region (size.toNat - 4)) with
      | .error .stuck => (.error .panic, f)
      | .error (.err e) => (.error (.err e), f.adv (size.toNat - 4))
      | .ok (a, _) => (.ok a, f.adv (size.toNat - 4))
    else (.error (.err f.s.fin), f.adv f.s.bytes.length)

/-- After the header the parser stands behind the record, also when the record is refused; a size below 8 is refused on the spot. -/
def framed (h : Header) (s : Piped α) : Drip α := fun f =>
  match s f with
  | .ok (a, f') => (.ok a, f')
  | .error e => (.error e, if h.size.toNat < 8 then f else f.adv (min (h.size.toNat - 8) f.s.bytes.length))

/-- `Spec.metadataWithHeader`, which leaves nothing open. -/
def frame (h : Header) : Piped (Flat × Metadata) := fun f =>
  match Spec.metadataWithHeader h f with
  | .ok r => .ok r
  | .error (.err e) => .error (.err e)
  | .error .stuck => .error .panic

/-- The body and the metadata of the next record. -/
def metadata : Drip (Flat × Metadata) := do
  let h ← parseHeader
  framed h (frame h)

/-- The next record. -/
def record {O : Type} (v : Visitor Cow O) : Drip O := do
  let h ← parseHeader
  framed h (Piped.recordWithHeader v h)

/-- The outcome of `m` as a value; a panic goes through. -/
def attempt (m : Drip α) : Drip (Except ParseError α) := fun f =>
  match m f with
  | (.ok a, f') => (.ok (.ok a), f')
  | (.error (.err e), f') => (.ok (.error e), f')
  | (.error e, f') => (.error e, f')

/-- The outcome of `m` on another input. -/
def attemptOn (r : Flat) (m : Drip α) : Drip (Except ParseError α) := fun f =>
  match m r with
  | (.ok a, _) => (.ok (.ok a), f)
  | (.error (.err e), _) => (.ok (.error e), f)
  | (.error e, _) => (.error e, f)

end Drip

/-- The call as a function of the bytes. -/
def Call.drip : {T : Type} → Call T → Drip T
  | _, .array n => ParserM.array n
  | _, .direct n => Drip.sliceDirect 8 n
  | _, .entries n => Drip.bind (ParserM.slice NamespaceEntry.elem parseNamespaceEntry n) fun c => pure c.data
  | _, .branches n => Drip.bind (ParserM.slice BranchEntry.elem parseBranchEntry n) fun c => pure c.data
  | _, .header => parseHeader
  | _, .attr => Drip.attr
  | _, .entry => parseNamespaceEntry
  | _, .branch => parseBranchEntry
  | _, .mmapDetail => parseMmapDetail
  | _, .sampleId => parseSampleId
  | _, .readValue => parseReadValue
  | _, .readGroup => Drip.bind parseReadGroup fun r => pure r.view
  | _, .body ty => Drip.bind (parseBody ty) fun r => pure r.view
  | _, .visit => (Drip.record pairVisitor).bind fun r => pure (r.1.view, r.2)
  | _, .visitWith h => (Drip.framed h (Piped.recordWithHeader pairVisitor h)).bind fun r => pure (r.1.view, r.2)

/-- The program as a function of the bytes. -/
def Prog.drip : {α : Type} → Prog α → Drip α
  | _, .done a => Drip.pure a
  | _, .fail e => Drip.fault (.err e)
  | _, .config k => Drip.config.bind fun c => (k c).drip
  | _, .u8 k => Drip.bind parseU8 fun x => (k x).drip
  | _, .u16 k => Drip.bind parseU16 fun x => (k x).drip
  | _, .u32 k => Drip.bind parseU32 fun x => (k x).drip
  | _, .u64 k => Drip.bind parseU64 fun x => (k x).drip
  | _, .bytes n k => (Drip.drain (Piped.bytes n)).bind fun x => (k x.data).drip
  | _, .rest k => (Drip.drain Piped.rest).bind fun x => (k x.data).drip
  | _, .restTrimNul k => Drip.restTrimNul.bind fun x => (k x.data).drip
  | _, .words n k => (Drip.slice U64.elem parseU64 n).bind fun x => (k x.data).drip
  | _, .repeated _ item n k => (Drip.repeated item.drip n).bind fun l => (k l).drip
  | _, .metadata body k => Drip.metadata.bind fun x => (Drip.attemptOn x.1 body.drip).bind fun r => (k x.2 r).drip
  | _, .metadataWith h body k =>
    (Drip.framed h (Drip.frame h)).bind fun x => (Drip.attemptOn x.1 body.drip).bind fun r => (k x.2 r).drip
  | _, .call c k => c.drip.bind fun x => (k x).drip
  | _, .record k => (Drip.record (recordVisitor Cow)).bind fun r => (k r.view).drip
  | _, .attempt m k => (Drip.attempt m.drip).bind fun r => (k r).drip

/-! ## Programs that stop at the first error

For these it does not matter what the reader does after its first end or error. -/
namespace Piped
variable {α T : Type}

/-- `parse_slice_direct`: nothing can be borrowed. -/
def sliceDirect (size n : Nat) : Piped (Option (List T)) := fun f =>
  if f.cfg.endian.isNative ∧ n * size ≥ usizeLimit then
    .error (.err (.custom .invalidRecord "array length in bytes larger than usize::MAX"))
  else if f.cfg.endian.isNative ∧ f.s.bytes = [] then .error (.err f.s.fin)
  else .ok (none, f)

/-- `perf_event_attr`. -/
def attr : Piped Attr := do
  let type_ ← parseU32
  let size ← parseU32
  if !Attr.sizeOk size.toNat then
    fault (.err (.custom .invalidRecord s!"{size.toNat} is not a valid size for a perf_event_attr struct"))
  else fun f =>
    if size.toNat - 4 ≤ f.s.bytes.length then
      match (attrBody type_ size : Spec Attr) (f.region (size.toNat - 4)) with
      | .error .stuck => .error .panic
      | .error (.err e) => .error (.err e)
      | .ok (a, _) => .ok (a, f.adv (size.toNat - 4))
    else .error (.err f.s.fin)

/-- The outcome of `m` on the body of a record. -/
def attemptOn (r : Flat) (m : Drip α) : Piped (Except ParseError α) := fun f =>
  match m r with
  | (.ok a, _) => .ok (.ok a, f)
  | (.error (.err e), _) => .ok (.error e, f)
  | (.error e, _) => .error e

end Piped

/-- The call as a function of the bytes. -/
def Call.pipe : {T : Type} → Call T → Piped T
  | _, .array n => ParserM.array n
  | _, .direct n => Piped.sliceDirect 8 n
  | _, .entries n => Piped.bind (ParserM.slice NamespaceEntry.elem parseNamespaceEntry n) fun c => pure c.data
  | _, .branches n => Piped.bind (ParserM.slice BranchEntry.elem parseBranchEntry n) fun c => pure c.data
  | _, .header => parseHeader
  | _, .attr => Piped.attr
  | _, .entry => parseNamespaceEntry
  | _, .branch => parseBranchEntry
  | _, .mmapDetail => parseMmapDetail
  | _, .sampleId => parseSampleId
  | _, .readValue => parseReadValue
  | _, .readGroup => Piped.bind parseReadGroup fun r => pure r.view
  | _, .body ty => Piped.bind (parseBody ty) fun r => pure r.view
  | _, .visit => (Piped.record pairVisitor).bind fun r => pure (r.1.view, r.2)
  | _, .visitWith h => (Piped.recordWithHeader pairVisitor h).bind fun r => pure (r.1.view, r.2)

/-- A program without `attempt` as a function of the bytes (`attempt` has no meaning here). -/
def Prog.pipe : {α : Type} → Prog α → Piped α
  | _, .done a => Piped.pure a
  | _, .fail e => Piped.fault (.err e)
  | _, .config k => Piped.config.bind fun c => (k c).pipe
  | _, .u8 k => Piped.bind parseU8 fun x => (k x).pipe
  | _, .u16 k => Piped.bind parseU16 fun x => (k x).pipe
  | _, .u32 k => Piped.bind parseU32 fun x => (k x).pipe
  | _, .u64 k => Piped.bind parseU64 fun x => (k x).pipe
  | _, .bytes n k => (Piped.bytes n).bind fun x => (k x.data).pipe
  | _, .rest k => Piped.rest.bind fun x => (k x.data).pipe
  | _, .restTrimNul k => Piped.restTrimNul.bind fun x => (k x.data).pipe
  | _, .words n k => (Piped.slice U64.elem parseU64 n).bind fun x => (k x.data).pipe
  | _, .repeated _ item n k => (Piped.repeated item.pipe n).bind fun l => (k l).pipe
  | _, .metadata body k =>
    Piped.bind parseHeader fun h => (Drip.frame h).bind fun x => (Piped.attemptOn x.1 body.drip).bind fun r => (k x.2 r).pipe
  | _, .metadataWith h body k => (Drip.frame h).bind fun x => (Piped.attemptOn x.1 body.drip).bind fun r => (k x.2 r).pipe
  | _, .call c k => c.pipe.bind fun x => (k x).pipe
  | _, .record k => (Piped.record (recordVisitor Cow)).bind fun r => (k r.view).pipe
  | _, .attempt _ _ => Piped.fault .panic

/-- Programs that stop at the first error and read to the end of the input only inside of a record. (What is done inside of a record, through
the parser that `parse_metadata` returns, is not restricted.) -/
def Prog.Straight : {α : Type} → Prog α → Prop
  | _, .done _ => True
  | _, .fail _ => True
  | _, .config k => ∀ x, (k x).Straight
  | _, .u8 k => ∀ x, (k x).Straight
  | _, .u16 k => ∀ x, (k x).Straight
  | _, .u32 k => ∀ x, (k x).Straight
  | _, .u64 k => ∀ x, (k x).Straight
  | _, .bytes _ k => ∀ x, (k x).Straight
  | _, .rest _ => False
  | _, .restTrimNul _ => False
  | _, .words _ k => ∀ x, (k x).Straight
  | _, .repeated _ item _ k => item.Straight ∧ ∀ x, (k x).Straight
  | _, .metadata _ k => ∀ x y, (k x y).Straight
  | _, .metadataWith _ _ k => ∀ x y, (k x y).Straight
  | _, .call c k => c.NoRest ∧ ∀ x, (k x).Straight
  | _, .record k => ∀ x, (k x).Straight
  | _, .attempt _ _ => False

end Perf
