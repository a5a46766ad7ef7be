import Verif.Spec.Contig
import Verif.Spec.User
/-!
# Programs over one piece of borrowed memory

As `Spec/Contig`, but saying where the parser stands after an error too, so that programs can go on behind it. Nothing is left open: the
outcome of a program, whatever it calls, is a function of the bytes, of their address, and of the configuration.
-/
namespace Perf

/-- A parser over borrowed memory, with its position after success and after errors. (After a panic there is no position; the
state is then without meaning.) -/
def Moored (α : Type) : Type := Flat → Except Fault α × Flat

namespace Moored
variable {α γ T : Type}

protected def pure (a : α) : Moored α := fun f => (.ok a, f)

protected def bind (m : Moored α) (k : α → Moored γ) : Moored γ := fun f =>
  match m f with
  | (.error e, f') => (.error e, f')
  | (.ok a, f') => k a f'

instance : Monad Moored where
  pure := Moored.pure
  bind := Moored.bind

def fault (e : Fault) : Moored α := fun f => (.error e, f)
def config : Moored ParseConfig := fun f => (.ok f.cfg, f)

/-- A parser whose only errors come from the end of the input, which is then all consumed. -/
def drain (s : Contig α) : Moored α := fun f =>
  match s f with
  | .ok (a, f') => (.ok a, f')
  | .error e => (.error e, f.adv f.s.bytes.length)

/-- Everything up to the end, without the NUL bytes there. -/
def restTrimNul : Moored (Cow Byte) := do
  let bs ← drain Contig.rest
  pure (bs.truncate (trimNul bs.data).length)

/-- Run `m`, then skip to a multiple of `padding` bytes from where it started. -/
def padded (padding : Nat) (m : Moored α) : Moored α := fun f =>
  if padding = 0 then (.error .panic, f)
  else match m f with
    | (.error e, f') => (.error e, f')
    | (.ok a, f') =>
      let n := (f'.off - f.off) % padding
      if n = 0 then (.ok a, f')
      else Moored.bind (drain (Contig.take (padding - n))) (fun _ => Moored.pure a) f'

/-- `n` items one after the other. -/
def repeated (item : Moored T) : Nat → Moored (List T)
  | 0 => pure []
  | n + 1 => do
    let x ← item
    let xs ← repeated item n
    pure (x :: xs)

/-- The items copied into a vector. -/
def copied (item : Moored T) (n : Nat) : Moored (Cow T) := do
  let xs ← repeated item n
  pure (.owned xs)

/-- `parse_slice_direct`. In the host's byte order, if the list is there: it is handed out when it is empty or its address is a multiple of 8;
otherwise it is skipped and nothing is handed out. -/
def sliceDirect (e : Elem T) (n : Nat) : Moored (Option (List T)) := fun f =>
  if f.cfg.endian.isNative then
    if n * e.size ≥ usizeLimit then
      (.error (.err (.custom .invalidRecord "array length in bytes larger than usize::MAX")), f)
    else if f.s.bytes = [] then (.error (.err .eof), f)
    else if n * e.size ≤ f.s.bytes.length then
      if n * e.size = 0 ∨ f.s.al.aligned = true then
        (.ok (some (e.decodeAll (fromOrder f.cfg.host 64) n (f.s.bytes.take (n * e.size)))), f.adv (n * e.size))
      else (.ok none, f.adv (n * e.size))
    else (.ok none, f)
  else (.ok none, f)

/-- `parse_slice`: what `parse_slice_direct` hands out; if that is nothing, the items are read from where it left off. -/
def slice (e : Elem T) (item : Moored T) (n : Nat) : Moored (Cow T) := do
  let r ← sliceDirect e n
  match r with
  | some l => pure (.borrowed l)
  | none => copied item n

instance : ParserM Moored Cow where
  config := config
  fail e := fault (.err e)
  array n := drain (Contig.array n)
  bytes n := drain (Contig.bytes n)
  rest := drain Contig.rest
  restTrimNul := restTrimNul
  padded := padded
  slice := slice
  elems := Cow.data
  cowSplitAt c n := match c.splitAt n with
    | some r => pure r
    | none => fault .panic
  cowTruncate := Cow.truncate
  cowOwned := Cow.owned

/-- `perf_event_attr`: after a size that is accepted the parser stands behind the structure. -/
def attr : Moored Attr := do
  let type_ ← parseU32
  let size ← parseU32
  if !Attr.sizeOk size.toNat then
    fault (.err (.custom .invalidRecord s!"{size.toNat} is not a valid size for a perf_event_attr struct"))
  else fun f =>
    if size.toNat - 4 ≤ f.s.bytes.length then
      match (attrBody type_ size : Spec Attr) (f.region (size.toNat - 4)) with
      | .error .stuck => (.error .panic, f)
      | .error (.err e) => (.error (.err e), f.adv (size.toNat - 4))
      | .ok (a, _) => (.ok a, f.adv (size.toNat - 4))
    else (.error (.err .eof), f.adv f.s.bytes.length)

/-- After the header the parser stands behind the record, also when the record is refused; a size below 8 is refused on the spot. -/
def framed (h : Header) (s : Contig α) : Moored α := fun f =>
  match s f with
  | .ok (a, f') => (.ok a, f')
  | .error e => (.error e, if h.size.toNat < 8 then f else f.adv (min (h.size.toNat - 8) f.s.bytes.length))

/-- The body and the metadata of the next record. -/
def metadata : Moored (Flat × Metadata) := do
  let h ← parseHeader
  framed h (Contig.metadataWithHeader h)

/-- The next record. -/
def record {O : Type} (v : Visitor Cow O) : Moored O := do
  let h ← parseHeader
  framed h (Contig.recordWithHeader v h)

/-- The outcome of `m` as a value; a panic goes through. -/
def attempt (m : Moored α) : Moored (Except ParseError α) := fun f =>
  match m f with
  | (.ok a, f') => (.ok (.ok a), f')
  | (.error (.err e), f') => (.ok (.error e), f')
  | (.error e, f') => (.error e, f')

/-- The outcome of `m` on another input. -/
def attemptOn (r : Flat) (m : Moored α) : Moored (Except ParseError α) := fun f =>
  match m r with
  | (.ok a, _) => (.ok (.ok a), f)
  | (.error (.err e), _) => (.ok (.error e), f)
  | (.error e, _) => (.error e, f)

end Moored

/-- The call as a function of the bytes and their address. -/
def Call.moored : {T : Type} → Call T → Moored T
  | _, .array n => ParserM.array n
  | _, .direct n => Moored.sliceDirect U64.elem n
  | _, .entries n => Moored.bind (ParserM.slice NamespaceEntry.elem parseNamespaceEntry n) fun c => pure c.data
  | _, .branches n => Moored.bind (ParserM.slice BranchEntry.elem parseBranchEntry n) fun c => pure c.data
  | _, .header => parseHeader
  | _, .attr => Moored.attr
  | _, .entry => parseNamespaceEntry
  | _, .branch => parseBranchEntry
  | _, .mmapDetail => parseMmapDetail
  | _, .sampleId => parseSampleId
  | _, .readValue => parseReadValue
  | _, .readGroup => Moored.bind parseReadGroup fun r => pure r.view
  | _, .body ty => Moored.bind (parseBody ty) fun r => pure r.view
  | _, .visit => (Moored.record pairVisitor).bind fun r => pure (r.1.view, r.2)
  | _, .visitWith h => (Moored.framed h (Contig.recordWithHeader pairVisitor h)).bind fun r => pure (r.1.view, r.2)

/-- The program as a function of the bytes and their address. -/
def Prog.moored : {α : Type} → Prog α → Moored α
  | _, .done a => Moored.pure a
  | _, .fail e => Moored.fault (.err e)
  | _, .config k => Moored.config.bind fun c => (k c).moored
  | _, .u8 k => Moored.bind parseU8 fun x => (k x).moored
  | _, .u16 k => Moored.bind parseU16 fun x => (k x).moored
  | _, .u32 k => Moored.bind parseU32 fun x => (k x).moored
  | _, .u64 k => Moored.bind parseU64 fun x => (k x).moored
  | _, .bytes n k => (Moored.drain (Contig.bytes n)).bind fun x => (k x.data).moored
  | _, .rest k => (Moored.drain Contig.rest).bind fun x => (k x.data).moored
  | _, .restTrimNul k => Moored.restTrimNul.bind fun x => (k x.data).moored
  | _, .words n k => (Moored.slice U64.elem parseU64 n).bind fun x => (k x.data).moored
  | _, .repeated _ item n k => (Moored.repeated item.moored n).bind fun l => (k l).moored
  | _, .metadata body k => Moored.metadata.bind fun x => (Moored.attemptOn x.1 body.moored).bind fun r => (k x.2 r).moored
  | _, .metadataWith h body k =>
    (Moored.framed h (Contig.metadataWithHeader h)).bind fun x => (Moored.attemptOn x.1 body.moored).bind fun r => (k x.2 r).moored
  | _, .call c k => c.moored.bind fun x => (k x).moored
  | _, .record k => (Moored.record (recordVisitor Cow)).bind fun r => (k r.view).moored
  | _, .attempt m k => (Moored.attempt m.moored).bind fun r => (k r).moored

end Perf
