import Verif.Spec.Record
/-!
# Parsing one contiguous piece of borrowed memory

What the parser operations do on a single borrowed piece, such as a slice, for every address. Unlike `Spec` this leaves nothing
open: lists in the host's byte order at an address that is not a multiple of 8 are skipped and the elements are taken from what
follows, and values say whether they are borrowed.
-/
namespace Perf

/-- A parser over one piece of borrowed memory. -/
def Contig (α : Type) : Type := Flat → Except Fault (α × Flat)

namespace Contig
variable {α γ T : Type}

protected def pure (a : α) : Contig α := fun f => .ok (a, f)

protected def bind (m : Contig α) (k : α → Contig γ) : Contig γ := fun f =>
  match m f with
  | .error e => .error e
  | .ok (a, f') => k a f'

instance : Monad Contig where
  pure := Contig.pure
  bind := Contig.bind

def fault (e : Fault) : Contig α := fun _ => .error e
def config : Contig ParseConfig := fun f => .ok (f.cfg, f)

/-- The next `n` bytes. -/
def take (n : Nat) : Contig (List Byte) := fun f =>
  if n ≤ f.s.bytes.length then .ok (f.s.bytes.take n, f.adv n) else .error (.err .eof)

/-- The next `n` bytes; fails at the end of the input even for `n = 0`. -/
def array (n : Nat) : Contig (List Byte) := fun f =>
  if f.s.bytes = [] then .error (.err .eof) else take n f

/-- The same, borrowed. -/
def bytes (n : Nat) : Contig (Cow Byte) := do
  let bs ← array n
  pure (.borrowed bs)

/-- Everything up to the end; fails at the end of the input. -/
def rest : Contig (Cow Byte) := fun f =>
  if f.s.bytes = [] then .error (.err .eof) else .ok (.borrowed f.s.bytes, f.adv f.s.bytes.length)

def restTrimNul : Contig (Cow Byte) := do
  let bs ← rest
  pure (bs.truncate (trimNul bs.data).length)

/-- Run `m`, then skip to a multiple of `padding` bytes from where it started. -/
def padded (padding : Nat) (m : Contig α) : Contig α := fun f =>
  if padding = 0 then .error .panic
  else match m f with
    | .error e => .error e
    | .ok (a, f') =>
      let n := (f'.off - f.off) % padding
      if n = 0 then .ok (a, f')
      else match take (padding - n) f' with
        | .error e => .error e
        | .ok (_, f'') => .ok (a, f'')

/-- `n` items one after the other. -/
def repeated (item : Contig T) : Nat → Contig (List T)
  | 0 => pure []
  | n + 1 => do
    let x ← item
    let xs ← repeated item n
    pure (x :: xs)

/-- The items copied into a vector. -/
def copied (item : Contig T) (n : Nat) : Contig (Cow T) := do
  let xs ← repeated item n
  pure (.owned xs)

/-- `parse_slice`. In the host's byte order, if the list is there: it is borrowed when it is empty or its address is a multiple
of 8; otherwise it is skipped and the items are read from what follows. -/
def slice (e : Elem T) (item : Contig T) (n : Nat) : Contig (Cow T) := fun f =>
  if f.cfg.endian.isNative then
    if n * e.size ≥ usizeLimit then
      .error (.err (.custom .invalidRecord "array length in bytes larger than usize::MAX"))
    else if f.s.bytes = [] then .error (.err .eof)
    else if n * e.size ≤ f.s.bytes.length then
      if n * e.size = 0 ∨ f.s.al.aligned = true then
        .ok (.borrowed (e.decodeAll (fromOrder f.cfg.host 64) n (f.s.bytes.take (n * e.size))), f.adv (n * e.size))
      else copied item n (f.adv (n * e.size))
    else copied item n f
  else copied item n f

instance : ParserM Contig Cow where
  config := config
  fail e := fault (.err e)
  array := array
  bytes := bytes
  rest := rest
  restTrimNul := restTrimNul
  padded := padded
  slice := slice
  elems := Cow.data
  cowSplitAt c n := match c.splitAt n with
    | some r => pure r
    | none => fault .panic
  cowTruncate := Cow.truncate
  cowOwned := Cow.owned

/-- The record's body, without its `sample_id`, and its metadata. -/
def metadataWithHeader (h : Header) : Contig (Flat × Metadata) := fun f =>
  if h.size.toNat < 8 then .error (.err (.custom .invalidRecord "header size was too small to be valid"))
  else if h.size.toNat - 8 ≤ f.s.bytes.length then
    if h.type_.toNat = 1 ∨ h.type_.toNat = 9 then
      .ok ((f.region (h.size.toNat - 8), Metadata.new h SampleId.default), f.adv (h.size.toNat - 8))
    else if h.size.toNat - 8 < SampleId.estimateLen f.cfg then
      .error (.err (.custom .invalidRecord ("config has sample_id_all bit set but record does not have enough data " ++
        "to store the sample_id")))
    else match (parseSampleId : Contig SampleId)
        ((f.region (h.size.toNat - 8)).adv (h.size.toNat - 8 - SampleId.estimateLen f.cfg)) with
      | .error e => .error e
      | .ok (sid, _) => .ok ((f.region (h.size.toNat - 8 - SampleId.estimateLen f.cfg), Metadata.new h sid),
          f.adv (h.size.toNat - 8))
  else .error (.err .eof)

/-- `parse_record_with_header`: the body is parsed on its own, with the record's `misc` bits, and handed to the visitor. -/
def recordWithHeader {O : Type} (v : Visitor Cow O) (h : Header) : Contig O := fun f =>
  match metadataWithHeader h f with
  | .error e => .error e
  | .ok ((r, md), f') =>
    match (parseBody md.ty : Contig (Record Cow)) (r.withMisc md.misc) with
    | .error e => .error e
    | .ok (a, _) => (v.apply a md).map fun o => (o, f')

/-- `parse_record`. -/
def record {O : Type} (v : Visitor Cow O) : Contig O := do
  let h ← parseHeader
  recordWithHeader v h

end Contig

/-- A position in a piece of memory: the address, what follows there, and the configuration. -/
def Flat.here (addr : Nat) (bytes : List Byte) (cfg : ParseConfig) : Flat := ⟨⟨bytes, .at addr, .eof⟩, 0, cfg⟩

end Perf
