import Verif.Spec.Record
/-!
# Parsing data that arrives in temporary portions

What the parser operations do on data that is only ever handed out in temporary chunks, such as the data of a `BufReader`. The
portions it arrives in do not occur here at all: only the bytes and the error behind them. Unlike `Spec` this leaves nothing
open, and values say whether they are copies.
-/
namespace Perf

/-- A parser over bytes that must be copied. -/
def Piped (α : Type) : Type := Flat → Except Fault (α × Flat)

namespace Piped
variable {α γ T : Type}

protected def pure (a : α) : Piped α := fun f => .ok (a, f)

protected def bind (m : Piped α) (k : α → Piped γ) : Piped γ := fun f =>
  match m f with
  | .error e => .error e
  | .ok (a, f') => k a f'

instance : Monad Piped where
  pure := Piped.pure
  bind := Piped.bind

def fault (e : Fault) : Piped α := fun _ => .error e
def config : Piped ParseConfig := fun f => .ok (f.cfg, f)

/-- The next `n` bytes. -/
def take (n : Nat) : Piped (List Byte) := fun f =>
  if n ≤ f.s.bytes.length then .ok (f.s.bytes.take n, f.adv n) else .error (.err f.s.fin)

/-- The next `n` bytes; fails at the end of the input even for `n = 0`. -/
def array (n : Nat) : Piped (List Byte) := fun f =>
  if f.s.bytes = [] then .error (.err f.s.fin) else take n f

/-- The same, as a copy. -/
def bytes (n : Nat) : Piped (Cow Byte) := do
  let bs ← array n
  pure (.owned bs)

/-- A copy of everything up to the end; fails at the end of the input, and if the end is not an `Eof`. -/
def rest : Piped (Cow Byte) := fun f =>
  if f.s.bytes = [] then .error (.err f.s.fin)
  else if f.s.fin.kind = .eof then .ok (.owned f.s.bytes, f.adv f.s.bytes.length)
  else .error (.err f.s.fin)

def restTrimNul : Piped (Cow Byte) := do
  let bs ← rest
  pure (bs.truncate (trimNul bs.data).length)

/-- Run `m`, then skip to a multiple of `padding` bytes from where it started. -/
def padded (padding : Nat) (m : Piped α) : Piped α := fun f =>
  if padding = 0 then .error .panic
  else match m f with
    | .error e => .error e
    | .ok (a, f') =>
      let n := (f'.off - f.off) % padding
      if n = 0 then .ok (a, f')
      else match take (padding - n) f' with
        | .error e => .error e
        | .ok (_, f'') => .ok (a, f'')

/-- `n` items one after the other. -/
def repeated (item : Piped T) : Nat → Piped (List T)
  | 0 => pure []
  | n + 1 => do
    let x ← item
    let xs ← repeated item n
    pure (x :: xs)

/-- The items copied into a vector. -/
def copied (item : Piped T) (n : Nat) : Piped (Cow T) := do
  let xs ← repeated item n
  pure (.owned xs)

/-- `parse_slice`: always a copy. In the host's byte order too large a size is rejected, and so is even the empty list at the end
of the input. -/
def slice (e : Elem T) (item : Piped T) (n : Nat) : Piped (Cow T) := fun f =>
  if f.cfg.endian.isNative ∧ n * e.size ≥ usizeLimit then
    .error (.err (.custom .invalidRecord "array length in bytes larger than usize::MAX"))
  else if f.cfg.endian.isNative ∧ f.s.bytes = [] then .error (.err f.s.fin)
  else copied item n f

instance : ParserM Piped Cow where
  config := config
  fail e := fault (.err e)
  array := array
  bytes := bytes
  rest := rest
  restTrimNul := restTrimNul
  padded := padded
  slice := slice
  elems := Cow.data
  cowSplitAt c n := match c.splitAt n with
    | some r => pure r
    | none => fault .panic
  cowTruncate := Cow.truncate
  cowOwned := Cow.owned

/-- `parse_record_with_header`: the frame is that of `Spec`; the body is parsed on its own, with the record's `misc` bits, and
handed to the visitor. -/
def recordWithHeader {O : Type} (v : Visitor Cow O) (h : Header) : Piped O := fun f =>
  match Spec.metadataWithHeader h f with
  | .error (.err e) => .error (.err e)
  | .error .stuck => .error .panic
  | .ok ((r, md), f') =>
    match (parseBody md.ty : Piped (Record Cow)) (r.withMisc md.misc) with
    | .error e => .error e
    | .ok (a, _) => (v.apply a md).map fun o => (o, f')

/-- `parse_record`. -/
def record {O : Type} (v : Visitor Cow O) : Piped O := do
  let h ← parseHeader
  recordWithHeader v h

/-- The value or fault, without the position reached. -/
def result (m : Piped α) (f : Flat) : Except Fault α := (m f).map Prod.fst

end Piped

/-- Bytes that arrive through a reader, the error behind them, and the configuration. -/
def Flat.through (bytes : List Byte) (fin : ParseError) (cfg : ParseConfig) : Flat := ⟨⟨bytes, .temp, fin⟩, 0, cfg⟩

end Perf
