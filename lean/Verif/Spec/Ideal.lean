import Verif.Model.Mended
/-!
# What parsing a sequence of bytes should mean

A third instance of `ParserM`, in which the outcome is a function of nothing but the bytes still to come, the error that
ends them and the configuration. There are no addresses, no chunks, no borrowed or owned data and no `stuck`; nothing
depends on whether the byte order is the host's.
-/
namespace Perf

/-- The bytes still to come, the error reported after them, the offset and the configuration. -/
structure Input where
  bytes : List Byte
  fin : ParseError
  off : Nat
  cfg : ParseConfig

/-- The input `k` bytes further. -/
def Input.adv (i : Input) (k : Nat) : Input := { i with bytes := i.bytes.drop k, off := i.off + k }

/-- A parser in which every outcome is a function of the input. -/
def Ideal (α : Type) : Type := Input → Except ParseError (α × Input)

namespace Ideal
variable {α T : Type}

/-- The next `n` bytes. -/
def take (n : Nat) : Ideal (List Byte) := fun i =>
  if n ≤ i.bytes.length then .ok (i.bytes.take n, i.adv n) else .error i.fin

/-- Everything up to the end. -/
def rest : Ideal (List Byte) := fun i =>
  if i.fin.kind = .eof then .ok (i.bytes, i.adv i.bytes.length) else .error i.fin

protected def pure (a : α) : Ideal α := fun i => .ok (a, i)

protected def bind {γ : Type} (m : Ideal α) (k : α → Ideal γ) : Ideal γ := fun i =>
  match m i with
  | .error e => .error e
  | .ok (a, i') => k a i'

instance : Monad Ideal where
  pure := Ideal.pure
  bind := Ideal.bind

/-- Run `m`, then skip to a multiple of `padding` bytes from where it started. -/
def padded (padding : Nat) (m : Ideal α) : Ideal α := fun i =>
  match m i with
  | .error e => .error e
  | .ok (a, i') =>
    if (i'.off - i.off) % padding = 0 then .ok (a, i')
    else match take (padding - (i'.off - i.off) % padding) i' with
      | .error e => .error e
      | .ok (_, i'') => .ok (a, i'')

/-- `n` items one after the other. -/
def repeated (item : Ideal T) : Nat → Ideal (List T)
  | 0 => pure []
  | n + 1 => do
    let x ← item
    let xs ← repeated item n
    pure (x :: xs)

/-- `n` items one after the other, unless they could not fit into memory. -/
def slice (e : Elem T) (item : Ideal T) (n : Nat) : Ideal (List T) := fun i =>
  if n * e.size ≥ usizeLimit then .error (.custom .invalidRecord "array length in bytes larger than usize::MAX")
  else repeated item n i

instance : ParserM Ideal List where
  config i := .ok (i.cfg, i)
  fail e _ := .error e
  array := take
  bytes := take
  rest := rest
  restTrimNul := do
    let bs ← rest
    pure (trimNul bs)
  padded := padded
  slice := slice
  elems l := l
  cowSplitAt l n := pure (l.take n, l.drop n)
  cowTruncate l n := l.take n
  cowOwned l := l

/-! ## Records -/

/-- The next `len` bytes as an input of their own. -/
def region (i : Input) (len : Nat) : Input := ⟨i.bytes.take len, .eof, 0, i.cfg⟩

/-- The body of a record and its metadata, from what follows the header. Every record but SAMPLE ends in a `sample_id`. -/
def frame (h : Header) (i : Input) : Except ParseError (Input × Metadata) :=
  if h.size.toNat < 8 then .error (.custom .invalidRecord "header size was too small to be valid")
  else if i.bytes.length < h.size.toNat - 8 then .error i.fin
  else if h.type_.toNat = 9 then .ok (region i (h.size.toNat - 8), Metadata.new h SampleId.default)
  else if h.size.toNat - 8 < SampleId.estimateLen i.cfg then
    .error (.custom .invalidRecord ("config has sample_id_all bit set but record does not have enough data " ++
      "to store the sample_id"))
  else match (parseSampleId : Ideal SampleId)
      ((region i (h.size.toNat - 8)).adv (h.size.toNat - 8 - SampleId.estimateLen i.cfg)) with
    | .error e => .error e
    | .ok (sid, _) => .ok (region i (h.size.toNat - 8 - SampleId.estimateLen i.cfg), Metadata.new h sid)

/-- The record and its metadata, from what follows the header. -/
def recordWithHeader (h : Header) (i : Input) : Except ParseError (Record List × Metadata) :=
  match frame h i with
  | .error e => .error e
  | .ok (r, md) =>
    match (mendedBody md.ty : Ideal (Record List)) { r with cfg := r.cfg.withMisc md.misc } with
    | .error e => .error e
    | .ok (rec, _) => .ok (rec, md)

/-- The record and its metadata. -/
def record (i : Input) : Except ParseError (Record List × Metadata) :=
  match (parseHeader : Ideal Header) i with
  | .error e => .error e
  | .ok (h, i') => recordWithHeader h i'

end Ideal
end Perf
