import Verif.Model.Attr
import Verif.Model.Visitor
/-!
# Flat semantics: parsing one contiguous list of bytes

A second instance of `ParserM` that knows nothing about chunks, cursors, borrowed or owned data, fuel or memory
requests. The proofs show that the code model over any lawful buffer refines it.

`SFault.stuck` marks the places where the outcome of the Rust code is not a function of the bytes alone (see
DESIGN.md: `parse_slice` on a misaligned native buffer, and `split_at` of owned data at its ends).
-/
namespace Perf

/-- What is known about where the bytes live: nothing, only in temporary chunks, or at an address congruent to `n`
modulo 8 if borrowed. -/
inductive Al where
  | unknown
  | temp
  | at (n : Nat)
deriving DecidableEq, Repr

/-- Position `k` bytes further. -/
def Al.add (a : Al) (k : Nat) : Al :=
  match a with
  | .at n => .at (n + k)
  | a => a

/-- A chunk at `l` agrees with the knowledge `a`. -/
def Al.Allows (a : Al) (l : Loc) : Prop :=
  match a, l with
  | .unknown, _ => True
  | .temp, .temporary => True
  | .temp, .external _ => False
  | .at _, .temporary => True
  | .at n, .external addr => addr % 8 = n % 8

/-- Reinterpreting bytes at this position cannot hit a misaligned address. -/
def Al.aligned (a : Al) : Bool :=
  match a with
  | .unknown => false
  | .temp => true
  | .at n => n % 8 == 0

/-- The bytes still to come, and the error reported after them. -/
structure Stream where
  bytes : List Byte
  al : Al
  fin : ParseError

/-- The stream without its first `k` bytes. -/
def Stream.drop (s : Stream) (k : Nat) : Stream := { s with bytes := s.bytes.drop k, al := s.al.add k }

/-- A flat parser state. -/
structure Flat where
  s : Stream
  off : Nat
  cfg : ParseConfig

/-- The state `k` bytes further. -/
def Flat.adv (f : Flat) (k : Nat) : Flat := { f with s := f.s.drop k, off := f.off + k }

/-- How flat parsing can end without a value. -/
inductive SFault where
  | err (e : ParseError)
  | stuck
deriving DecidableEq, Repr

/-- A flat parser. -/
def Spec (α : Type) : Type := Flat → Except SFault (α × Flat)

namespace Spec
variable {α γ T : Type}

protected def pure (a : α) : Spec α := fun f => .ok (a, f)

protected def bind (m : Spec α) (k : α → Spec γ) : Spec γ := fun f =>
  match m f with
  | .error e => .error e
  | .ok (a, f') => k a f'

instance : Monad Spec where
  pure := Spec.pure
  bind := Spec.bind

def stuck : Spec α := fun _ => .error .stuck
def fail (e : ParseError) : Spec α := fun _ => .error (.err e)
def config : Spec ParseConfig := fun f => .ok (f.cfg, f)

/-- The next `n` bytes, without looking whether the input is at its end. -/
def take (n : Nat) : Spec (List Byte) := fun f =>
  if n ≤ f.s.bytes.length then .ok (f.s.bytes.take n, f.adv n) else .error (.err f.s.fin)

/-- The next `n` bytes; fails at the end of the input even for `n = 0`. -/
def bytes (n : Nat) : Spec (List Byte) := fun f =>
  if f.s.bytes = [] then .error (.err f.s.fin) else take n f

/-- Everything up to the end; fails at the end of the input. -/
def rest : Spec (List Byte) := fun f =>
  if f.s.bytes = [] then .error (.err f.s.fin)
  else if f.s.fin.kind = .eof then .ok (f.s.bytes, f.adv f.s.bytes.length)
  else .error (.err f.s.fin)

def restTrimNul : Spec (List Byte) := do
  let bs ← rest
  pure (trimNul bs)

/-- Run `m`, then skip to a multiple of `padding` bytes from where it started. -/
def padded (padding : Nat) (m : Spec α) : Spec α := fun f =>
  if padding = 0 then .error .stuck
  else match m f with
    | .error e => .error e
    | .ok (a, f') =>
      let n := (f'.off - f.off) % padding
      if n = 0 then .ok (a, f')
      else match take (padding - n) f' with
        | .error e => .error e
        | .ok (_, f'') => .ok (a, f'')

/-- `n` items one after the other. -/
def repeated (item : Spec T) : Nat → Spec (List T)
  | 0 => pure []
  | n + 1 => do
    let x ← item
    let xs ← repeated item n
    pure (x :: xs)

/-- `parse_slice`. In the reader's native byte order an empty input is an error even for `n = 0`, too large a size
is rejected, and the outcome is only specified for aligned data. -/
def slice (e : Elem T) (item : Spec T) (n : Nat) : Spec (List T) := fun f =>
  if f.cfg.endian.isNative then
    if n * e.size ≥ usizeLimit then
      .error (.err (.custom .invalidRecord "array length in bytes larger than usize::MAX"))
    else if f.s.bytes = [] then .error (.err f.s.fin)
    else if n ≠ 0 ∧ n * e.size ≤ f.s.bytes.length ∧ f.s.al.aligned = false then .error .stuck
    else repeated item n f
  else repeated item n f

/-- Split at `n`; unspecified at the ends and beyond. -/
def splitAt (l : List T) (n : Nat) : Spec (List T × List T) :=
  if l ≠ [] ∧ (n = 0 ∨ n ≥ l.length) ∨ n > l.length then stuck else pure (l.take n, l.drop n)

instance : ParserM Spec List where
  config := config
  fail := fail
  array := bytes
  bytes := bytes
  rest := rest
  restTrimNul := restTrimNul
  padded := padded
  slice := slice
  elems l := l
  cowSplitAt := splitAt
  cowTruncate l n := l.take n
  cowOwned l := l

end Spec
end Perf
