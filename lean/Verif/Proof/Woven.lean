import Verif.Proof.Inplace
import Verif.Spec.PieceLayout
/-!
# Parsers over pieces of memory

`Woven w` is `Inplace` for input in pieces: `w i n` says whether the `n` bytes at offset `i` lie in one borrowed piece, and at what address.
-/
namespace Perf
open ParserM

/-- A parser over pieces of memory. -/
def Woven (_w : Nat → Nat → Option Nat) (α : Type) : Type := Flat → Except Fault (α × Flat)

namespace Woven
variable {w : Nat → Nat → Option Nat} {α γ T : Type}

protected def pure (a : α) : Woven w α := fun f => .ok (a, f)

protected def bind (m : Woven w α) (k : α → Woven w γ) : Woven w γ := fun f =>
  match m f with
  | .error e => .error e
  | .ok (a, f') => k a f'

instance : Monad (Woven w) where
  pure := Woven.pure
  bind := Woven.bind

def fault (e : Fault) : Woven w α := fun _ => .error e
def config : Woven w ParseConfig := fun f => .ok (f.cfg, f)

def take (n : Nat) : Woven w (List Byte) := fun f =>
  if n ≤ f.s.bytes.length then .ok (f.s.bytes.take n, f.adv n) else .error (.err .eof)

def array (n : Nat) : Woven w (List Byte) := fun f =>
  if f.s.bytes = [] then .error (.err .eof) else take (w := w) n f

def rest : Woven w (List Byte) := fun f =>
  if f.s.bytes = [] then .error (.err .eof) else .ok (f.s.bytes, f.adv f.s.bytes.length)

def restTrimNul : Woven w (List Byte) := do
  let bs ← rest
  pure (bs.take (trimNul bs).length)

def padded (padding : Nat) (m : Woven w α) : Woven w α := fun f =>
  if padding = 0 then .error .panic
  else match m f with
    | .error e => .error e
    | .ok (a, f') =>
      let n := (f'.off - f.off) % padding
      if n = 0 then .ok (a, f')
      else match take (w := w) (padding - n) f' with
        | .error e => .error e
        | .ok (_, f'') => .ok (a, f'')

def repeated (item : Woven w T) : Nat → Woven w (List T)
  | 0 => pure []
  | n + 1 => do
    let x ← item
    let xs ← repeated item n
    pure (x :: xs)

/-- In the host's byte order, a list that lies in one borrowed piece is used where it is if its address allows; if not, it is skipped. -/
def slice (e : Elem T) (item : Woven w T) (n : Nat) : Woven w (List T) := fun f =>
  if f.cfg.endian.isNative then
    if n * e.size ≥ usizeLimit then
      .error (.err (.custom .invalidRecord "array length in bytes larger than usize::MAX"))
    else if f.s.bytes = [] then .error (.err .eof)
    else if n * e.size ≤ f.s.bytes.length then
      match w f.off (n * e.size) with
      | some a =>
        if n * e.size = 0 ∨ a % 8 = 0 then
          .ok (e.decodeAll (fromOrder f.cfg.host 64) n (f.s.bytes.take (n * e.size)), f.adv (n * e.size))
        else repeated item n (f.adv (n * e.size))
      | none => repeated item n f
    else repeated item n f
  else repeated item n f

/-- The bytes `c` just read, as they were handed out. -/
def asRead (w : Nat → Nat → Option Nat) (f : Flat) {T : Type} (c : List T) : Cow T :=
  if (w (f.off - c.length) c.length).isSome then .borrowed c else .owned c

instance : ParserM (Woven w) List where
  config := config
  fail e := fault (.err e)
  array := array
  bytes := array
  rest := rest
  restTrimNul := restTrimNul
  padded := padded
  slice := slice
  elems := id
  cowSplitAt c n := fun f => match (asRead w f c).splitAt n with
    | some r => .ok ((r.1.data, r.2.data), f)
    | none => .error .panic
  cowTruncate c n := c.take n
  cowOwned := id

end Woven
end Perf
