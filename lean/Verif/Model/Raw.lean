import Verif.Model.Parser
/-!
# The `unsafe` blocks of `src/parse.rs`, with memory made explicit

`Verif.Model.Parser` describes what `parse_to_slice`, `parse_bytes`, `parse_array_slow` and `parse_slice_direct` return. Here the
same functions are written out with the memory they write to: cells may be uninitialised, writes and reads have bounds. The
result `none` stands for undefined behaviour: a broken precondition of an `unsafe` operation.
-/
namespace Perf

/-- `[MaybeUninit<u8>]`: an uninitialised cell is `none`. -/
abbrev Mem := List (Option Byte)

/-- `ptr::copy_nonoverlapping(src.as_ptr(), base.add(dst), n)`: the source must have `n` bytes and the destination `n` cells from
`dst` on. -/
def Mem.copyFrom (m : Mem) (src : List Byte) (dst n : Nat) : Option Mem :=
  if n ≤ src.length ∧ dst + n ≤ m.length then
    some (m.take dst ++ (src.take n).map some ++ m.drop (dst + n))
  else none

/-- Reading `n` cells as `u8`: they must be there and initialised. -/
def Mem.assumeInit (m : Mem) (n : Nat) : Option (List Byte) :=
  if n ≤ m.length then (m.take n).mapM id else none

/-- `slice::align_to::<T>` on `n` bytes at address `addr`, for a `T` of this size and alignment: the lengths of the head (bytes),
of the middle (elements) and of the tail (bytes). Everything is head if the first aligned address lies outside. Std code,
modelled from its source (core/src/slice/mod.rs, `align_to`). -/
def alignTo (addr n size align : Nat) : Nat × Nat × Nat :=
  let head := (align - addr % align) % align
  if head > n then (n, 0, 0) else (head, (n - head) / size, (n - head) % size)

namespace P
variable {β : Type} [ParseBuf β] {T : Type}

/-- The loop of `Parser::parse_to_slice`, src/parse.rs:272-283, writing to `mem`; `dst` is the offset of the pointer `dst`. -/
def toSliceRawLoop : Nat → Nat → Nat → Mem → P β (Option Mem)
  | 0, _, _, _ => fault .diverge
  | fuel + 1, dst, len, mem =>
    if len = 0 then pure (some mem)
    else do
      let c ← chunk
      let n := min c.data.length len
      match mem.copyFrom c.data dst n with
      | none => pure none
      | some mem => do
        advance n
        toSliceRawLoop fuel (dst + n) (len - n) mem

/-- `Parser::parse_to_slice`, src/parse.rs:268-286, on the slice `mem`. -/
def toSliceRaw (mem : Mem) : P β (Option Mem) := do
  let n ← fuel
  toSliceRawLoop n 0 mem.length mem

/-- `Parser::parse_bytes`, src/parse.rs:236-250. `Vec::with_capacity(len)` yields a vector of capacity `cap`, which is `len` or
more; `spare_capacity_mut` is all of it; `set_len(len)` wants `len` initialised bytes. -/
def bytesRaw (len cap : Nat) : P β (Option (Cow Byte)) := do
  match ← bytesDirect len with
  | some (_, bs) => pure (some (.borrowed bs))
  | none =>
    let h ← hint
    if hintAtLeast h len then do
      alloc cap
      match ← toSliceRaw (List.replicate cap none) with
      | none => pure none
      | some mem => pure ((mem.assumeInit len).map Cow.owned)
    else do
      let bs ← bytesSlow len
      pure (some (.owned bs))

/-- `Parser::parse_array_slow`, src/parse.rs:289-293: the array is zeroed, its `align_to_mut::<MaybeUninit<u8>>` middle is written
to. The array may be at any address. -/
def arraySlowRaw (addr n : Nat) : P β (Option (List Byte)) := do
  let array : Mem := List.replicate n (some 0)
  let (head, mid, _) := alignTo addr n 1 1
  match ← toSliceRaw ((array.drop head).take mid) with
  | none => pure none
  | some mem => pure (Mem.assumeInit (array.take head ++ mem ++ array.drop (head + mid)) n)

/-- `Parser::parse_array`, src/parse.rs:295-306. -/
def arrayRaw (addr n : Nat) : P β (Option (List Byte)) := do
  let c ← chunk
  if c.data.length < n then arraySlowRaw addr n
  else do
    advance n
    pure (some (c.data.take n))

/-- `Parser::parse_slice_direct`, src/parse.rs:441-468, for an element type with this alignment: `mid` elements from the first
aligned address on. -/
def sliceDirectRaw (e : Elem T) (align len : Nat) : P β (Option (List T)) := do
  let cfg ← config
  if !cfg.endian.isNative then pure none
  else if len * e.size ≥ usizeLimit then
    fail (.custom .invalidRecord "array length in bytes larger than usize::MAX")
  else do
    match ← bytesDirect (len * e.size) with
    | none => pure none
    | some (addr, bs) =>
      let (head, mid, tail) := alignTo addr bs.length e.size align
      if head ≠ 0 ∨ tail ≠ 0 then pure none
      else pure (some (e.decodeAll (fromOrder cfg.host 64) mid (bs.drop head)))

end P
end Perf
