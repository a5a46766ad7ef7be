import Verif.Model.ParseBuf
import Verif.Model.Config
/-!
# `src/parse.rs`: the parser and its primitive operations
-/
namespace Perf

/-- `Parser<B, E>`, src/parse.rs:145-148. -/
structure Parser (β : Type) where
  config : ParseConfig
  data : Tracking β

/-- `Parser::new`, src/parse.rs:156-161. -/
def Parser.new {β : Type} (data : β) (config : ParseConfig) : Parser β :=
  { config := config, data := ⟨data, 0⟩ }

/-- What a parser call leaves behind: its result, the parser (also after a failure), and the sizes in bytes of the
memory requests of input-dependent size made up front (`Vec::with_capacity(len)`) or in one go (`to_vec`). Not listed are the
two of fixed size (`with_capacity(2)` in src/parsebuf.rs:166, `with_capacity(3)` in src/records/read.rs:193) and growth by
`push`, `extend` and `collect`. -/
structure Out (β α : Type) where
  res : Except Fault α
  st : Parser β
  log : List Nat

/-- A function `fn(&mut Parser<B, E>) -> ParseResult<T>`. -/
def P (β α : Type) : Type := Parser β → Out β α

namespace P
variable {β : Type} {α γ : Type}

/-- `Ok(a)` -/
protected def pure (a : α) : P β α := fun p => ⟨.ok a, p, []⟩

/-- Sequencing with `?`: the first failure ends the call, later steps see the modified parser. -/
protected def bind (m : P β α) (f : α → P β γ) : P β γ := fun p =>
  let o := m p
  match o.res with
  | .error e => ⟨.error e, o.st, o.log⟩
  | .ok a => let o' := f a o.st; ⟨o'.res, o'.st, o.log ++ o'.log⟩

instance : Monad (P β) where
  pure := P.pure
  bind := P.bind

/-- End the call with a fault. -/
def fault (e : Fault) : P β α := fun p => ⟨.error e, p, []⟩

/-- `return Err(e)` -/
def fail (e : ParseError) : P β α := fault (.err e)

/-- `Parser::config`, src/parse.rs:165-167. -/
def config : P β ParseConfig := fun p => ⟨.ok p.config, p, []⟩

/-- `self.data.offset()` -/
def offset : P β Nat := fun p => ⟨.ok p.data.offset, p, []⟩

/-- A request for `n` bytes of memory. -/
def alloc (n : Nat) : P β Unit := fun p => ⟨.ok (), p, [n]⟩

variable [ParseBuf β]

/-- `self.data.chunk()?` -/
def chunk : P β Chunk := fun p =>
  ⟨(ParseBuf.chunk p.data).1, { p with data := (ParseBuf.chunk p.data).2 }, []⟩

/-- `self.data.chunk()` without `?`: the caller looks at the error. A panic still propagates. -/
def chunkResult : P β (Except ParseError Chunk) := fun p =>
  let p' := { p with data := (ParseBuf.chunk p.data).2 }
  match (ParseBuf.chunk p.data).1 with
  | .ok c => ⟨.ok (.ok c), p', []⟩
  | .error (.err e) => ⟨.ok (.error e), p', []⟩
  | .error f => ⟨.error f, p', []⟩

/-- `self.data.advance(n)` -/
def advance (n : Nat) : P β Unit := fun p =>
  match ParseBuf.advance p.data n with
  | some d => ⟨.ok (), { p with data := d }, []⟩
  | none => ⟨.error .panic, p, []⟩

/-- `self.data.remaining_hint()` -/
def hint : P β (Option Nat) := fun p => ⟨.ok (ParseBuf.hint p.data), p, []⟩

/-- Fuel for the loops: one more than the buffer's bound on iterations. -/
def fuel : P β Nat := fun p => ⟨.ok (ParseBuf.steps p.data + 1), p, []⟩

/-- `ParseBufChunk::to_cow`, src/parsebuf.rs:37-42: `to_vec` for temporary data. -/
def toCow (c : Chunk) : P β (Cow Byte) :=
  match c.loc with
  | .temporary => do
    alloc c.data.length
    pure c.toCow
  | .external _ => pure c.toCow

/-! ## Splitting off a region -/

/-- `if chunk.len() > 0 { chunks.push(chunk.to_cow()) }`, src/parsebuf.rs:173-175. -/
def pushChunk (c : Chunk) (chunks : List Chunk) : P β (List Chunk) :=
  if c.data.length > 0 then do
    let _ ← toCow c
    pure (c :: chunks)
  else pure chunks

/-- The loop of `ParseBufCursor::new`, src/parsebuf.rs:169-180; `chunks` collects the pushes (head = last pushed). -/
def cursorLoop : Nat → Nat → List Chunk → P β (List Chunk)
  | 0, _, _ => fault .diverge
  | fuel + 1, len, chunks =>
    if len = 0 then pure chunks
    else do
      let c ← chunk
      let c := c.truncate len
      let chunks ← pushChunk c chunks
      advance c.data.length
      cursorLoop fuel (len - c.data.length) chunks

/-- `ParseBufCursor::new`, src/parsebuf.rs:162-189. -/
def newCursor (len : Nat) : P β Cursor := do
  let n ← fuel
  let chunks ← cursorLoop n len []
  pure { chunks := chunks.reverse, offset := 0, len := len }

/-- `Parser::split_at`, src/parse.rs:177-180. -/
def splitAt (offset : Nat) : P β (Parser Cursor) := do
  let cursor ← newCursor offset
  let cfg ← config
  pure (Parser.new cursor cfg)

/-- Run a parser function on another parser, keeping both. -/
def onChild {δ : Type} (child : Parser δ) (m : P δ α) : P β (α × Parser δ) := fun p =>
  let o := m child
  match o.res with
  | .ok a => ⟨.ok (a, o.st), p, o.log⟩
  | .error e => ⟨.error e, p, o.log⟩

/-! ## Bytes -/

/-- `Parser::safe_capacity_bound`, src/parse.rs:188-201, for an element type of `size` bytes. -/
def safeCapacityBound (size : Nat) : P β Nat := do
  if size = 0 then pure (usizeLimit - 1)
  else do
    let h ← hint
    pure (h.getD 16384 / size)

/-- `Parser::parse_bytes_direct`, src/parse.rs:203-215: the bytes and their address. -/
def bytesDirect (len : Nat) : P β (Option (Nat × List Byte)) := do
  let c ← chunk
  match c.loc with
  | .temporary => pure none
  | .external addr =>
    if c.data.length < len then pure none
    else do
      advance len
      pure (some (addr, c.data.take len))

/-- The loop of `Parser::parse_bytes_slow`, src/parse.rs:222-230. -/
def bytesSlowLoop : Nat → Nat → List Byte → P β (List Byte)
  | 0, _, _ => fault .diverge
  | fuel + 1, len, bytes =>
    if len = 0 then pure bytes
    else do
      let c ← chunk
      let c := c.truncate len
      advance c.data.length
      bytesSlowLoop fuel (len - c.data.length) (bytes ++ c.data)

/-- `Parser::parse_bytes_slow`, src/parse.rs:219-233. -/
def bytesSlow (len : Nat) : P β (List Byte) := do
  let bound ← safeCapacityBound 1
  alloc (min bound len)
  let n ← fuel
  bytesSlowLoop n len []

/-- The loop of `Parser::parse_to_slice`, src/parse.rs:272-283; `written` is the initialised part of the slice. -/
def toSliceLoop : Nat → Nat → List Byte → P β (List Byte)
  | 0, _, _ => fault .diverge
  | fuel + 1, len, written =>
    if len = 0 then pure written
    else do
      let c ← chunk
      let n := min c.data.length len
      advance n
      toSliceLoop fuel (len - n) (written ++ c.data.take n)

/-- `Parser::parse_to_slice`, src/parse.rs:268-286, for a slice of `len` bytes: the bytes written. -/
def toSlice (len : Nat) : P β (List Byte) := do
  let n ← fuel
  toSliceLoop n len []

/-- The guard `Some(hint) if hint >= len`, src/parse.rs:242. -/
def hintAtLeast (h : Option Nat) (len : Nat) : Bool :=
  match h with
  | some h => decide (h ≥ len)
  | none => false

/-- `Parser::parse_bytes`, src/parse.rs:236-250. (`Vec::with_capacity(len)` is taken to allocate exactly `len`
bytes, so `spare_capacity_mut` has length `len`.) -/
def bytes (len : Nat) : P β (Cow Byte) := do
  match ← bytesDirect len with
  | some (_, bs) => pure (.borrowed bs)
  | none =>
    let h ← hint
    if hintAtLeast h len then do
      alloc len
      let bs ← toSlice len
      pure (.owned bs)
    else do
      let bs ← bytesSlow len
      pure (.owned bs)

/-- The loop of `Parser::parse_bytes_ignored`, src/parse.rs:255-261. -/
def ignoredLoop : Nat → Nat → P β Unit
  | 0, _ => fault .diverge
  | fuel + 1, len =>
    if len = 0 then pure ()
    else do
      let c ← chunk
      let consumed := min c.data.length len
      advance consumed
      ignoredLoop fuel (len - consumed)

/-- `Parser::parse_bytes_ignored`, src/parse.rs:254-264. -/
def bytesIgnored (len : Nat) : P β Unit := do
  let n ← fuel
  ignoredLoop n len

/-- `Parser::parse_array_slow` and `Parser::parse_array`, src/parse.rs:289-306. -/
def array (n : Nat) : P β (List Byte) := do
  let c ← chunk
  if c.data.length < n then toSlice n
  else do
    advance n
    pure (c.data.take n)

/-- `Parser::parse_padded`, src/parse.rs:347-364. -/
def padded (padding : Nat) (func : P β α) : P β α := do
  if padding = 0 then fault .panic
  else do
    let start ← offset
    let value ← func
    let stop ← offset
    let parsed := stop - start
    if parsed % padding = 0 then pure value
    else do
      bytesIgnored (padding - parsed % padding)
      pure value

/-- The loop of `Parser::parse_rest`, src/parse.rs:395-406; `to_mut` turns the value into an owned one. -/
def restLoop : Nat → Cow Byte → P β (Cow Byte)
  | 0, _ => fault .diverge
  | fuel + 1, bytes => do
    match ← chunkResult with
    | .ok c =>
      advance c.data.length
      restLoop fuel (.owned (bytes.data ++ c.data))
    | .error e => if e.kind = .eof then pure bytes else fail e

/-- `Parser::parse_rest`, src/parse.rs:391-409. -/
def rest : P β (Cow Byte) := do
  let c ← chunk
  let bytes ← toCow c
  advance bytes.data.length
  let n ← fuel
  restLoop n bytes

end P

/-- The `split_last` loop of `Parser::parse_rest_trim_nul`, src/parse.rs:416-419: drop trailing zero bytes. -/
def trimNul (bs : List Byte) : List Byte := (bs.reverse.dropWhile (· == 0#8)).reverse

namespace P
variable {β : Type} {α γ : Type} [ParseBuf β]

/-- `Parser::parse_rest_trim_nul`, src/parse.rs:412-423. -/
def restTrimNul : P β (Cow Byte) := do
  let bytes ← rest
  pure (bytes.truncate (trimNul bytes.data).length)

end P

/-- An element type that `parse_slice` can reinterpret: its size (a multiple of its alignment, which is 8 for all
types the crate uses: `u64`, `NamespaceEntry`, `BranchEntry`) and how its value is read from its bytes, given how
8-byte integers are read. -/
structure Elem (T : Type) where
  size : Nat
  dec : (List Byte → U64) → List Byte → T

/-- The first `n` elements stored back to back. -/
def Elem.decodeAll {T : Type} (e : Elem T) (conv : List Byte → U64) : Nat → List Byte → List T
  | 0, _ => []
  | n + 1, bs => e.dec conv (bs.take e.size) :: e.decodeAll conv n (bs.drop e.size)

namespace P
variable {β : Type} {α γ T : Type} [ParseBuf β]

/-- `Parser::parse_slice_direct`, src/parse.rs:441-468. `align_to` leaves head and tail empty iff the slice is empty
or its address is a multiple of 8 (the length is a multiple of the size by construction); the values are then
those in memory, i.e. read in the host's byte order. -/
def sliceDirect (e : Elem T) (len : Nat) : P β (Option (List T)) := do
  let cfg ← config
  if !cfg.endian.isNative then pure none
  else if len * e.size ≥ usizeLimit then
    fail (.custom .invalidRecord "array length in bytes larger than usize::MAX")
  else do
    match ← bytesDirect (len * e.size) with
    | none => pure none
    | some (addr, bs) =>
      if bs = [] ∨ addr % 8 = 0 then pure (some (e.decodeAll (fromOrder cfg.host 64) len bs))
      else pure none

/-- The loop of `Parser::parse_repeated`, src/parse.rs:490-492. -/
def repeatedLoop (item : P β T) : Nat → P β (List T)
  | 0 => pure []
  | n + 1 => do
    let x ← item
    let xs ← repeatedLoop item n
    pure (x :: xs)

/-- `Parser::parse_repeated`, src/parse.rs:488-495, for elements of `size` bytes in memory. -/
def repeated (size : Nat) (item : P β T) (len : Nat) : P β (List T) := do
  let bound ← safeCapacityBound size
  alloc (min len bound * size)
  repeatedLoop item len

/-- `Parser::parse_slice`, src/parse.rs:477-485. -/
def slice (e : Elem T) (item : P β T) (len : Nat) : P β (Cow T) := do
  match ← sliceDirect e len with
  | some s => pure (.borrowed s)
  | none =>
    let v ← repeated e.size item len
    pure (.owned v)

end P

end Perf
