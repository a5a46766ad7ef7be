import Verif.Model.Error
/-!
# `src/parsebuf.rs` and `src/util/cow.rs`
-/
namespace Perf

/-- `Cow<'p, [T]>` as handed to the user: borrowed from the input or owned. -/
inductive Cow (α : Type) where
  | borrowed (data : List α)
  | owned (data : List α)
deriving DecidableEq, Repr

/-- `Deref for Cow<[T]>`: the elements. -/
def Cow.data {α : Type} : Cow α → List α
  | .borrowed d => d
  | .owned d => d

/-- `Cow::into_owned().into()`. -/
def Cow.intoOwned {α : Type} (c : Cow α) : Cow α := .owned c.data

/-- `CowSliceExt::split_at`, src/util/cow.rs:20-33. `none` is the panic of `slice::split_at` / `Vec::drain` when
`len` is out of range. -/
def Cow.splitAt {α : Type} (c : Cow α) (len : Nat) : Option (Cow α × Cow α) :=
  match c with
  | .borrowed d => if len ≤ d.length then some (.borrowed (d.take len), .borrowed (d.drop len)) else none
  | .owned d =>
    if len = 0 then some (.owned d, .borrowed [])
    else if len = d.length then some (.borrowed [], .owned d)
    else if len ≤ d.length then some (.owned (d.take len), .owned (d.drop len)) else none

/-- `CowSliceExt::truncate`, src/util/cow.rs:35-41. -/
def Cow.truncate {α : Type} (c : Cow α) (len : Nat) : Cow α :=
  match c with
  | .owned d => .owned (d.take len)
  | .borrowed d => if d.length < len then .borrowed d else .borrowed (d.take len)

/-- Where the bytes of a chunk live: `Temporary` (owned by the buffer) or `External` (borrowed from elsewhere,
at memory address `addr`; the address is needed for the alignment test of `parse_slice_direct`). -/
inductive Loc where
  | temporary
  | external (addr : Nat)
deriving DecidableEq, Repr

/-- `ParseBufChunk`, src/parsebuf.rs:25-33. Also used for the `Cow<'p, [u8]>` values stored inside
`ParseBufCursor` (`Borrowed` = `external`, `Owned` = `temporary`). -/
structure Chunk where
  loc : Loc
  data : List Byte
deriving DecidableEq, Repr

/-- `ParseBufChunk::truncate`, src/parsebuf.rs:45-54. -/
def Chunk.truncate (c : Chunk) (len : Nat) : Chunk :=
  if c.data.length ≤ len then c else { c with data := c.data.take len }

/-- `ParseBufChunk::to_cow`, src/parsebuf.rs:37-42. -/
def Chunk.toCow (c : Chunk) : Cow Byte :=
  match c.loc with
  | .temporary => .owned c.data
  | .external _ => .borrowed c.data

/-- `trait ParseBuf`, src/parsebuf.rs:83-109. `&mut self` methods return the new buffer; a panic is
`Fault.panic` in `chunk` and `none` in `advance`. `steps` is not part of the Rust trait: it is a bound on the
number of loop iterations a reader needs, used only to give the model's loops fuel (running out of fuel is
the outcome `Fault.diverge`, shown unreachable for lawful buffers). -/
class ParseBuf (β : Type) where
  chunk : β → Except Fault Chunk × β
  advance : β → Nat → Option β
  hint : β → Option Nat
  steps : β → Nat

/-! ## `&[u8]` -/

/-- `&'p [u8]` at memory address `addr`. -/
structure Slice where
  addr : Nat
  data : List Byte
deriving DecidableEq, Repr

/-- `impl ParseBuf for &[u8]`, src/parsebuf.rs:111-130. -/
instance : ParseBuf Slice where
  chunk s := (if s.data = [] then .error (.err .eof) else .ok ⟨.external s.addr, s.data⟩, s)
  advance s n := if n ≤ s.data.length then some ⟨s.addr + n, s.data.drop n⟩ else none
  hint s := some s.data.length
  steps s := s.data.length

/-! ## `BufReader<R>` -/

/-- One `read` call on the reader behind a `BufReader`: some bytes (at most the capacity; none means end of
file) or an error. -/
inductive ReadEvent where
  | data (bytes : List Byte)
  | error (e : IoError)
deriving DecidableEq, Repr

/-- Bytes still to come from a list of read events. -/
def ReadEvent.bytes : List ReadEvent → Nat
  | [] => 0
  | .data bs :: es => bs.length + ReadEvent.bytes es
  | .error _ :: es => ReadEvent.bytes es

/-- `BufReader<R>`: the unconsumed part of its buffer and the results of the future `read` calls (an exhausted
script means end of file forever). Std code, modelled from its documentation. -/
structure BufReader where
  buf : List Byte
  script : List ReadEvent
deriving DecidableEq, Repr

/-- `BufReader::fill_buf` (std): refill only when the buffer is exhausted. -/
def BufReader.fillBuf (r : BufReader) : Except IoError (List Byte) × BufReader :=
  match r.buf, r.script with
  | [], .data bs :: es => (.ok bs, ⟨bs, es⟩)
  | [], .error e :: es => (.error e, ⟨[], es⟩)
  | [], [] => (.ok [], r)
  | b :: bs, _ => (.ok (b :: bs), r)

/-- `impl ParseBuf for BufReader<R>`, src/parsebuf.rs:134-153 (`consume` never panics, it clamps). -/
instance : ParseBuf BufReader where
  chunk r :=
    match r.fillBuf with
    | (.error e, r') => (.error (.err (.ofIo e)), r')
    | (.ok [], r') => (.error (.err .eof), r')
    | (.ok (b :: bs), r') => (.ok ⟨.temporary, b :: bs⟩, r')
  advance r n := some { r with buf := r.buf.drop n }
  hint _ := none
  steps r := r.buf.length + ReadEvent.bytes r.script

/-! ## `ParseBufCursor` -/

/-- `ParseBufCursor`, src/parsebuf.rs:155-159. The Rust `Vec` keeps the current chunk last; here the list keeps
it first (`push` = cons, `last` = head, `pop` = tail, `reverse` = reverse). -/
structure Cursor where
  chunks : List Chunk
  offset : Nat
  len : Nat
deriving DecidableEq, Repr

/-- Total size of a list of chunks. -/
def chunkBytes : List Chunk → Nat
  | [] => 0
  | c :: cs => c.data.length + chunkBytes cs

/-- The loop of `ParseBufCursor::advance_slow`, src/parsebuf.rs:205-213. -/
def Cursor.slowLoop : List Chunk → Nat → List Chunk × Nat
  | [], off => ([], off)
  | c :: cs, off => if off < c.data.length then (c :: cs, off) else Cursor.slowLoop cs (off - c.data.length)

/-- `ParseBufCursor::advance_slow`, src/parsebuf.rs:205-218 (`none` = the failed assertion). -/
def Cursor.advanceSlow (c : Cursor) : Option Cursor :=
  match Cursor.slowLoop c.chunks c.offset with
  | ([], off) => if off = 0 then some { c with chunks := [], offset := off } else none
  | (d :: ds, off) => some { c with chunks := d :: ds, offset := off }

/-- `ParseBufCursor::advance`, src/parsebuf.rs:231-245. The result of `self.len.checked_sub(count)` is only
checked, never stored. -/
def Cursor.advance (c : Cursor) (count : Nat) : Option Cursor :=
  if c.offset + count ≥ usizeLimit then none
  else if count > c.len then none
  else
    let c' := { c with offset := c.offset + count }
    match c'.chunks with
    | d :: _ => if d.data.length > c'.offset then some c' else c'.advanceSlow
    | [] => c'.advanceSlow

/-- `ParseBufCursor::chunk`, src/parsebuf.rs:223-228 (indexing `data[offset..]` panics when out of range). -/
def Cursor.chunk (c : Cursor) : Except Fault Chunk :=
  match c.chunks with
  | [] => .error (.err .eof)
  | d :: _ =>
    if c.offset ≤ d.data.length then
      .ok ⟨match d.loc with
        | .external a => .external (a + c.offset)
        | .temporary => .temporary, d.data.drop c.offset⟩
    else .error .panic

/-- `impl ParseBuf for ParseBufCursor`, src/parsebuf.rs:221-251. -/
instance : ParseBuf Cursor where
  chunk c := (c.chunk, c)
  advance := Cursor.advance
  hint c := some c.len
  steps c := chunkBytes c.chunks - c.offset

/-- `ParseBufCursor::as_slice`, src/parsebuf.rs:191-200. -/
def Cursor.asSlice (c : Cursor) : Option Slice :=
  match c.chunks with
  | [⟨.external a, d⟩] => some ⟨a, d⟩
  | _ => none

/-! ## `TrackingParseBuf` -/

/-- `TrackingParseBuf`, src/parsebuf.rs:255-268. -/
structure Tracking (β : Type) where
  buf : β
  offset : Nat

/-- `impl ParseBuf for TrackingParseBuf<B>`, src/parsebuf.rs:276-292. -/
instance {β : Type} [ParseBuf β] : ParseBuf (Tracking β) where
  chunk t := ((ParseBuf.chunk t.buf).1, { t with buf := (ParseBuf.chunk t.buf).2 })
  advance t n := (ParseBuf.advance t.buf n).map (fun b => ⟨b, t.offset + n⟩)
  hint t := ParseBuf.hint t.buf
  steps t := ParseBuf.steps t.buf

/-! ## A user buffer made of several borrowed pieces -/

/-- The `ChunkBuf` of the crate's tests, src/parsebuf.rs:298-320: a list of borrowed pieces, possibly empty. -/
structure ChunkBuf where
  pieces : List Slice
deriving DecidableEq, Repr

/-- The loop of `ChunkBuf::advance`, src/parsebuf.rs:309-319. -/
def ChunkBuf.advLoop : List Slice → Nat → List Slice
  | [], _ => []
  | s :: ss, n =>
    if n < s.data.length then ⟨s.addr + n, s.data.drop n⟩ :: ss
    else ChunkBuf.advLoop ss (n - s.data.length)

/-- Iterations needed to drain a list of pieces (empty ones cost one). -/
def ChunkBuf.cost : List Slice → Nat
  | [] => 0
  | s :: ss => s.data.length + 1 + ChunkBuf.cost ss

/-- `impl ParseBuf for ChunkBuf`, src/parsebuf.rs:300-320. -/
instance : ParseBuf ChunkBuf where
  chunk b :=
    (match b.pieces with
    | [] => .error (.err .eof)
    | s :: _ => .ok ⟨.external s.addr, s.data⟩, b)
  advance b n := some ⟨ChunkBuf.advLoop b.pieces n⟩
  hint _ := none
  steps b := ChunkBuf.cost b.pieces

end Perf
