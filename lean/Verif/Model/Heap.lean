import Verif.Spec.Record
/-!
# Every request for memory

The log of `Out` lists the requests of input-dependent size that are made up front. This file models the same functions
once more with *every* request the parser makes while reading: also the slots of a region's list of chunks, the growth of
a `Vec` by `push` and `extend_from_slice`, the copy made by `Cow::to_mut` and the one made by `Vec::drain`. Results and states
are those of `Verif.Model.Parser` (a theorem, `c80_same`).

Not included are requests of fixed size that are made at most once: the `Vec::with_capacity(3)` of
`ReadGroup::from(ReadValue)` (src/records/read.rs:193), the box of a `Sample` in a `Record` (src/records/mod.rs:284-288),
and what an error value owns.
-/
namespace Perf

/-- The new capacity of a `Vec` that needs room for `need` elements: `RawVec::grow_amortized` of the standard library. A
vector that grows at least doubles, and starts with `least` elements. -/
def grow (least cap need : Nat) : Nat := max (max (2 * cap) need) least

/-- `RawVec::MIN_NON_ZERO_CAP` of the standard library, for elements of `size` bytes. -/
def leastCap (size : Nat) : Nat := if size = 1 then 8 else if size ≤ 1024 then 4 else 1

/-- The bytes a `Cow<'_, [u8]>` takes in a `Vec` on a 64-bit machine: three words. -/
def slotSize : Nat := 24

namespace Heap
variable {β : Type} {α γ T O : Type}

/-- `Vec::reserve`, as done by `push` and `extend_from_slice`: the capacity afterwards. -/
def reserve (size cap need : Nat) : P β Nat :=
  if need ≤ cap then pure cap
  else do
    P.alloc (grow (leastCap size) cap need * size)
    pure (grow (leastCap size) cap need)

variable [ParseBuf β]

/-- `if chunk.len() > 0 { chunks.push(chunk.to_cow()) }`, src/parsebuf.rs:173-175; `cap` is the capacity of `chunks`. -/
def pushChunk (c : Chunk) (chunks : List Chunk) (cap : Nat) : P β (List Chunk × Nat) :=
  if c.data.length > 0 then do
    let _ ← P.toCow c
    let cap ← reserve slotSize cap (chunks.length + 1)
    pure (c :: chunks, cap)
  else pure (chunks, cap)

/-- The loop of `ParseBufCursor::new`, src/parsebuf.rs:169-180. -/
def cursorLoop : Nat → Nat → List Chunk → Nat → P β (List Chunk)
  | 0, _, _, _ => P.fault .diverge
  | fuel + 1, len, chunks, cap =>
    if len = 0 then pure chunks
    else do
      let c ← P.chunk
      let c := c.truncate len
      let r ← pushChunk c chunks cap
      P.advance c.data.length
      cursorLoop fuel (len - c.data.length) r.1 r.2

/-- `ParseBufCursor::new`, src/parsebuf.rs:162-189: a vector of two slots to begin with. (`reverse` works in place.) -/
def newCursor (len : Nat) : P β Cursor := do
  P.alloc (2 * slotSize)
  let n ← P.fuel
  let chunks ← cursorLoop n len [] 2
  pure { chunks := chunks.reverse, offset := 0, len := len }

/-- `Parser::split_at`, src/parse.rs:177-180. -/
def splitAt (offset : Nat) : P β (Parser Cursor) := do
  let cursor ← newCursor offset
  let cfg ← P.config
  pure (Parser.new cursor cfg)

/-- The loop of `Parser::parse_bytes_slow`, src/parse.rs:222-230; `cap` is the capacity of `bytes`. -/
def bytesSlowLoop : Nat → Nat → List Byte → Nat → P β (List Byte)
  | 0, _, _, _ => P.fault .diverge
  | fuel + 1, len, bytes, cap =>
    if len = 0 then pure bytes
    else do
      let c ← P.chunk
      let c := c.truncate len
      let cap ← reserve 1 cap (bytes.length + c.data.length)
      P.advance c.data.length
      bytesSlowLoop fuel (len - c.data.length) (bytes ++ c.data) cap

/-- `Parser::parse_bytes_slow`, src/parse.rs:219-233. -/
def bytesSlow (len : Nat) : P β (List Byte) := do
  let bound ← P.safeCapacityBound 1
  P.alloc (min bound len)
  let n ← P.fuel
  bytesSlowLoop n len [] (min bound len)

/-- `Parser::parse_bytes`, src/parse.rs:236-250. -/
def bytes (len : Nat) : P β (Cow Byte) := do
  match ← P.bytesDirect len with
  | some (_, bs) => pure (.borrowed bs)
  | none =>
    let h ← P.hint
    if P.hintAtLeast h len then do
      P.alloc len
      let bs ← P.toSlice len
      pure (.owned bs)
    else do
      let bs ← bytesSlow len
      pure (.owned bs)

omit [ParseBuf β] in
/-- `Cow::to_mut` (src/parse.rs:398): borrowed bytes are copied; the capacity of the vector afterwards. -/
def toMut (bytes : Cow Byte) (cap : Nat) : P β Nat :=
  match bytes with
  | .borrowed d => do
    P.alloc d.length
    pure d.length
  | .owned _ => pure cap

/-- The loop of `Parser::parse_rest`, src/parse.rs:395-406; `cap` is the capacity of `bytes` if it is owned. -/
def restLoop : Nat → Cow Byte → Nat → P β (Cow Byte)
  | 0, _, _ => P.fault .diverge
  | fuel + 1, bytes, cap => do
    match ← P.chunkResult with
    | .ok c =>
      let cap ← toMut bytes cap
      let cap ← reserve 1 cap (bytes.data.length + c.data.length)
      P.advance c.data.length
      restLoop fuel (.owned (bytes.data ++ c.data)) cap
    | .error e => if e.kind = .eof then pure bytes else P.fail e

/-- `Parser::parse_rest`, src/parse.rs:391-409. -/
def rest : P β (Cow Byte) := do
  let c ← P.chunk
  let bytes ← P.toCow c
  P.advance bytes.data.length
  let n ← P.fuel
  restLoop n bytes bytes.data.length

/-- `Parser::parse_rest_trim_nul`, src/parse.rs:412-423. -/
def restTrimNul : P β (Cow Byte) := do
  let bytes ← rest
  pure (bytes.truncate (trimNul bytes.data).length)

/-- The loop of `Parser::parse_repeated`, src/parse.rs:490-492, with `count` elements in a vector of capacity `cap`. -/
def repeatedLoop (size : Nat) (item : P β T) : Nat → Nat → Nat → P β (List T)
  | 0, _, _ => pure []
  | n + 1, count, cap => do
    let x ← item
    let cap ← reserve size cap (count + 1)
    let xs ← repeatedLoop size item n (count + 1) cap
    pure (x :: xs)

/-- `Parser::parse_repeated`, src/parse.rs:488-495. (Elements without size take no memory: `min len bound` is then `len`.) -/
def repeated (size : Nat) (item : P β T) (len : Nat) : P β (List T) := do
  let bound ← P.safeCapacityBound size
  P.alloc (min len bound * size)
  repeatedLoop size item len 0 (min len bound)

/-- `Parser::parse_slice`, src/parse.rs:477-485. -/
def slice (e : Elem T) (item : P β T) (len : Nat) : P β (Cow T) := do
  match ← P.sliceDirect e len with
  | some s => pure (.borrowed s)
  | none =>
    let v ← repeated e.size item len
    pure (.owned v)

omit [ParseBuf β] in
/-- `CowSliceExt::split_at`, src/util/cow.rs:20-33: `drain(len..).collect()` copies the end of an owned value. The parser
splits byte strings only (src/records/text_poke.rs), so an element is one byte. -/
def cowSplitAt (c : Cow T) (n : Nat) : P β (Cow T × Cow T) :=
  match c.splitAt n with
  | some (.owned a, .owned b) => do
    P.alloc b.length
    pure (.owned a, .owned b)
  | some r => pure r
  | none => P.fault .panic

end Heap

/-- `P β`, to be read with the operations above. -/
def Heap (β α : Type) : Type := P β α

instance {β : Type} : Monad (Heap β) := inferInstanceAs (Monad (P β))

/-- The Rust parser over a buffer `β`, with every request for memory. -/
instance {β : Type} [ParseBuf β] : ParserM (Heap β) Cow where
  config := P.config
  fail := P.fail
  array := P.array
  bytes := Heap.bytes
  rest := Heap.rest
  restTrimNul := Heap.restTrimNul
  padded := P.padded
  slice := Heap.slice
  elems := Cow.data
  cowSplitAt := Heap.cowSplitAt
  cowTruncate := Cow.truncate
  cowOwned := Cow.owned

namespace Heap
variable {β : Type} {α γ T O : Type} [ParseBuf γ]

/-- The `match` of `Parser::parse_record_impl`, src/parse.rs:567-590: the body for the type of the record, handed to the
visitor (`P.dispatch_eq`: this is what `P.dispatch` does). -/
def dispatch (v : Visitor Cow O) (md : Metadata) : P γ O :=
  P.bind (parseBody md.ty : Heap γ (Record Cow)) fun r => P.ofExcept (v.apply r md)

/-- `Parser::parse_record_impl`, src/parse.rs:560-592. -/
def recordImpl (p : Parser γ) (v : Visitor Cow O) (md : Metadata) : P β O := do
  let r ← P.onChild (Parser.new p.data (p.config.withMisc md.misc)) (dispatch v md)
  pure r.1

variable [ParseBuf β]

/-- `Parser::parse_metadata_with_header_impl`, src/parse.rs:509-544. (Reading the trailer requests nothing.) -/
def metadataWithHeader (header : Header) : P β (Parser Cursor × Metadata) := do
  if header.size.toNat < 8 then
    P.fail (.custom .invalidRecord "header size was too small to be valid")
  else do
    let dataLen := header.size.toNat - 8
    let rp ← splitAt dataLen
    if header.type_.toNat = 1 ∨ header.type_.toNat = 9 then
      pure (rp, Metadata.new header SampleId.default)
    else if dataLen < SampleId.estimateLen rp.config then
      P.fail (.custom .invalidRecord ("config has sample_id_all bit set but record does not have enough data " ++
        "to store the sample_id"))
    else do
      let remainingLen := dataLen - SampleId.estimateLen rp.config
      let (p, rp) ← P.onChild rp (splitAt remainingLen)
      let (sampleId, _) ← P.onChild rp parseSampleId
      pure (p, Metadata.new header sampleId)

/-- `Parser::parse_record_with_header`, src/parse.rs:596-614. -/
def recordWithHeader (v : Visitor Cow O) (header : Header) : P β O := do
  let (p, md) ← metadataWithHeader header
  match p.data.buf.asSlice with
  | some data => recordImpl (Parser.new data p.config) v md
  | none => recordImpl p v md

/-- `Parser::parse_record`, src/parse.rs:555-558. -/
def record (v : Visitor Cow O) : P β O := do
  let header ← parseHeader
  recordWithHeader v header

end Heap
end Perf
