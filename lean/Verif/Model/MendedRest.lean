import Verif.Model.MendedAttr
import Verif.Model.Fmt
/-!
# What is left to correct: the cursor's hint, `Eof` inside a record, branch entries, `uts`, and two texts

As Model/Mended.lean, this is not the code in /repo; every definition cites the lines it replaces.
-/
namespace Perf
open ParserM

/-! ## `ParseBufCursor` (B1) -/

/-- A `ParseBufCursor` with the corrected `advance`. -/
structure TrueCursor where
  cur : Cursor
deriving DecidableEq, Repr

/-- Replaces src/parsebuf.rs:231-245: the result of `self.len.checked_sub(count)` is stored. -/
def TrueCursor.advance (t : TrueCursor) (count : Nat) : Option TrueCursor :=
  (t.cur.advance count).map fun c => ⟨{ c with len := t.cur.len - count }⟩

/-- As src/parsebuf.rs:221-251, with the corrected `advance`. -/
instance : ParseBuf TrueCursor where
  chunk t := (t.cur.chunk, t)
  advance := TrueCursor.advance
  hint t := some t.cur.len
  steps t := chunkBytes t.cur.chunks - t.cur.offset

/-! ## `Eof` inside of a record (B16) -/

/-- The error for a record that is all there but ends before its contents do. -/
def ParseError.inRecord (e : ParseError) : ParseError :=
  if e.kind = .eof then .custom .invalidRecord "the record ends before its contents do" else e

namespace Sound
variable {β γ : Type} {α O : Type} [ParseBuf β] [ParseBuf γ]

/-- `m` with `inRecord` applied to its error. -/
def checked (m : P β α) : P β α := fun p =>
  match m p with
  | ⟨.error (.err e), q, l⟩ => ⟨.error (.err e.inRecord), q, l⟩
  | ⟨r, q, l⟩ => ⟨r, q, l⟩

/-- Replaces src/parse.rs:560-592 (in addition to Model/Mended.lean): an `Eof` while the body is parsed is reported as an invalid record. -/
def recordImpl (p : Parser γ) (v : Visitor Cow O) (md : Metadata) : P β O := do
  let r ← checked (P.onChild (Parser.new p.data (p.config.withMisc md.misc)) (mendedBody md.ty : Mend (Tracking γ) (Record Cow)))
  P.ofExcept (v.apply r.1 md)

/-- As src/parse.rs:596-614. -/
def recordWithHeader (v : Visitor Cow O) (header : Header) : P β O := do
  let (p, md) ← Mend.metadataWithHeader header
  match p.data.buf.asSlice with
  | some data => recordImpl (Parser.new data p.config) v md
  | none => recordImpl p v md

/-- As src/parse.rs:555-558. -/
def record (v : Visitor Cow O) : P β O := do
  let header ← (parseHeader : Mend β Header)
  recordWithHeader v header

end Sound

/-! ## Branch entries of the other byte order (B14) -/

/-- Replaces the use of the native getters on a swapped word, src/records/sample.rs:419-447: the fields of a word laid out for the other
byte order, put where this host's getters look for them (the constructor `new_bitfield_1` that `bindgen` generates does this; written as a
sum). -/
def BranchEntry.rearranged (host : Order) (w : U64) : U64 :=
  let field (off width : Nat) : Nat := (bitfield host.opposite w off width).toNat
  BitVec.ofNat 64 <| match host with
  | .little => field 0 1 + 2 ^ 1 * field 1 1 + 2 ^ 2 * field 2 1 + 2 ^ 3 * field 3 1 + 2 ^ 4 * field 4 16 + 2 ^ 20 * field 20 4
  | .big => 2 ^ 63 * field 0 1 + 2 ^ 62 * field 1 1 + 2 ^ 61 * field 2 1 + 2 ^ 60 * field 3 1 + 2 ^ 44 * field 4 16 + 2 ^ 40 * field 20 4

/-- An entry of a sample as the corrected parser would leave it. -/
def BranchEntry.mended (e : Endian) (host : Order) (b : BranchEntry) : BranchEntry :=
  if e.isNative then b else { b with bits := rearranged host b.bits }

/-! ## `Namespaces::uts` (B4) -/

/-- Replaces src/records/namespaces.rs:49-51 (`UTS_NS_INDEX` is 1 in the kernel headers). -/
def Namespaces.mendedUts (n : Namespaces Cow) : Option NamespaceEntry := n.namespaces.data[1]?

/-! ## Texts (B6, B13) -/

/-- Replaces src/util/fmt.rs:53-57. -/
def mendedNibble (n : Nat) : Nat := if n ≤ 9 then 0x30 + n else 0x41 + (n - 10)

/-- Replaces src/util/fmt.rs:48-64: the high nibble first. -/
def mendedHexStr (bs : List Byte) : List Nat :=
  bs.flatMap fun (b : Byte) => [mendedNibble (b >>> 4).toNat, mendedNibble (b &&& 0xf#8).toNat]

/-- Replaces src/error.rs:110-136. -/
def ParseError.mendedDisplay (e : ParseError) : String :=
  let head :=
    match e.code with
    | .eof => "unexpected EOF during parsing"
    | .invalidRecord => "invalid record"
    | .unsupportedData => "unsupported serialized data"
    | .unsupportedConfig => "unsupported config"
    | .external => "user-provided error"
  match e.source with
  | none => head
  | some src => head ++ ": " ++ src

end Perf
