import Verif.Model.Basic
/-!
# `src/util/fmt.rs`
-/
namespace Perf

/-- One nibble as written by `HexStr`, src/util/fmt.rs:53-57 (the character code). -/
def hexNibble (n : Nat) : Nat := if n ≤ 9 then 0x30 + n else 0x41 + n

/-- `Debug for HexStr`, src/util/fmt.rs:48-64: the character codes written. -/
def hexStr (bs : List Byte) : List Nat :=
  bs.flatMap fun b => [hexNibble (b &&& 0xf#8).toNat, hexNibble (b >>> 4).toNat]

/-! ## UTF-8 validation (`core::str::from_utf8`) -/

/-- What `core::str::validations::run_utf8_validation` (Rust core) does at the start of a character: accept `width`
bytes, or stop with `error_len`, which is `none` when the input ends inside a so far valid sequence. -/
inductive Utf8Step where
  | char (width : Nat)
  | bad (errorLen : Option Nat)
deriving DecidableEq, Repr

/-- A continuation byte: `10xxxxxx`. -/
def isCont (b : Byte) : Bool := 0x80 ≤ b.toNat && b.toNat ≤ 0xbf

/-- Allowed second bytes of a three byte sequence (no overlong forms, no surrogates). -/
def second3 (first second : Nat) : Bool :=
  (first == 0xe0 && 0xa0 ≤ second && second ≤ 0xbf) ||
  (0xe1 ≤ first && first ≤ 0xec && 0x80 ≤ second && second ≤ 0xbf) ||
  (first == 0xed && 0x80 ≤ second && second ≤ 0x9f) ||
  (0xee ≤ first && first ≤ 0xef && 0x80 ≤ second && second ≤ 0xbf)

/-- Allowed second bytes of a four byte sequence (no overlong forms, nothing above U+10FFFF). -/
def second4 (first second : Nat) : Bool :=
  (first == 0xf0 && 0x90 ≤ second && second ≤ 0xbf) ||
  (0xf1 ≤ first && first ≤ 0xf3 && 0x80 ≤ second && second ≤ 0xbf) ||
  (first == 0xf4 && 0x80 ≤ second && second ≤ 0x8f)

/-- One step of `run_utf8_validation` (Rust core, core/src/str/validations.rs) on a nonempty input. -/
def utf8Step (first : Byte) (rest : List Byte) : Utf8Step :=
  if first.toNat < 0x80 then .char 1
  else if 0xc2 ≤ first.toNat ∧ first.toNat ≤ 0xdf then
    match rest with
    | [] => .bad none
    | b :: _ => if isCont b then .char 2 else .bad (some 1)
  else if 0xe0 ≤ first.toNat ∧ first.toNat ≤ 0xef then
    match rest with
    | [] => .bad none
    | b :: rest =>
      if !second3 first.toNat b.toNat then .bad (some 1)
      else match rest with
        | [] => .bad none
        | c :: _ => if isCont c then .char 3 else .bad (some 2)
  else if 0xf0 ≤ first.toNat ∧ first.toNat ≤ 0xf4 then
    match rest with
    | [] => .bad none
    | b :: rest =>
      if !second4 first.toNat b.toNat then .bad (some 1)
      else match rest with
        | [] => .bad none
        | c :: rest =>
          if !isCont c then .bad (some 2)
          else match rest with
            | [] => .bad none
            | d :: _ => if isCont d then .char 4 else .bad (some 3)
  else .bad (some 1)

/-- `str::from_utf8`: `none` = valid, otherwise `(valid_up_to, error_len)`. -/
def fromUtf8 (fuel : Nat) (done : Nat) (data : List Byte) : Option (Nat × Option Nat) :=
  match fuel, data with
  | _, [] => none
  | 0, _ => none
  | fuel + 1, b :: rest =>
    match utf8Step b rest with
    | .char w => fromUtf8 fuel (done + w) ((b :: rest).drop w)
    | .bad e => some (done, e)

/-- What `ByteStr` writes, in order: a piece of valid text (written through `char::escape_debug`, whose Unicode
tables are not modelled) or an invalid byte (written through `escape_ascii`). -/
inductive Piece where
  | text (bytes : List Byte)
  | byte (b : Byte)
deriving DecidableEq, Repr

/-- The loop of `Debug for ByteStr`, src/util/fmt.rs:15-38; `none` = out of fuel or a panicking index. -/
def byteStrLoop : Nat → List Byte → Option (List Piece)
  | 0, _ => none
  | fuel + 1, data =>
    if data = [] then some []
    else
      let (textLen, errLen) :=
        match fromUtf8 data.length 0 data with
        | none => (data.length, 0)
        | some (validUpTo, errorLen) => (validUpTo, errorLen.getD (data.length - validUpTo))
      let text := data.take textLen
      let data := data.drop textLen
      if errLen ≤ data.length then
        match byteStrLoop fuel (data.drop errLen) with
        | some ps => some (.text text :: (data.take errLen).map .byte ++ ps)
        | none => none
      else none

/-- `u8::escape_ascii` (Rust core): the character codes. -/
def escapeAscii (b : Byte) : List Nat :=
  let hex := fun n => if n < 10 then 0x30 + n else 0x61 + (n - 10)
  if b.toNat = 9 then [0x5c, 0x74]
  else if b.toNat = 13 then [0x5c, 0x72]
  else if b.toNat = 10 then [0x5c, 0x6e]
  else if b.toNat = 0x22 then [0x5c, 0x22]
  else if b.toNat = 0x27 then [0x5c, 0x27]
  else if b.toNat = 0x5c then [0x5c, 0x5c]
  else if 0x20 ≤ b.toNat ∧ b.toNat ≤ 0x7e then [b.toNat]
  else [0x5c, 0x78, hex (b.toNat / 16), hex (b.toNat % 16)]

/-- `Debug for ByteStr`, src/util/fmt.rs:10-42: the pieces between the two quotes, and the text they render to when
`escapeText` is what `escape_debug` makes of a piece of valid text. -/
def byteStr (data : List Byte) : Option (List Piece) := byteStrLoop (data.length + 1) data

/-- The character codes `ByteStr` writes. -/
def byteStrRender (escapeText : List Byte → List Nat) (ps : List Piece) : List Nat :=
  [0x22] ++ ps.flatMap (fun p => match p with
    | .text bs => escapeText bs
    | .byte b => escapeAscii b) ++ [0x22]

end Perf
