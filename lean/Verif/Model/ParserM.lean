import Verif.Model.Parser
/-!
# The operations record parsers are written with

The `Parse` implementations of the crate are generic in the buffer `B`. Here they are generic in the parser monad
`M` and in the container `C` that byte strings and slices come back in. The instance `M := P β`, `C := Cow` is the
Rust code. (A second instance, over one flat list of bytes, lives in `Verif.Spec.Flat` and is used in proofs.)
-/
namespace Perf

/-- The parser operations used by `Parse` implementations. -/
class ParserM (M : Type → Type) (C : outParam (Type → Type)) extends Monad M where
  /-- `p.config()` -/
  config : M ParseConfig
  /-- `return Err(e)` -/
  fail : {α : Type} → ParseError → M α
  /-- `p.parse_array()` -/
  array : Nat → M (List Byte)
  /-- `p.parse_bytes(len)` -/
  bytes : Nat → M (C Byte)
  /-- `p.parse_rest()` -/
  rest : M (C Byte)
  /-- `p.parse_rest_trim_nul()` -/
  restTrimNul : M (C Byte)
  /-- `p.parse_padded(padding, f)` -/
  padded : {α : Type} → Nat → M α → M α
  /-- `p.parse_slice(len)` -/
  slice : {T : Type} → Elem T → M T → Nat → M (C T)
  /-- the elements of a container -/
  elems : {T : Type} → C T → List T
  /-- `CowSliceExt::split_at` -/
  cowSplitAt : {T : Type} → C T → Nat → M (C T × C T)
  /-- `CowSliceExt::truncate` -/
  cowTruncate : {T : Type} → C T → Nat → C T
  /-- `Cow::Owned(vec)` -/
  cowOwned : {T : Type} → List T → C T

/-- The Rust parser over a buffer `β`. -/
instance {β : Type} [ParseBuf β] : ParserM (P β) Cow where
  config := P.config
  fail := P.fail
  array := P.array
  bytes := P.bytes
  rest := P.rest
  restTrimNul := P.restTrimNul
  padded := P.padded
  slice := P.slice
  elems := Cow.data
  cowSplitAt c n := match c.splitAt n with
    | some r => pure r
    | none => P.fault .panic
  cowTruncate := Cow.truncate
  cowOwned := Cow.owned

section
variable {M : Type → Type} {C : Type → Type} [ParserM M C]
open ParserM

/-- `Parser::parse_u8`, src/parse.rs:367-370. -/
def parseU8 : M U8 := do
  let a ← array 1
  pure (fromLE 8 a)

/-- `Parser::parse_u16`, src/parse.rs:373-376. -/
def parseU16 : M U16 := do
  let a ← array 2
  let cfg ← config
  pure (cfg.endian.conv16 a)

/-- `Parser::parse_u32`, src/parse.rs:379-382. -/
def parseU32 : M U32 := do
  let a ← array 4
  let cfg ← config
  pure (cfg.endian.conv32 a)

/-- `Parser::parse_u64`, src/parse.rs:385-388. -/
def parseU64 : M U64 := do
  let a ← array 8
  let cfg ← config
  pure (cfg.endian.conv64 a)

/-- `Parser::parse_if` / `parse_if_with`, src/parse.rs:324-337. -/
def parseIf {α : Type} (cond : Bool) (func : M α) : M (Option α) :=
  match cond with
  | true => do
    let x ← func
    pure (some x)
  | false => pure none

end
end Perf
