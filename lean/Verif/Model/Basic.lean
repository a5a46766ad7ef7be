/-!
# Machine integers, byte orders and outcomes

`usize` is modelled as `Nat` (a 64-bit target is assumed: `usize::MAX = 2^64 - 1`); the places where the
Rust code checks for overflow (`checked_mul`, `checked_add`, `checked_sub`) keep that check.
-/
namespace Perf

/-- `u8` -/
abbrev Byte := BitVec 8
/-- `u8` used as a number -/
abbrev U8 := BitVec 8
/-- `u16` -/
abbrev U16 := BitVec 16
/-- `u32` -/
abbrev U32 := BitVec 32
/-- `u64` -/
abbrev U64 := BitVec 64

/-- `usize::MAX + 1` on the modelled 64-bit target. -/
def usizeLimit : Nat := 2 ^ 64

/-- A byte order: of the data source, or of the host the program runs on. -/
inductive Order where
  | little
  | big
deriving DecidableEq, Repr

/-- The number whose little endian digits (base 256) are the given bytes. -/
def leNat : List Byte → Nat
  | [] => 0
  | b :: bs => b.toNat + 256 * leNat bs

/-- `uN::from_le_bytes` (Rust core). -/
def fromLE (w : Nat) (bs : List Byte) : BitVec w := BitVec.ofNat w (leNat bs)

/-- `uN::from_be_bytes` (Rust core). -/
def fromBE (w : Nat) (bs : List Byte) : BitVec w := fromLE w bs.reverse

/-- Read an integer stored in byte order `o`; with `o` the host's order this is `uN::from_ne_bytes`
(Rust core) and also what reading the integer through a reinterpreted reference yields. -/
def fromOrder (o : Order) (w : Nat) (bs : List Byte) : BitVec w :=
  match o with
  | .little => fromLE w bs
  | .big => fromBE w bs

end Perf
