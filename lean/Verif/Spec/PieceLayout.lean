import Verif.Spec.MemoryLayout
/-!
# The records the crate takes from several pieces of memory

The layout that the code of /repo expects of a record when the input comes in pieces, as from a ring buffer that has wrapped around. It depends
on where the pieces end. A list of words in the host's byte order that would lie in one borrowed piece, at an address that is not a multiple of
8, is preceded by as many bytes as it is long, which are dropped (B2); any other list is read as it stands. A TEXT_POKE whose code lies in one
borrowed piece is what the kernel means by it; any other one is taken as from a reader (B7).
-/
namespace Perf

/-- The address of the `n` bytes at offset `i`, if they lie in one borrowed piece. -/
def lie : List Chunk → Nat → Nat → Option Nat
  | [], _, _ => none
  | c :: cs, i, n =>
    if i < c.data.length then
      match c.loc with
      | .external a => if i + n ≤ c.data.length then some (a + i) else none
      | .temporary => none
    else lie cs (i - c.data.length) n

/-- The pieces that are left behind `n` bytes. -/
def dropPieces : List Chunk → Nat → List Chunk
  | [], _ => []
  | c :: cs, n =>
    if n < c.data.length then
      ⟨match c.loc with
        | .external a => .external (a + n)
        | .temporary => .temporary, c.data.drop n⟩ :: cs
    else dropPieces cs (n - c.data.length)

/-- How many bytes are dropped in front of a list of `n` bytes at offset `i`, if `w` says where bytes lie. -/
def dropAt (native : Bool) (w : Nat → Nat → Option Nat) (i n : Nat) : Nat :=
  match w i n with
  | some a => dropLen native a n
  | none => 0

namespace KSample

/-- How many bytes come before part number `i`. -/
def beforeHeld (o : Order) (st rf : U64) (hwIndex : Bool) (d : Dropped) (s : KSample) (i : Nat) : Nat :=
  ((s.partsHeld o st rf hwIndex d).take i).flatten.length

/-- The samples that are taken, with `extra` behind them: their lengths are right, nothing empty stands at the very end, and in front of every
list stands what is dropped there. -/
structure Strewn (native : Bool) (o : Order) (st rf ru ri : U64) (hwIndex : Bool) (w : Nat → Nat → Option Nat) (d : Dropped) (extra : List Byte)
    (s : KSample) : Prop where
  rawPad : st.getLsbD 10 = true → s.rawPad.length < 8 ∧ (4 + s.raw.length + s.rawPad.length) % 8 = 0
  dynSize : st.getLsbD 13 = true → s.stack ≠ [] → s.dynSize.toNat ≤ s.stack.length
  regsUser : st.getLsbD 12 = true → s.regsUser.values.length = popcount ru
  regsIntr : st.getLsbD 18 = true → s.regsIntr.values.length = popcount ri
  readFormat : st.getLsbD 4 = true → rf.getLsbD 5 = false
  dropValues : st.getLsbD 4 = true → rf.getLsbD 3 = true →
    d.values.length = dropAt native w (s.beforeHeld o st rf hwIndex d 9 + 8 + (if rf.getLsbD 0 then 8 else 0) + (if rf.getLsbD 1 then 8 else 0))
      (8 * (s.group.counters.flatMap (KCounter.words rf)).length)
  dropCallchain : st.getLsbD 5 = true →
    d.callchain.length = dropAt native w (s.beforeHeld o st rf hwIndex d 10 + 8) (8 * s.callchain.length)
  dropLbr : st.getLsbD 11 = true →
    d.lbr.length = dropAt native w (s.beforeHeld o st rf hwIndex d 12 + 8 + (if hwIndex then 8 else 0)) (24 * s.lbr.length)
  dropRegsUser : st.getLsbD 12 = true →
    d.regsUser.length = dropAt native w (s.beforeHeld o st rf hwIndex d 13 + 8) (8 * s.regsUser.values.length)
  dropRegsIntr : st.getLsbD 18 = true →
    d.regsIntr.length = dropAt native w (s.beforeHeld o st rf hwIndex d 18 + 8) (8 * s.regsIntr.values.length)
  endValues : native = true → st.getLsbD 4 = true → rf.getLsbD 3 = true → s.group.counters = [] →
    s.afterHeld o st rf hwIndex d 9 ++ extra ≠ []
  endCallchain : native = true → st.getLsbD 5 = true → s.callchain = [] → s.afterHeld o st rf hwIndex d 10 ++ extra ≠ []
  endLbr : native = true → st.getLsbD 11 = true → s.lbr = [] → s.afterHeld o st rf hwIndex d 12 ++ extra ≠ []
  endRegsUser : native = true → st.getLsbD 12 = true → s.regsUser.values = [] → s.afterHeld o st rf hwIndex d 13 ++ extra ≠ []
  endStack : st.getLsbD 13 = true → s.stack = [] → s.afterHeld o st rf hwIndex d 14 ++ extra ≠ []
  endRegsIntr : native = true → st.getLsbD 18 = true → s.regsIntr.values = [] → s.afterHeld o st rf hwIndex d 18 ++ extra ≠ []
  endAux : st.getLsbD 20 = true → s.aux = [] → extra ≠ []

end KSample

/-- The bodies that are taken, with `extra` behind them. -/
def KBody.Strewn (o : Order) (cfg : ParseConfig) (misc : U16) (w : Nat → Nat → Option Nat) (d : Dropped) (extra : List Byte) : KBody → Prop
  | .sample s => s.Strewn cfg.endian.isNative o cfg.sampleType cfg.readFormat cfg.regsUser cfg.regsIntr cfg.branchHwIndex w d extra
  | .namespaces _ _ entries => d.entries.length = dropAt cfg.endian.isNative w 16 (16 * entries.length) ∧
      (cfg.endian.isNative = true → entries = [] → extra ≠ [])
  | b => b.Taken o cfg misc extra

/-- Whether the code of a TEXT_POKE lies in one borrowed piece. -/
def KBody.whole (w : Nat → Nat → Option Nat) : KBody → Bool
  | .textPoke _ old new pad => (w 12 (old.length + new.length + pad.length)).isSome
  | _ => true

/-- What is returned for a body. -/
def KBody.valueStrewn (cfg : ParseConfig) (misc : U16) (w : Nat → Nat → Option Nat) (b : KBody) : Record List :=
  if b.whole w then b.valueHeld cfg misc else b.valueTaken cfg misc

/-- Where the bytes of a body lie, given the pieces from the start of the record: the header is 8 bytes long. -/
def bodyLie (pieces : List Chunk) (i n : Nat) : Option Nat := lie pieces (8 + i) n

/-- The input, in `pieces`, starts with a record that is taken, with the bytes `d` in front of its lists and `extra` between body and trailer. -/
structure KRecord.StrewnFrom (o : Order) (cfg : ParseConfig) (pieces : List Chunk) (r : KRecord) (d : Dropped) (extra : List Byte) : Prop where
  strewn : r.body.Strewn o cfg r.misc (bodyLie pieces) d extra
  small : r.sizeHeld o cfg d + extra.length < 65536
  toEnd : r.body.toEnd = true → extra = []
  bytes : r.encHeld o cfg d extra <+: pieces.flatMap Chunk.data

end Perf
