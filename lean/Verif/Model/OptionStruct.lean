import Verif.Model.Basic
/-!
# The `option_struct!` macro, `src/macros.rs:75-219`

The struct the macro generates has a flag word of `w` bits and one `MaybeUninit` cell per field. It is modelled for
any number `n` of fields of any types `F`. A cell is `some v` when it holds an initialised value and `none` when it
does not; reading (`assume_init_ref`) or dropping (`assume_init_drop`) an uninitialised cell is undefined behaviour
in Rust and is the outcome `none` here.
-/
namespace Perf

/-- The generated struct, src/macros.rs:88-92. -/
structure OptionStruct (w : Nat) {n : Nat} (F : Fin n → Type) where
  flags : BitVec w
  cells : (i : Fin n) → Option (F i)

namespace OptionStruct
variable {w n : Nat} {F : Fin n → Type}

/-- The flag bit of field `i`: `1 << Offsets::field`, src/macros.rs:124,137,192-195. -/
def bit (w : Nat) (i : Nat) : BitVec w := 1#w <<< i

/-- The updates `__flags |= 1 << Offsets::field` made by `new` while it runs through the first `k` fields. -/
def flagsUpTo (w : Nat) {n : Nat} {F : Fin n → Type} (o : (i : Fin n) → Option (F i)) : Nat → BitVec w
  | 0 => 0#w
  | k + 1 =>
    let f := flagsUpTo w o k
    if h : k < n then (if (o ⟨k, h⟩).isSome then f ||| bit w k else f) else f

/-- `new`, src/macros.rs:113-132. (Its `assert!(FIELD_COUNT < BITS)` is checked at compile time as well.) -/
def new (w : Nat) (o : (i : Fin n) → Option (F i)) : OptionStruct w F :=
  { flags := flagsUpTo w o n, cells := o }

/-- The test `(self.__flags & (1 << Offsets::field)) != 0`. -/
def isSet (s : OptionStruct w F) (i : Fin n) : Bool := (s.flags &&& bit w i) != 0#w

/-- The accessor of field `i`, src/macros.rs:136-142; the outer `none` is a read of an uninitialised cell. -/
def get (s : OptionStruct w F) (i : Fin n) : Option (Option (F i)) :=
  if s.isSet i then
    match s.cells i with
    | some v => some (some v)
    | none => none
  else some none

/-- `Drop::drop`, src/macros.rs:199-206: the fields dropped, in order; `none` = an uninitialised cell was dropped. -/
def dropFrom (s : OptionStruct w F) : List (Fin n) → Option (List (Fin n))
  | [] => some []
  | i :: is =>
    if s.isSet i then
      match s.cells i with
      | some _ => (s.dropFrom is).map (i :: ·)
      | none => none
    else s.dropFrom is

/-- `Drop::drop` over all fields. -/
def drop (s : OptionStruct w F) : Option (List (Fin n)) := s.dropFrom (List.finRange n)

/-- `Clone::clone`, src/macros.rs:152-156, for field types whose `clone` is the identity on values. -/
def clone (s : OptionStruct w F) : OptionStruct w F := new w fun i => (s.get i).join

/-- `Default::default`, src/macros.rs:178-185: only the flags are written. The cells hold arbitrary garbage, passed
in as `garbage`. -/
def default (w : Nat) (garbage : (i : Fin n) → Option (F i)) : OptionStruct w F := { flags := 0#w, cells := garbage }

end OptionStruct
end Perf
