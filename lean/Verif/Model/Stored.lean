import Verif.Model.Sample
import Verif.Model.OptionStruct
/-!
# How `Sample` and `SampleId` are stored

`Sample` and `SampleId` of the other files are their observable fields. In the crate they are structs made by
`option_struct!`: a flag word and one possibly uninitialised cell per field, filled from a list of arguments by position and
read by offset. Here are those structs, with the argument lists of the three calls of `new` and the accessors.
-/
namespace Perf

/-- The types of the fields, in the order of declaration, src/records/sample.rs:26-52. -/
def SampleField (C : Type → Type) : Nat → Type
  | 0 => U64
  | 1 => U32
  | 2 => U32
  | 3 => U64
  | 4 => U64
  | 5 => U64
  | 6 => U64
  | 7 => U32
  | 8 => U64
  | 9 => ReadGroup C
  | 10 => C U64
  | 11 => C Byte
  | 12 => U64
  | 13 => C BranchEntry
  | 14 => Registers C
  | 15 => C Byte
  | 16 => U64
  | 17 => U64
  | 18 => U64
  | 19 => Registers C
  | 20 => U64
  | 21 => C Byte
  | 22 => U64
  | 23 => U64
  | 24 => U64
  | _ => Empty

/-- `sample_impl::Sample`, src/records/sample.rs:24-53. -/
abbrev StoredSample (C : Type → Type) := OptionStruct 32 (n := 25) fun i => SampleField C i.val

/-- `sample_impl::Sample::new`, arguments by position, src/macros.rs:113-132. -/
def StoredSample.new {C : Type → Type}
    (a0 : Option (U64))    (a1 : Option (U32))    (a2 : Option (U32))    (a3 : Option (U64))
    (a4 : Option (U64))    (a5 : Option (U64))    (a6 : Option (U64))    (a7 : Option (U32))
    (a8 : Option (U64))    (a9 : Option (ReadGroup C))    (a10 : Option (C U64))    (a11 : Option (C Byte))
    (a12 : Option (U64))    (a13 : Option (C BranchEntry))    (a14 : Option (Registers C))    (a15 : Option (C Byte))
    (a16 : Option (U64))    (a17 : Option (U64))    (a18 : Option (U64))    (a19 : Option (Registers C))
    (a20 : Option (U64))    (a21 : Option (C Byte))    (a22 : Option (U64))    (a23 : Option (U64))
    (a24 : Option (U64)) :
    StoredSample C :=
  OptionStruct.new 32 fun i => match i with
    | ⟨0, _⟩ => a0
    | ⟨1, _⟩ => a1
    | ⟨2, _⟩ => a2
    | ⟨3, _⟩ => a3
    | ⟨4, _⟩ => a4
    | ⟨5, _⟩ => a5
    | ⟨6, _⟩ => a6
    | ⟨7, _⟩ => a7
    | ⟨8, _⟩ => a8
    | ⟨9, _⟩ => a9
    | ⟨10, _⟩ => a10
    | ⟨11, _⟩ => a11
    | ⟨12, _⟩ => a12
    | ⟨13, _⟩ => a13
    | ⟨14, _⟩ => a14
    | ⟨15, _⟩ => a15
    | ⟨16, _⟩ => a16
    | ⟨17, _⟩ => a17
    | ⟨18, _⟩ => a18
    | ⟨19, _⟩ => a19
    | ⟨20, _⟩ => a20
    | ⟨21, _⟩ => a21
    | ⟨22, _⟩ => a22
    | ⟨23, _⟩ => a23
    | ⟨24, _⟩ => a24
    | ⟨k + 25, h⟩ => absurd h (by omega)

/-- The call at the end of `Parse for Sample`, src/records/sample.rs:262-288. -/
def Sample.store {C : Type → Type} (s : Sample C) : StoredSample C :=
  .new s.ip s.pid s.tid s.time s.addr s.id s.streamId s.cpu s.period s.values s.callchain s.raw s.lbrHwIndex
    s.lbr s.regsUser s.stackUser s.weight s.dataSrc s.transaction s.regsIntr s.physAddr s.aux s.cgroup s.dataPageSize s.codePageSize

/-! The accessors, src/records/sample.rs:68-166 with src/macros.rs:136-142. An outer `none` is a read of uninitialised memory. -/
namespace StoredSample
variable {C : Type → Type} (s : StoredSample C)
def ip : Option (Option U64) := s.get 0
def pid : Option (Option U32) := s.get 1
def tid : Option (Option U32) := s.get 2
def time : Option (Option U64) := s.get 3
def addr : Option (Option U64) := s.get 4
def id : Option (Option U64) := s.get 5
def streamId : Option (Option U64) := s.get 6
def cpu : Option (Option U32) := s.get 7
def period : Option (Option U64) := s.get 8
def values : Option (Option (ReadGroup C)) := s.get 9
def callchain : Option (Option (C U64)) := s.get 10
def raw : Option (Option (C Byte)) := s.get 11
def lbrHwIndex : Option (Option U64) := s.get 12
def lbr : Option (Option (C BranchEntry)) := s.get 13
def regsUser : Option (Option (Registers C)) := s.get 14
def stackUser : Option (Option (C Byte)) := s.get 15
def weight : Option (Option U64) := s.get 16
def dataSrc : Option (Option U64) := s.get 17
def transaction : Option (Option U64) := s.get 18
def regsIntr : Option (Option (Registers C)) := s.get 19
def physAddr : Option (Option U64) := s.get 20
def aux : Option (Option (C Byte)) := s.get 21
def cgroup : Option (Option U64) := s.get 22
def dataPageSize : Option (Option U64) := s.get 23
def codePageSize : Option (Option U64) := s.get 24
end StoredSample

/-- The types of the fields of a `SampleId`, src/records/mod.rs:60-65. -/
def SampleIdField : Nat → Type
  | 0 => U32
  | 1 => U32
  | 2 => U64
  | 3 => U64
  | 4 => U64
  | 5 => U32
  | _ => Empty

/-- `sample_id::SampleId`, src/records/mod.rs:57-67. -/
abbrev StoredId := OptionStruct 8 (n := 6) fun i => SampleIdField i.val

/-- `sample_id::SampleId::new`, src/macros.rs:113-132. -/
def StoredId.new (a0 : Option U32) (a1 : Option U32) (a2 : Option U64) (a3 : Option U64) (a4 : Option U64) (a5 : Option U32) : StoredId :=
  OptionStruct.new 8 fun i => match i with
    | ⟨0, _⟩ => a0
    | ⟨1, _⟩ => a1
    | ⟨2, _⟩ => a2
    | ⟨3, _⟩ => a3
    | ⟨4, _⟩ => a4
    | ⟨5, _⟩ => a5
    | ⟨k + 6, h⟩ => absurd h (by omega)

/-- `SampleId::default()`, src/records/mod.rs:79 with src/macros.rs:178-185. -/
def StoredId.default (garbage : (i : Fin 6) → Option (SampleIdField i.val)) : StoredId := OptionStruct.default 8 garbage

/-- The call at the end of `Parse for SampleId`, src/records/mod.rs:172-179. -/
def SampleId.store (s : SampleId) : StoredId := .new s.pid s.tid s.time s.id s.streamId s.cpu

namespace StoredId
variable (s : StoredId)
/-! The accessors, src/records/mod.rs:97-127. -/
def pid : Option (Option U32) := s.get 0
def tid : Option (Option U32) := s.get 1
def time : Option (Option U64) := s.get 2
def id : Option (Option U64) := s.get 3
def streamId : Option (Option U64) := s.get 4
def cpu : Option (Option U32) := s.get 5
end StoredId

/-- `SampleId::from_sample`, src/records/mod.rs:85-94, from the stored sample; `none` if memory that is not initialised was
read. -/
def StoredId.fromSample {C : Type → Type} (s : StoredSample C) : Option StoredId := do
  let pid ← s.pid
  let tid ← s.tid
  let time ← s.time
  let id ← s.id
  let streamId ← s.streamId
  let cpu ← s.cpu
  pure (.new pid tid time id streamId cpu)

end Perf
