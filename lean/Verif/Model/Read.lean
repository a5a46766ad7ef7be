import Verif.Model.Records
/-!
# `src/records/read.rs`
-/
namespace Perf
open ParserM

/-- `ReadValue`, src/records/read.rs:29-36. -/
structure ReadValue where
  readFormat : U64
  value : U64
  timeEnabled : U64
  timeRunning : U64
  id : U64
  lost : U64
deriving DecidableEq, Repr

/-- `Read`, src/records/read.rs:16-25. -/
structure Read where
  pid : U32
  tid : U32
  values : ReadValue
deriving DecidableEq, Repr

/-- `ReadGroup`, src/records/read.rs:128-133. -/
structure ReadGroup (C : Type → Type) where
  readFormat : U64
  timeEnabled : U64
  timeRunning : U64
  data : C U64

/-- `GroupEntry`, src/records/read.rs:235-240. -/
structure GroupEntry where
  readFormat : U64
  value : U64
  id : U64
  lost : U64
deriving DecidableEq, Repr

/-- `bool::then_some` -/
def thenSome {α : Type} (c : Bool) (a : α) : Option α := if c then some a else none

/-! ## `ReadValue` accessors -/
namespace ReadValue
variable (v : ReadValue)
/-- src/records/read.rs:57-61 -/
def getTimeEnabled : Option U64 := thenSome (contains v.readFormat ReadFormat.TOTAL_TIME_ENABLED) v.timeEnabled
/-- src/records/read.rs:67-71 -/
def getTimeRunning : Option U64 := thenSome (contains v.readFormat ReadFormat.TOTAL_TIME_RUNNING) v.timeRunning
/-- src/records/read.rs:74-76 -/
def getId : Option U64 := thenSome (contains v.readFormat ReadFormat.ID) v.id
/-- src/records/read.rs:79-83 -/
def getLost : Option U64 := thenSome (contains v.readFormat ReadFormat.LOST) v.lost
end ReadValue

/-! ## `GroupEntry` -/
namespace GroupEntry
/-- src/records/read.rs:249-251 -/
def getId (e : GroupEntry) : Option U64 := thenSome (contains e.readFormat ReadFormat.ID) e.id
/-- src/records/read.rs:254-258 -/
def getLost (e : GroupEntry) : Option U64 := thenSome (contains e.readFormat ReadFormat.LOST) e.lost

/-- `GroupEntry::new`, src/records/read.rs:260-276; `none` is the `expect` panic when the slice is too short. -/
def new (config : U64) (slice : List U64) : Option GroupEntry :=
  match slice with
  | [] => none
  | value :: rest =>
    let idPart : Option (U64 × List U64) :=
      if contains config ReadFormat.ID then
        match rest with
        | [] => none
        | x :: rest => some (x, rest)
      else some (0#64, rest)
    match idPart with
    | none => none
    | some (id, rest) =>
      if contains config ReadFormat.LOST then
        match rest with
        | [] => none
        | x :: _ => some { readFormat := config, value, id, lost := x }
      else some { readFormat := config, value, id, lost := 0#64 }
end GroupEntry

/-! ## The entry iterator -/

/-- `std::slice::ChunksExact<'_, u64>` (std): the remaining part of the slice, a multiple of `size` long. -/
structure ChunksExact where
  v : List U64
  size : Nat

namespace ChunksExact
/-- `slice::chunks_exact` (std): the remainder is cut off. -/
def new (l : List U64) (size : Nat) : ChunksExact := ⟨l.take (l.length - l.length % size), size⟩
/-- `ChunksExact::next` (std). -/
def next (c : ChunksExact) : Option (List U64) × ChunksExact :=
  if c.v.length < c.size then (none, c) else (some (c.v.take c.size), { c with v := c.v.drop c.size })
/-- `ChunksExact::len` (std); also `count`. -/
def len (c : ChunksExact) : Nat := c.v.length / c.size
/-- `ChunksExact::nth` (std). -/
def nth (c : ChunksExact) (n : Nat) : Option (List U64) × ChunksExact :=
  if n * c.size ≥ usizeLimit ∨ n * c.size ≥ c.v.length then (none, { c with v := [] })
  else ({ c with v := c.v.drop (n * c.size) } : ChunksExact).next
/-- `ChunksExact::next_back` (std). -/
def nextBack (c : ChunksExact) : Option (List U64) × ChunksExact :=
  if c.v.length < c.size then (none, c)
  else (some (c.v.drop (c.v.length - c.size)), { c with v := c.v.take (c.v.length - c.size) })
/-- `ChunksExact::last` (std): `next_back`. -/
def last (c : ChunksExact) : Option (List U64) := c.nextBack.1
/-- `ChunksExact::nth_back` (std). -/
def nthBack (c : ChunksExact) (n : Nat) : Option (List U64) × ChunksExact :=
  if n ≥ c.len then (none, { c with v := [] })
  else
    let start := (c.len - 1 - n) * c.size
    let stop := start + c.size
    (some ((c.v.take stop).drop start), { c with v := c.v.take start })
end ChunksExact

/-- `GroupIter`, src/records/read.rs:299-302. -/
structure GroupIter where
  iter : ChunksExact
  readFormat : U64

/-- An iterator step: the item (`none` at the end), or a panic. -/
def GroupIter.step (rf : U64) (r : Option (List U64) × ChunksExact) : Except Fault (Option GroupEntry) × GroupIter :=
  (match r.1 with
    | none => .ok none
    | some s =>
      match GroupEntry.new rf s with
      | some e => .ok (some e)
      | none => .error .panic, ⟨r.2, rf⟩)

namespace GroupIter
/-- `GroupIter::new`, src/records/read.rs:305-312. -/
def new (readFormat : U64) (data : List U64) : GroupIter :=
  ⟨ChunksExact.new data (ReadFormat.elementLen readFormat), readFormat⟩
/-- src/records/read.rs:318-320 -/
def next (g : GroupIter) := step g.readFormat g.iter.next
/-- src/records/read.rs:330-332 -/
def nth (g : GroupIter) (n : Nat) := step g.readFormat (g.iter.nth n)
/-- src/records/read.rs:340-342 -/
def nextBack (g : GroupIter) := step g.readFormat g.iter.nextBack
/-- src/records/read.rs:344-346 -/
def nthBack (g : GroupIter) (n : Nat) := step g.readFormat (g.iter.nthBack n)
/-- src/records/read.rs:334-336 -/
def last (g : GroupIter) := (step g.readFormat (g.iter.last, g.iter)).1
/-- `len`, `count`, `size_hint`, src/records/read.rs:322-328,349-354. -/
def len (g : GroupIter) : Nat := g.iter.len

/-- Calling `next` until it returns `None` (`collect`), at most `fuel` times. -/
def collect : Nat → GroupIter → Except Fault (List GroupEntry)
  | 0, _ => .error .diverge
  | fuel + 1, g =>
    match g.next with
    | (.error e, _) => .error e
    | (.ok none, _) => .ok []
    | (.ok (some e), g') =>
      match collect fuel g' with
      | .ok es => .ok (e :: es)
      | .error f => .error f

/-- `Iterator::find` (std) with `|entry| entry.id() == Some(id)`, src/records/read.rs:182. -/
def findId (id : U64) : Nat → GroupIter → Except Fault (Option GroupEntry)
  | 0, _ => .error .diverge
  | fuel + 1, g =>
    match g.next with
    | (.error e, _) => .error e
    | (.ok none, _) => .ok none
    | (.ok (some e), g') => if e.getId = some id then .ok (some e) else findId id fuel g'
end GroupIter

/-! ## `ReadGroup` methods -/
namespace ReadGroup
variable (g : ReadGroup Cow)
/-- `entries`, src/records/read.rs:186-188 -/
def entries : GroupIter := GroupIter.new g.readFormat g.data.data
/-- `len`, src/records/read.rs:137-139 -/
def len : Nat := g.entries.len
/-- `is_empty`, src/records/read.rs:142-144 -/
def isEmpty : Bool := g.len == 0
/-- `into_owned`, src/records/read.rs:147-152 -/
def intoOwned : ReadGroup Cow := { g with data := g.data.intoOwned }
/-- src/records/read.rs:155-159 -/
def getTimeEnabled : Option U64 := thenSome (contains g.readFormat ReadFormat.TOTAL_TIME_ENABLED) g.timeEnabled
/-- src/records/read.rs:165-169 -/
def getTimeRunning : Option U64 := thenSome (contains g.readFormat ReadFormat.TOTAL_TIME_RUNNING) g.timeRunning
/-- `get`, src/records/read.rs:172-174 -/
def get (index : Nat) : Except Fault (Option GroupEntry) := (g.entries.nth index).1
/-- `get_by_id`, src/records/read.rs:177-183 -/
def getById (id : U64) : Except Fault (Option GroupEntry) :=
  if !contains g.readFormat ReadFormat.ID then .ok none
  else g.entries.findId id (g.data.data.length + 1)
end ReadGroup

/-- `ReadValue::from_group_and_entry`, src/records/read.rs:40-49. -/
def ReadValue.fromGroupAndEntry (g : ReadGroup Cow) (e : GroupEntry) : ReadValue :=
  { readFormat := ReadFormat.diff g.readFormat ReadFormat.GROUP
    value := e.value, timeEnabled := g.timeEnabled, timeRunning := g.timeRunning, id := e.id, lost := e.lost }

/-- `TryFrom<ReadGroup> for ReadValue`, src/records/read.rs:86-106; `.ok none` is `Err(TryFromGroupError)`. -/
def ReadValue.tryFromGroup (g : ReadGroup Cow) : Except Fault (Option ReadValue) :=
  match g.entries.next with
  | (.error f, _) => .error f
  | (.ok none, _) => .ok none
  | (.ok (some entry), entries) =>
    match entries.next with
    | (.error f, _) => .error f
    | (.ok (some _), _) => .ok none
    | (.ok none, _) => .ok (some
      { readFormat := ReadFormat.diff g.readFormat ReadFormat.GROUP
        value := entry.value, timeEnabled := g.timeEnabled, timeRunning := g.timeRunning
        id := entry.id, lost := entry.lost })

section
variable {M : Type → Type} {C : Type → Type} [ParserM M C]

variable (M) in
/-- `From<ReadValue> for ReadGroup`, src/records/read.rs:191-205. -/
def ReadGroup.ofValue (v : ReadValue) : ReadGroup C :=
  { readFormat := v.readFormat ||| ReadFormat.GROUP
    timeEnabled := v.timeEnabled
    timeRunning := v.timeRunning
    data := cowOwned M ([v.value] ++ v.getId.toList ++ v.getLost.toList) }

/-- `Parse for ReadValue`, src/records/read.rs:358-397. -/
def parseReadValue : M ReadValue := do
  let cfg ← config
  let rf := cfg.readFormat
  if contains rf ReadFormat.GROUP then
    fail (.custom .unsupportedConfig
      "attempted to parse a SingleRead with a config that has GROUP set in read_format")
  else if ReadFormat.diff rf ReadFormat.all ≠ 0#64 then
    fail (.custom .unsupportedConfig "read_format contains unsupported flags")
  else do
    let value ← parseU64
    let timeEnabled ← parseIf (contains rf ReadFormat.TOTAL_TIME_ENABLED) parseU64
    let timeRunning ← parseIf (contains rf ReadFormat.TOTAL_TIME_RUNNING) parseU64
    let id ← parseIf (contains rf ReadFormat.ID) parseU64
    let lost ← parseIf (contains rf ReadFormat.LOST) parseU64
    pure { readFormat := rf, value, timeEnabled := timeEnabled.getD 0#64, timeRunning := timeRunning.getD 0#64
           id := id.getD 0#64, lost := lost.getD 0#64 }

/-- `Parse for ReadGroup`, src/records/read.rs:399-447. -/
def parseReadGroup : M (ReadGroup C) := do
  let cfg ← config
  let rf := cfg.readFormat
  if !contains rf ReadFormat.GROUP then
    fail (.custom .unsupportedConfig
      "attempted to parse a GroupRead with a config that does not have GROUP set in read_format")
  else if ReadFormat.diff rf ReadFormat.all ≠ 0#64 then
    fail (.custom .unsupportedConfig "read_format contains unsupported flags")
  else do
    let nr ← parseU64
    let timeEnabled ← parseIf (contains rf ReadFormat.TOTAL_TIME_ENABLED) parseU64
    let timeRunning ← parseIf (contains rf ReadFormat.TOTAL_TIME_RUNNING) parseU64
    let elementLen := ReadFormat.elementLen rf
    if nr.toNat * elementLen ≥ usizeLimit then
      fail (.custom .invalidRecord "number of elements in group read was too large for data type")
    else do
      let data ← slice U64.elem parseU64 (nr.toNat * elementLen)
      pure { readFormat := rf, timeEnabled := timeEnabled.getD 0#64, timeRunning := timeRunning.getD 0#64, data }

/-- `Parse for Read`, src/records/read.rs:449-461. -/
def parseRead : M Read := do
  let pid ← parseU32
  let tid ← parseU32
  let values ← parseReadValue
  pure { pid, tid, values }

end
end Perf
