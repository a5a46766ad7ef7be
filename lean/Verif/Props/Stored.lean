import Verif.Model.Stored
import Verif.Props.Values
/-!
# The stored form of samples

What the crate keeps of a `Sample` or `SampleId` is a flag word and cells; reading them back gives the fields.
-/
namespace Perf
variable {C : Type → Type}

/-- All accessors of the stored sample return the fields of `s`, without reading memory that is not initialised. -/
structure StoredSample.Holds (t : StoredSample C) (s : Sample C) : Prop where
  ip : t.ip = some s.ip
  pid : t.pid = some s.pid
  tid : t.tid = some s.tid
  time : t.time = some s.time
  addr : t.addr = some s.addr
  id : t.id = some s.id
  streamId : t.streamId = some s.streamId
  cpu : t.cpu = some s.cpu
  period : t.period = some s.period
  values : t.values = some s.values
  callchain : t.callchain = some s.callchain
  raw : t.raw = some s.raw
  lbrHwIndex : t.lbrHwIndex = some s.lbrHwIndex
  lbr : t.lbr = some s.lbr
  regsUser : t.regsUser = some s.regsUser
  stackUser : t.stackUser = some s.stackUser
  weight : t.weight = some s.weight
  dataSrc : t.dataSrc = some s.dataSrc
  transaction : t.transaction = some s.transaction
  regsIntr : t.regsIntr = some s.regsIntr
  physAddr : t.physAddr = some s.physAddr
  aux : t.aux = some s.aux
  cgroup : t.cgroup = some s.cgroup
  dataPageSize : t.dataPageSize = some s.dataPageSize
  codePageSize : t.codePageSize = some s.codePageSize

/-- The same for `SampleId`. -/
structure StoredId.Holds (t : StoredId) (s : SampleId) : Prop where
  pid : t.pid = some s.pid
  tid : t.tid = some s.tid
  time : t.time = some s.time
  id : t.id = some s.id
  streamId : t.streamId = some s.streamId
  cpu : t.cpu = some s.cpu

/-- **C42** for samples: every accessor of the stored sample returns the field the parser put in, reading no uninitialised
memory; so does every accessor of a clone; dropping either drops every cell at most once and none that is not initialised. -/
theorem c42_sample (s : Sample C) :
    s.store.Holds s ∧ StoredSample.Holds s.store.clone s ∧
    (∃ l, s.store.drop = some l ∧ l.Nodup) ∧ ∃ l, s.store.clone.drop = some l ∧ l.Nodup := by
  obtain ⟨h1, h2, ⟨l, h3, h4, _⟩, ⟨l', h5, h6, _⟩⟩ := c42_new (w := 32) (n := 25) (F := fun i => SampleField C i.val) (by decide)
    s.store.cells
  exact ⟨⟨h1 0, h1 1, h1 2, h1 3, h1 4, h1 5, h1 6, h1 7, h1 8, h1 9, h1 10, h1 11, h1 12, h1 13, h1 14, h1 15, h1 16, h1 17, h1 18, h1 19, h1 20, h1 21, h1 22, h1 23, h1 24⟩,
    ⟨h2 0, h2 1, h2 2, h2 3, h2 4, h2 5, h2 6, h2 7, h2 8, h2 9, h2 10, h2 11, h2 12, h2 13, h2 14, h2 15, h2 16, h2 17, h2 18, h2 19, h2 20, h2 21, h2 22, h2 23, h2 24⟩,
    ⟨l, h3, h4⟩, ⟨l', h5, h6⟩⟩

/-- A dropped sample frees exactly the buffers of the fields that are there (field number by position). -/
theorem c42_sample_drop (s : Sample C) : ∃ l, s.store.drop = some l ∧ l.Nodup ∧
    (9 ∈ l ↔ s.values.isSome) ∧ (10 ∈ l ↔ s.callchain.isSome) ∧ (11 ∈ l ↔ s.raw.isSome) ∧ (13 ∈ l ↔ s.lbr.isSome) ∧
    (14 ∈ l ↔ s.regsUser.isSome) ∧ (15 ∈ l ↔ s.stackUser.isSome) ∧ (19 ∈ l ↔ s.regsIntr.isSome) ∧ (21 ∈ l ↔ s.aux.isSome) := by
  obtain ⟨_, _, ⟨l, h3, h4, h⟩, _⟩ := c42_new (w := 32) (n := 25) (F := fun i => SampleField C i.val) (by decide) s.store.cells
  exact ⟨l, h3, h4, h 9, h 10, h 11, h 13, h 14, h 15, h 19, h 21⟩

/-- **C42** for `SampleId`: parsed, copied (it is `Copy`, so nothing is dropped), cloned, made from a sample, and the default,
whatever its memory holds. -/
theorem c42_sample_id (i : SampleId) (s : Sample C) (garbage : (i : Fin 6) → Option (SampleIdField i.val)) :
    i.store.Holds i ∧ StoredId.Holds i.store.clone i ∧
    (∃ t, StoredId.fromSample s.store = some t ∧ t.Holds ⟨s.pid, s.tid, s.time, s.id, s.streamId, s.cpu⟩) ∧
    (StoredId.default garbage).Holds ⟨none, none, none, none, none, none⟩ := by
  have h (i : SampleId) : i.store.Holds i ∧ StoredId.Holds i.store.clone i := by
    obtain ⟨h1, h2, _⟩ := c42_new (w := 8) (n := 6) (F := fun i => SampleIdField i.val) (by decide) i.store.cells
    exact ⟨⟨h1 0, h1 1, h1 2, h1 3, h1 4, h1 5⟩, ⟨h2 0, h2 1, h2 2, h2 3, h2 4, h2 5⟩⟩
  refine ⟨(h i).1, (h i).2, ⟨_, ?_, (h ⟨s.pid, s.tid, s.time, s.id, s.streamId, s.cpu⟩).1⟩, ?_⟩
  · have hs := (c42_sample s).1
    unfold StoredId.fromSample
    rw [hs.pid, hs.tid, hs.time, hs.id, hs.streamId, hs.cpu]
    rfl
  · have hd := (c42_default (w := 8) (n := 6) (F := fun i => SampleIdField i.val) (by decide) garbage).1
    exact ⟨hd 0, hd 1, hd 2, hd 3, hd 4, hd 5⟩

/-- A sample with a thread, a stack and a register dump: flag word, cells dropped, a neighbour that is absent. -/
def demoStored : Sample List :=
  { ip := none, pid := some 1, tid := some 2, time := none, addr := none, id := none, streamId := none, cpu := none, period := none
    values := none, callchain := none, raw := none, lbrHwIndex := none, lbr := none, regsUser := some ⟨2, 3, [7, 8]⟩
    stackUser := some [1, 2, 3], weight := none, dataSrc := none, transaction := none, regsIntr := none, physAddr := none
    aux := none, cgroup := none, dataPageSize := none, codePageSize := some 4096 }
example : demoStored.store.flags = 0x100C006#32 ∧ demoStored.store.drop = some [1, 2, 14, 15, 24] ∧
    demoStored.store.stackUser = some (some [1, 2, 3]) ∧ demoStored.store.raw = some none ∧
    demoStored.store.codePageSize = some (some 4096) := by decide +kernel

end Perf
