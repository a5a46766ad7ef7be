import Verif.Props.Show
import Verif.Props.Stored
/-!
# C61 from the stored form

`Debug` of a `Sample` and of a `SampleId` reads the flag word and the cells. Here: it prints the fields, and touches no cell that is
not initialised. So `c61_sample` and `c68_sample`, which speak of the fields, hold of what is stored.
-/
namespace Perf
variable [Formatter]

omit [Formatter] in
theorem debugCell_some {α : Type} (name : String) (v : Option α) (fmt : α → Except Fault String) (rest : Except Fault (List (String × String))) :
    debugCell name (some v) fmt (some rest) = some (debugOpt name v fmt rest) := rfl

/-- **C61** `{:?}` (or `{:#?}`) of a stored sample that holds the fields `s`. -/
theorem c61_stored (x : Outside) (host decl : Order) {t : StoredSample Cow} {s : Sample Cow} (h : t.Holds s) :
    t.debugFields x host decl = some (s.debugFields x host decl) := by
  unfold StoredSample.debugFields Sample.debugFields
  rw [h.ip, h.pid, h.tid, h.time, h.addr, h.id, h.streamId, h.cpu, h.period, h.values, h.callchain, h.raw, h.lbrHwIndex, h.lbr, h.regsUser,
    h.stackUser, h.weight, h.dataSrc, h.transaction, h.regsIntr, h.physAddr, h.aux, h.cgroup, h.dataPageSize, h.codePageSize]
  simp only [debugCell_some]

/-- **C61** `{:?}` of a stored `SampleId`. -/
theorem c61_stored_id {t : StoredId} {s : SampleId} (h : t.Holds s) : t.debugFields = some s.debugFields := by
  unfold StoredId.debugFields SampleId.debugFields
  rw [h.pid, h.tid, h.time, h.id, h.streamId, h.cpu]
  simp only [debugCell_some]

/-- **C61** `{:?}` of what the parser stores, of a clone of it, of the `SampleId` made from it and of the default one (whatever its
memory holds): no uninitialised cell is read, and the fields printed are those with a value. -/
theorem c61_stored_all (x : Outside) (host decl : Order) (s : Sample Cow) (i : SampleId) (garbage : (i : Fin 6) → Option (SampleIdField i.val)) :
    s.store.debugFields x host decl = some (s.debugFields x host decl) ∧
    StoredSample.debugFields x host decl s.store.clone = some (s.debugFields x host decl) ∧
    i.store.debugFields = some i.debugFields ∧ StoredId.debugFields i.store.clone = some i.debugFields ∧
    (∃ t, StoredId.fromSample s.store = some t ∧ t.debugFields = some (SampleId.debugFields ⟨s.pid, s.tid, s.time, s.id, s.streamId, s.cpu⟩)) ∧
    (StoredId.default garbage).debugFields = some (.ok []) := by
  obtain ⟨h1, h2, _, _⟩ := c42_sample s
  obtain ⟨h3, h4, ⟨t, h5, h6⟩, h7⟩ := c42_sample_id i s garbage
  exact ⟨c61_stored x host decl h1, c61_stored x host decl h2, c61_stored_id h3, c61_stored_id h4, ⟨t, h5, c61_stored_id h6⟩,
    c61_stored_id h7⟩

omit [Formatter] in
/-- Five of 25 fields, one of them a hexadecimal address. -/
def demoStoredCow : Sample Cow :=
  { ip := none, pid := some 1, tid := some 2, time := none, addr := some 0xab, id := none, streamId := none, cpu := none, period := none
    values := none, callchain := none, raw := none, lbrHwIndex := none, lbr := none, regsUser := none
    stackUser := some (.owned [1, 2, 3]), weight := none, dataSrc := none, transaction := none, regsIntr := none, physAddr := none
    aux := none, cgroup := none, dataPageSize := none, codePageSize := some 4096 }
example : (match @StoredSample.debugFields plain ⟨fun _ => [], fun _ _ => "", fun _ => ""⟩ .little .little demoStoredCow.store with
    | some (.ok fs) => fs == [("pid", "1"), ("tid", "2"), ("addr", "0x000000000000AB"), ("stack_user", "[1, 2, 3]"), ("code_page_size", "4096")]
    | _ => false) = true := by decide +kernel

end Perf
