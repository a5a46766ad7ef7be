import Verif.Model.Fuzz
import Verif.Props.Heap
import Verif.Props.Attr
/-!
# C81: the fuzz targets never find anything
-/
namespace Perf
variable {O : Type}

/-! ## C81 -/

/-- What a fuzz run looks for: a panic, an endless loop, a request the limited allocator refuses. -/
structure Unremarkable {α : Type} (o : Out Slice α) : Prop where
  returns : Returns o.res
  modest : ∀ n ∈ o.log, n < Fuzz.limit

theorem List.le_sum_of_mem {n : Nat} : ∀ {l : List Nat}, n ∈ l → n ≤ l.sum
  | a :: l, h => by
    rw [List.sum_cons]
    rcases List.mem_cons.1 h with h | h
    · omega
    · have := List.le_sum_of_mem h
      omega

/-- **C81** Any record from any byte slice, with every request counted, growth of vectors included: it returns, and all requests together
stay below 256 KiB. -/
theorem c81_record (v : Visitor Cow O) (hv : v.Total) (addr : Nat) (data : List Byte) (cfg : ParseConfig) (hw : cfg.Wf) :
    Unremarkable (Heap.record v (Parser.new (⟨addr, data⟩ : Slice) cfg)) ∧
    (Heap.record v (Parser.new (⟨addr, data⟩ : Slice) cfg)).log.sum < 262144 := by
  have hsum : (Heap.record v (Parser.new (⟨addr, data⟩ : Slice) cfg)).log.sum < 262144 := by
    rcases Heap.record_header v (Parser.new (⟨addr, data⟩ : Slice) cfg) with ⟨_, _, _, h, _⟩ | ⟨h, _, h2⟩
    · rw [h]; decide
    · rw [h2]
      have h3 := (c80_slice v h ((parseHeader : P Slice Header) (Parser.new (⟨addr, data⟩ : Slice) cfg)).st).2.1
      have h4 := h.size.isLt
      omega
  refine ⟨⟨?_, fun n hn => ?_⟩, hsum⟩
  · rw [(c80_same v _).1]
    exact c01_record (RepP.slice addr data hw) v hv
  · have := List.le_sum_of_mem hn
    have : Fuzz.limit = 4194304 := rfl
    omega

theorem Fuzz.visitor_total : Fuzz.visitor.Total := fun r _ => by cases r <;> exact .inl ⟨(), rfl⟩

/-- **C81** `fuzz_record_basic`. -/
theorem c81_basic (host : Order) (addr : Nat) (data : List Byte) : Unremarkable (Fuzz.basic host addr data) :=
  (c81_record _ Fuzz.visitor_total addr data _ (ParseConfig.wf_little _ _)).1

/-- **C81** `fuzz_record`: also with an arbitrary configuration. -/
theorem c81_config (host : Order) (addr : Nat) (data : List Byte) : Unremarkable (Fuzz.withConfig host addr data) :=
  (c81_record _ Fuzz.visitor_total _ _ _ (ParseConfig.wf_little _ _)).1

/-- **C81** The function of tests/fuzz.rs: a `perf_event_attr` in front. -/
theorem c81_attr (host : Order) (addr : Nat) (data : List Byte) (o : Out Slice Unit) (h : Fuzz.withAttr host addr data = some o) :
    136 ≤ data.length ∧ Unremarkable o := by
  unfold Fuzz.withAttr at h
  split at h
  · cases h
  · cases h
    exact ⟨by omega, (c81_record _ Fuzz.visitor_total _ _ _ (ParseConfig.wf_native _ _)).1⟩

theorem arbitraryU64_e64 (x : U64) (u : List Byte) : arbitraryU64 (e64 .little x ++ u) = (x, u) := by
  have hl : (e64 .little x).length = 8 := enc_length _ _ _
  unfold arbitraryU64
  rw [List.take_left' hl, List.drop_left' hl]
  have : 8 - (e64 .little x ++ u).length = 0 := by rw [List.length_append, hl]; omega
  rw [this, List.replicate_zero, List.append_nil]
  exact congrArg (·, u) (fromOrder_enc .little 8 x)

/-- **C81** The fuzzer can reach everything: every configuration with every input is tried by some data. -/
theorem c81_reach (host : Order) (addr : Nat) (c : RawParseConfig) (data : List Byte) :
    Fuzz.withConfig host addr (e64 .little c.configFlags ++ (e64 .little c.sampleRegsUser ++ (e64 .little c.sampleRegsIntr ++ data))) =
      Heap.record Fuzz.visitor (Parser.new ⟨addr + 24, data⟩ ⟨c, .little host, host⟩) := by
  unfold Fuzz.withConfig ParseConfig.arbitrary RawParseConfig.arbitrary
  simp only [arbitraryU64_e64]
  have hl : ∀ x, (e64 .little x).length = 8 := fun _ => enc_length _ _ _
  simp only [List.length_append, hl]
  have : addr + (8 + (8 + (8 + data.length)) - data.length) = addr + 24 := by omega
  rw [this]

/-- The fields of a structure the kernel would write (`kattrFull`: the layout of linux/perf_event.h, written down independently). -/
theorem Attr.ofMemory_kattr (o : Order) (a : Attr) (n : Nat) (r2 : U16) (r3 : U32) :
    Attr.ofMemory o (kattrFull o a n r2 r3) = { a with size := BitVec.ofNat 32 n } := by
  have h8 : ∀ x, (e64 o x).length = 8 := fun _ => enc_length _ _ _
  have h4 : ∀ x, (e32 o x).length = 4 := fun _ => enc_length _ _ _
  have h2 : ∀ x, (e16 o x).length = 2 := fun _ => enc_length _ _ _
  have f8 : ∀ x : U64, fromOrder o 64 (e64 o x) = x := fun x => fromOrder_enc o 8 x
  have f4 : ∀ x : U32, fromOrder o 32 (e32 o x) = x := fun x => fromOrder_enc o 4 x
  have f2 : ∀ x : U16, fromOrder o 16 (e16 o x) = x := fun x => fromOrder_enc o 2 x
  simp [Attr.ofMemory, kattrFull, kattrFirst, List.append_assoc, List.drop_append, h8, h4, h2, f8, f4, f2,
    List.drop_of_length_le, List.take_of_length_le]

/-- **C81** And every `perf_event_attr`. -/
theorem c81_attr_reach (host : Order) (addr : Nat) (a : Attr) (r2 : U16) (r3 : U32) (data : List Byte) :
    Fuzz.withAttr host addr (kattrFull host a a.size.toNat r2 r3 ++ data) =
      some (Heap.record Fuzz.visitor (Parser.new ⟨addr + 136, data⟩ (.ofAttr (.native host) host a))) := by
  have hl : (kattrFull host a a.size.toNat r2 r3).length = 136 := by
    simp [kattrFull, kattrFirst, e64, e32, e16, enc_length]
  unfold Fuzz.withAttr
  rw [if_neg (by rw [List.length_append, hl]; omega), List.take_left' hl, List.drop_left' hl, Attr.ofMemory_kattr]
  simp

/-- A record of type 9 (SAMPLE) with a configuration of all ones, and eight bytes of body. -/
example : (Fuzz.withConfig .little 0 (List.replicate 24 0xff#8 ++ [9, 0, 0, 0, 0, 0, 16, 0, 1, 2, 3, 4, 5, 6, 7, 8])).log = [48] ∧
    (Fuzz.withConfig .little 0 []).log = [] := by decide +kernel
/-- Too short for a `perf_event_attr`. -/
example : (Fuzz.withAttr .little 0 [1, 2, 3]).isNone = true := by decide +kernel
/-- A NAMESPACES record announcing 2^60 entries, after 136 bytes for the attr. -/
example : ((Fuzz.withAttr .big 0 (List.replicate 136 0#8 ++ demoHuge)).map fun o => o.log) = some [48, 48] := by decide +kernel

end Perf
