import Verif.Model.Heap
import Verif.Proof.Memory
/-!
# The parser with every request for memory, against the parser

A relation between the two readings of the parser functions that holds for the primitive operations and is kept by
sequencing holds for every record body (`Kin.body`).
-/
namespace Perf
variable {β : Type} [ParseBuf β]

/-- `R` relates the primitive operations of the two readings and is kept by sequencing. Slices occur with three types of
element only, and the two byte strings of a `TextPoke` are the only ones split. -/
structure Kin (R : {α : Type} → Heap β α → P β α → Prop) : Prop where
  pure : ∀ {α : Type} (a : α), R (Pure.pure a) (Pure.pure a)
  bind : ∀ {α α' : Type} {m : Heap β α} {m' : P β α} {k : α → Heap β α'} {k' : α → P β α'},
    R m m' → (∀ a, R (k a) (k' a)) → R (m >>= k) (m' >>= k')
  fail : ∀ {α : Type} (e : ParseError), R (ParserM.fail e : Heap β α) (ParserM.fail e)
  config : R P.config P.config
  array : ∀ n, R (P.array n) (P.array n)
  bytes : ∀ n, R (Heap.bytes n) (P.bytes n)
  rest : R Heap.rest P.rest
  padded : ∀ {α : Type} {m : Heap β α} {m' : P β α}, R m m' → R (P.padded 8 m) (P.padded 8 m')
  words : ∀ n, R (Heap.slice U64.elem (parseU64 : P β U64) n) (P.slice U64.elem parseU64 n)
  entries : ∀ n, R (Heap.slice NamespaceEntry.elem (parseNamespaceEntry : P β NamespaceEntry) n)
    (P.slice NamespaceEntry.elem parseNamespaceEntry n)
  branches : ∀ n, R (Heap.slice BranchEntry.elem (parseBranchEntry : P β BranchEntry) n)
    (P.slice BranchEntry.elem parseBranchEntry n)
  textPoke : R (parseTextPoke : Heap β (TextPoke Cow)) (parseTextPoke : P β (TextPoke Cow))

namespace Kin
variable {R : {α : Type} → Heap β α → P β α → Prop} (h : Kin R)

omit [ParseBuf β] in
theorem ite {R : {α : Type} → Heap β α → P β α → Prop} {α : Type} {c : Prop} [Decidable c] {a b : Heap β α} {a' b' : P β α}
    (h1 : R a a') (h2 : R b b') : R (if c then a else b) (if c then a' else b') := by
  split
  · exact h1
  · exact h2

include h

theorem restTrimNul : R (Heap.restTrimNul) (P.restTrimNul) := h.bind h.rest fun _ => h.pure _
theorem u8 : R (parseU8 : Heap β U8) (parseU8 : P β U8) := h.bind (h.array 1) fun _ => h.pure _
theorem u16 : R (parseU16 : Heap β U16) (parseU16 : P β U16) := h.bind (h.array 2) fun _ => h.bind h.config fun _ => h.pure _
theorem u32 : R (parseU32 : Heap β U32) (parseU32 : P β U32) := h.bind (h.array 4) fun _ => h.bind h.config fun _ => h.pure _
theorem u64 : R (parseU64 : Heap β U64) (parseU64 : P β U64) := h.bind (h.array 8) fun _ => h.bind h.config fun _ => h.pure _
theorem parseIf {α : Type} {m : Heap β α} {m' : P β α} (c : Bool) (hm : R m m') : R (Perf.parseIf c m) (Perf.parseIf c m') := by
  cases c with
  | true => exact h.bind hm fun _ => h.pure _
  | false => exact h.pure _

/-- One step of a parser. -/
syntax "kin_leaf" term : tactic
macro_rules | `(tactic| kin_leaf $h) => `(tactic| first
  | exact Kin.u64 $h | exact Kin.u32 $h | exact Kin.u16 $h | exact Kin.u8 $h
  | exact Kin.config $h
  | (with_reducible refine Kin.parseIf $h _ ?_; kin_leaf $h; done)
  | (with_reducible refine Kin.padded $h ?_; kin_leaf $h; done)
  | exact Kin.array $h _ | exact Kin.bytes $h _ | exact Kin.rest $h | exact Kin.restTrimNul $h)

/-- Walk through a `do` block on both sides. -/
macro "kin" h:term : tactic => `(tactic| repeat' (first
  | exact Kin.fail $h _
  | exact Kin.pure $h _
  | kin_leaf $h
  | refine Kin.bind $h (by kin_leaf $h) (fun _ => ?_)
  | refine Kin.ite ?_ ?_))

theorem mmap : R (parseMmap : Heap β (Mmap Cow)) (parseMmap : P β (Mmap Cow)) := by unfold parseMmap; kin h
theorem lost : R (parseLost : Heap β Lost) (parseLost : P β Lost) := by unfold parseLost; kin h
theorem comm : R (parseComm : Heap β (Comm Cow)) (parseComm : P β (Comm Cow)) := by unfold parseComm; kin h
theorem exit : R (parseExit : Heap β Exit) (parseExit : P β Exit) := by unfold parseExit; kin h
theorem throttle : R (parseThrottle : Heap β Throttle) (parseThrottle : P β Throttle) := by unfold parseThrottle; kin h
theorem mmapDetail : R (parseMmapDetail : Heap β MmapDetail) (parseMmapDetail : P β MmapDetail) := by unfold parseMmapDetail; kin h
macro_rules | `(tactic| kin_leaf $h) => `(tactic| exact Kin.mmapDetail $h)
theorem mmap2 : R (parseMmap2 : Heap β (Mmap2 Cow)) (parseMmap2 : P β (Mmap2 Cow)) := by unfold parseMmap2; kin h
theorem aux : R (parseAux : Heap β Aux) (parseAux : P β Aux) := by unfold parseAux; kin h
theorem itraceStart : R (parseITraceStart : Heap β ITraceStart) (parseITraceStart : P β ITraceStart) := by unfold parseITraceStart; kin h
theorem lostSamples : R (parseLostSamples : Heap β LostSamples) (parseLostSamples : P β LostSamples) := by unfold parseLostSamples; kin h
theorem switchCpuWide : R (parseSwitchCpuWide : Heap β SwitchCpuWide) (parseSwitchCpuWide : P β SwitchCpuWide) := by
  unfold parseSwitchCpuWide; kin h
theorem namespaceEntry : R (parseNamespaceEntry : Heap β NamespaceEntry) (parseNamespaceEntry : P β NamespaceEntry) := by
  unfold parseNamespaceEntry; kin h
macro_rules | `(tactic| kin_leaf $h) => `(tactic| exact Kin.namespaceEntry $h)
theorem namespaces : R (parseNamespaces : Heap β (Namespaces Cow)) (parseNamespaces : P β (Namespaces Cow)) := by
  unfold parseNamespaces
  exact h.bind h.u32 fun _ => h.bind h.u32 fun _ => h.bind h.u64 fun _ => h.bind (h.entries _) fun _ => h.pure _
theorem ksymbol : R (parseKSymbol : Heap β (KSymbol Cow)) (parseKSymbol : P β (KSymbol Cow)) := by unfold parseKSymbol; kin h
theorem bpfEvent : R (parseBpfEvent : Heap β BpfEvent) (parseBpfEvent : P β BpfEvent) := by unfold parseBpfEvent; kin h
theorem cgroup : R (parseCGroup : Heap β (CGroup Cow)) (parseCGroup : P β (CGroup Cow)) := by unfold parseCGroup; kin h
theorem auxOutputHwId : R (parseAuxOutputHwId : Heap β AuxOutputHwId) (parseAuxOutputHwId : P β AuxOutputHwId) := by
  unfold parseAuxOutputHwId; kin h
theorem cpu : R (parseCpu : Heap β U32) (parseCpu : P β U32) := by unfold parseCpu; kin h
macro_rules | `(tactic| kin_leaf $h) => `(tactic| exact Kin.cpu $h)
theorem sampleId : R (parseSampleId : Heap β SampleId) (parseSampleId : P β SampleId) := by unfold parseSampleId; kin h
theorem readValue : R (parseReadValue : Heap β ReadValue) (parseReadValue : P β ReadValue) := by unfold parseReadValue; kin h
macro_rules | `(tactic| kin_leaf $h) => `(tactic| exact Kin.readValue $h)
theorem readGroup : R (parseReadGroup : Heap β (ReadGroup Cow)) (parseReadGroup : P β (ReadGroup Cow)) := by
  unfold parseReadGroup
  exact h.bind h.config fun _ => Kin.ite (h.fail _) (Kin.ite (h.fail _) (h.bind h.u64 fun _ =>
    h.bind (h.parseIf _ h.u64) fun _ => h.bind (h.parseIf _ h.u64) fun _ => Kin.ite (h.fail _)
    (h.bind (h.words _) fun _ => h.pure _)))
theorem read : R (parseRead : Heap β Read) (parseRead : P β Read) := by unfold parseRead; kin h
macro_rules | `(tactic| kin_leaf $h) => `(tactic| exact Kin.readGroup $h)
theorem branchEntry : R (parseBranchEntry : Heap β BranchEntry) (parseBranchEntry : P β BranchEntry) := by unfold parseBranchEntry; kin h
macro_rules | `(tactic| kin_leaf $h) => `(tactic| exact Kin.branchEntry $h)
theorem registers (mask : U64) : R (parseRegisters mask : Heap β (Registers Cow)) (parseRegisters mask : P β (Registers Cow)) := by
  unfold parseRegisters
  exact h.bind h.u64 fun _ => h.bind (h.words _) fun _ => h.pure _
macro_rules | `(tactic| kin_leaf $h) => `(tactic| exact Kin.registers $h _)
theorem registersUser : R (parseRegistersUser : Heap β (Registers Cow)) (parseRegistersUser : P β (Registers Cow)) := by
  exact h.bind h.config fun _ => h.registers _
theorem registersIntr : R (parseRegistersIntr : Heap β (Registers Cow)) (parseRegistersIntr : P β (Registers Cow)) := by
  exact h.bind h.config fun _ => h.registers _
theorem values : R (parseValues : Heap β (ReadGroup Cow)) (parseValues : P β (ReadGroup Cow)) := by
  unfold parseValues
  refine h.bind h.config fun _ => Kin.ite h.readGroup (h.bind h.readValue fun v => ?_)
  exact h.pure _
theorem callchain : R (parseCallchain : Heap β (Cow U64)) (parseCallchain : P β (Cow U64)) := by
  unfold parseCallchain
  exact h.bind h.u64 fun _ => h.words _
theorem rawInner : R (parseRawInner : Heap β (Cow Byte)) (parseRawInner : P β (Cow Byte)) := by unfold parseRawInner; kin h
theorem lbr (b : Bool) : R (parseLbr b : Heap β (Cow BranchEntry × Option U64)) (parseLbr b : P β (Cow BranchEntry × Option U64)) := by
  unfold parseLbr
  exact h.bind h.u64 fun _ => h.bind (h.parseIf _ h.u64) fun _ => h.bind (h.branches _) fun _ => h.pure _
theorem dynSize (s : U64) : R (parseDynSize s : Heap β U64) (parseDynSize s : P β U64) := by unfold parseDynSize; kin h
macro_rules | `(tactic| kin_leaf $h) => `(tactic| exact Kin.dynSize $h _)
theorem stackUser : R (parseStackUser : Heap β (Cow Byte)) (parseStackUser : P β (Cow Byte)) := by
  unfold parseStackUser
  refine h.bind h.u64 fun _ => h.bind (h.bytes _) fun _ => h.bind (h.dynSize _) fun _ => Kin.ite (h.fail _) (h.pure _)
theorem auxData : R (parseAuxData : Heap β (Cow Byte)) (parseAuxData : P β (Cow Byte)) := by unfold parseAuxData; kin h
theorem sample : R (parseSample : Heap β (Sample Cow)) (parseSample : P β (Sample Cow)) := by
  unfold parseSample
  refine h.bind h.config fun cfg => ?_
  iterate 7 refine h.bind (h.parseIf _ (by first | exact h.u64 | exact h.u32)) fun _ => ?_
  refine h.bind (h.parseIf _ h.u64) fun _ => h.bind (h.parseIf _ h.cpu) fun _ => h.bind (h.parseIf _ h.u64) fun _ => ?_
  refine h.bind (h.parseIf _ h.values) fun _ => h.bind (h.parseIf _ h.callchain) fun _ => ?_
  refine h.bind (h.parseIf _ (h.padded h.rawInner)) fun _ => h.bind (h.parseIf _ (h.lbr _)) fun _ => ?_
  refine h.bind (h.parseIf _ h.registersUser) fun _ => h.bind (h.parseIf _ h.stackUser) fun _ => ?_
  iterate 3 refine h.bind (h.parseIf _ h.u64) fun _ => ?_
  refine h.bind (h.parseIf _ h.registersIntr) fun _ => ?_
  iterate 4 refine h.bind (h.parseIf _ h.u64) fun _ => ?_
  exact h.bind (h.parseIf _ h.auxData) fun _ => h.pure _
theorem header : R (parseHeader : Heap β Header) (parseHeader : P β Header) := by unfold parseHeader; kin h

theorem body (ty : U32) : R (parseBody ty : Heap β (Record Cow)) (parseBody ty : P β (Record Cow)) := by
  unfold parseBody
  split
  · exact h.bind h.mmap fun _ => h.pure _
  · exact h.bind h.lost fun _ => h.pure _
  · exact h.bind h.comm fun _ => h.pure _
  · exact h.bind h.exit fun _ => h.pure _
  · exact h.bind h.throttle fun _ => h.pure _
  · exact h.bind h.throttle fun _ => h.pure _
  · exact h.bind h.exit fun _ => h.pure _
  · exact h.bind h.read fun _ => h.pure _
  · exact h.bind h.sample fun _ => h.pure _
  · exact h.bind h.mmap2 fun _ => h.pure _
  · exact h.bind h.aux fun _ => h.pure _
  · exact h.bind h.itraceStart fun _ => h.pure _
  · exact h.bind h.lostSamples fun _ => h.pure _
  · exact h.bind h.switchCpuWide fun _ => h.pure _
  · exact h.bind h.namespaces fun _ => h.pure _
  · exact h.bind h.ksymbol fun _ => h.pure _
  · exact h.bind h.bpfEvent fun _ => h.pure _
  · exact h.bind h.cgroup fun _ => h.pure _
  · exact h.bind h.textPoke fun _ => h.pure _
  · exact h.bind h.auxOutputHwId fun _ => h.pure _
  · exact h.bind h.rest fun _ => h.pure _

end Kin
end Perf
