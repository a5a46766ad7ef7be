import Verif.Proof.Rel
/-!
# Predicates on parsers

A predicate that holds for the primitive operations and is kept by sequencing holds for every record parser, in any
reading of the parsers (`ParserM`).
-/
namespace Perf
variable {M : Type → Type} {C : Type → Type} [ParserM M C]

/-- `R` holds for the primitive operations and is kept by sequencing. -/
structure Kept (R : {α : Type} → M α → Prop) : Prop where
  pure : ∀ {α : Type} (a : α), R (Pure.pure a)
  bind : ∀ {α α' : Type} {m : M α} {k : α → M α'}, R m → (∀ a, R (k a)) → R (m >>= k)
  fail : ∀ {α : Type} (e : ParseError), R (ParserM.fail e : M α)
  config : R (ParserM.config : M ParseConfig)
  array : ∀ n, R (ParserM.array n : M (List Byte))
  bytes : ∀ n, R (ParserM.bytes n : M (C Byte))
  rest : R (ParserM.rest : M (C Byte))
  restTrimNul : R (ParserM.restTrimNul : M (C Byte))
  padded : ∀ {α : Type} {m : M α}, R m → R (ParserM.padded 8 m)
  slice : ∀ {T : Type} {m : M T} (e : Elem T) (n : Nat), R m → R (ParserM.slice e m n)
  textPoke : R (parseTextPoke : M (TextPoke C))

namespace Kept
variable {R : {α : Type} → M α → Prop} (h : Kept (M := M) (C := C) R)

omit [ParserM M C] in
theorem ite {R : {α : Type} → M α → Prop} {α : Type} {c : Prop} [Decidable c] {a b : M α} (h1 : R a) (h2 : R b) :
    R (if c then a else b) := by
  split
  · exact h1
  · exact h2

include h

theorem u8 : R (parseU8 : M U8) := h.bind (h.array 1) fun _ => h.pure _
theorem u16 : R (parseU16 : M U16) := h.bind (h.array 2) fun _ => h.bind h.config fun _ => h.pure _
theorem u32 : R (parseU32 : M U32) := h.bind (h.array 4) fun _ => h.bind h.config fun _ => h.pure _
theorem u64 : R (parseU64 : M U64) := h.bind (h.array 8) fun _ => h.bind h.config fun _ => h.pure _
theorem parseIf {α : Type} {m : M α} (c : Bool) (hm : R m) : R (Perf.parseIf c m) := by
  cases c with
  | true => exact h.bind hm fun _ => h.pure _
  | false => exact h.pure _

/-- One step of a parser. -/
syntax "kept_leaf" term : tactic
macro_rules | `(tactic| kept_leaf $h) => `(tactic| first
  | exact Kept.u64 $h | exact Kept.u32 $h | exact Kept.u16 $h | exact Kept.u8 $h
  | exact Kept.config $h
  | (with_reducible refine Kept.parseIf $h _ ?_; kept_leaf $h; done)
  | (refine Kept.slice $h _ _ ?_; kept_leaf $h; done)
  | exact Kept.array $h _ | exact Kept.bytes $h _ | exact Kept.rest $h | exact Kept.restTrimNul $h)

/-- Walk through a `do` block. -/
macro "kept" h:term : tactic => `(tactic| repeat' (first
  | exact Kept.fail $h _
  | exact Kept.pure $h _
  | kept_leaf $h
  | refine Kept.bind $h (by kept_leaf $h) (fun _ => ?_)
  | refine Kept.ite ?_ ?_))

theorem mmap : R (parseMmap : M (Mmap C)) := by unfold parseMmap; kept h
theorem lost : R (parseLost : M Lost) := by unfold parseLost; kept h
theorem comm : R (parseComm : M (Comm C)) := by unfold parseComm; kept h
theorem exit : R (parseExit : M Exit) := by unfold parseExit; kept h
theorem throttle : R (parseThrottle : M Throttle) := by unfold parseThrottle; kept h
theorem mmapDetail : R (parseMmapDetail : M MmapDetail) := by unfold parseMmapDetail; kept h
macro_rules | `(tactic| kept_leaf $h) => `(tactic| exact Kept.mmapDetail $h)
theorem mmap2 : R (parseMmap2 : M (Mmap2 C)) := by unfold parseMmap2; kept h
theorem aux : R (parseAux : M Aux) := by unfold parseAux; kept h
theorem itraceStart : R (parseITraceStart : M ITraceStart) := by unfold parseITraceStart; kept h
theorem lostSamples : R (parseLostSamples : M LostSamples) := by unfold parseLostSamples; kept h
theorem switchCpuWide : R (parseSwitchCpuWide : M SwitchCpuWide) := by
  unfold parseSwitchCpuWide; kept h
theorem namespaceEntry : R (parseNamespaceEntry : M NamespaceEntry) := by
  unfold parseNamespaceEntry; kept h
macro_rules | `(tactic| kept_leaf $h) => `(tactic| exact Kept.namespaceEntry $h)
theorem namespaces : R (parseNamespaces : M (Namespaces C)) := by unfold parseNamespaces; kept h
theorem ksymbol : R (parseKSymbol : M (KSymbol C)) := by unfold parseKSymbol; kept h
theorem bpfEvent : R (parseBpfEvent : M BpfEvent) := by unfold parseBpfEvent; kept h
theorem cgroup : R (parseCGroup : M (CGroup C)) := by unfold parseCGroup; kept h
theorem auxOutputHwId : R (parseAuxOutputHwId : M AuxOutputHwId) := by
  unfold parseAuxOutputHwId; kept h
theorem cpu : R (parseCpu : M U32) := by unfold parseCpu; kept h
macro_rules | `(tactic| kept_leaf $h) => `(tactic| exact Kept.cpu $h)
theorem sampleId : R (parseSampleId : M SampleId) := by unfold parseSampleId; kept h
theorem readValue : R (parseReadValue : M ReadValue) := by unfold parseReadValue; kept h
macro_rules | `(tactic| kept_leaf $h) => `(tactic| exact Kept.readValue $h)
theorem readGroup : R (parseReadGroup : M (ReadGroup C)) := by unfold parseReadGroup; kept h
theorem read : R (parseRead : M Read) := by unfold parseRead; kept h
macro_rules | `(tactic| kept_leaf $h) => `(tactic| exact Kept.readGroup $h)
theorem branchEntry : R (parseBranchEntry : M BranchEntry) := by unfold parseBranchEntry; kept h
macro_rules | `(tactic| kept_leaf $h) => `(tactic| exact Kept.branchEntry $h)
theorem registers (mask : U64) : R (parseRegisters mask : M (Registers C)) := by
  unfold parseRegisters; kept h
macro_rules | `(tactic| kept_leaf $h) => `(tactic| exact Kept.registers $h _)
theorem registersUser : R (parseRegistersUser : M (Registers C)) := by
  exact h.bind h.config fun _ => h.registers _
theorem registersIntr : R (parseRegistersIntr : M (Registers C)) := by
  exact h.bind h.config fun _ => h.registers _
theorem values : R (parseValues : M (ReadGroup C)) := by
  unfold parseValues
  refine h.bind h.config fun _ => Kept.ite h.readGroup (h.bind h.readValue fun v => ?_)
  exact h.pure _
theorem callchain : R (parseCallchain : M (C U64)) := by unfold parseCallchain; kept h
theorem rawInner : R (parseRawInner : M (C Byte)) := by unfold parseRawInner; kept h
theorem lbr (b : Bool) : R (parseLbr b : M (C BranchEntry × Option U64)) := by unfold parseLbr; kept h
theorem dynSize (s : U64) : R (parseDynSize s : M U64) := by unfold parseDynSize; kept h
macro_rules | `(tactic| kept_leaf $h) => `(tactic| exact Kept.dynSize $h _)
theorem stackUser : R (parseStackUser : M (C Byte)) := by
  unfold parseStackUser
  refine h.bind h.u64 fun _ => h.bind (h.bytes _) fun _ => h.bind (h.dynSize _) fun _ => Kept.ite (h.fail _) (h.pure _)
theorem auxData : R (parseAuxData : M (C Byte)) := by unfold parseAuxData; kept h
theorem sample : R (parseSample : M (Sample C)) := by
  unfold parseSample
  refine h.bind h.config fun cfg => ?_
  iterate 7 refine h.bind (h.parseIf _ (by first | exact h.u64 | exact h.u32)) fun _ => ?_
  refine h.bind (h.parseIf _ h.u64) fun _ => h.bind (h.parseIf _ h.cpu) fun _ => h.bind (h.parseIf _ h.u64) fun _ => ?_
  refine h.bind (h.parseIf _ h.values) fun _ => h.bind (h.parseIf _ h.callchain) fun _ => ?_
  refine h.bind (h.parseIf _ (h.padded h.rawInner)) fun _ => h.bind (h.parseIf _ (h.lbr _)) fun _ => ?_
  refine h.bind (h.parseIf _ h.registersUser) fun _ => h.bind (h.parseIf _ h.stackUser) fun _ => ?_
  iterate 3 refine h.bind (h.parseIf _ h.u64) fun _ => ?_
  refine h.bind (h.parseIf _ h.registersIntr) fun _ => ?_
  iterate 4 refine h.bind (h.parseIf _ h.u64) fun _ => ?_
  exact h.bind (h.parseIf _ h.auxData) fun _ => h.pure _
theorem header : R (parseHeader : M Header) := by unfold parseHeader; kept h

theorem body (ty : U32) : R (parseBody ty : M (Record C)) := by
  unfold parseBody
  split
  · exact h.bind h.mmap fun _ => h.pure _
  · exact h.bind h.lost fun _ => h.pure _
  · exact h.bind h.comm fun _ => h.pure _
  · exact h.bind h.exit fun _ => h.pure _
  · exact h.bind h.throttle fun _ => h.pure _
  · exact h.bind h.throttle fun _ => h.pure _
  · exact h.bind h.exit fun _ => h.pure _
  · exact h.bind h.read fun _ => h.pure _
  · exact h.bind h.sample fun _ => h.pure _
  · exact h.bind h.mmap2 fun _ => h.pure _
  · exact h.bind h.aux fun _ => h.pure _
  · exact h.bind h.itraceStart fun _ => h.pure _
  · exact h.bind h.lostSamples fun _ => h.pure _
  · exact h.bind h.switchCpuWide fun _ => h.pure _
  · exact h.bind h.namespaces fun _ => h.pure _
  · exact h.bind h.ksymbol fun _ => h.pure _
  · exact h.bind h.bpfEvent fun _ => h.pure _
  · exact h.bind h.cgroup fun _ => h.pure _
  · exact h.bind h.textPoke fun _ => h.pure _
  · exact h.bind h.auxOutputHwId fun _ => h.pure _
  · exact h.bind h.rest fun _ => h.pure _

theorem attrStep {c : Bool} {f : Attr → M Attr} (hf : ∀ a, R (f a)) (a : Attr) : R (Perf.attrStep c f a) := by
  cases c with
  | true => exact hf a
  | false => exact h.pure _

theorem attrHead (t s : U32) : R (Perf.attrHead t s : M Attr) := by
  unfold Perf.attrHead
  refine h.bind (h.attrStep (fun a => by unfold attrVer0; kept h) _) fun _ => ?_
  refine h.bind (h.attrStep (fun a => by unfold attrVer1; kept h) _) fun _ => ?_
  refine h.bind (h.attrStep (fun a => by unfold attrVer2; kept h) _) fun _ => ?_
  refine h.bind (h.attrStep (fun a => by unfold attrVer3; kept h) _) fun _ => ?_
  refine h.bind (h.attrStep (fun a => by unfold attrVer4; kept h) _) fun _ => ?_
  refine h.bind (h.attrStep (fun a => by unfold attrVer5; kept h) _) fun _ => ?_
  refine h.bind (h.attrStep (fun a => by unfold attrVer6; kept h) _) fun _ => ?_
  refine h.bind (h.attrStep (fun a => by unfold attrVer7; kept h) _) fun _ => ?_
  exact h.attrStep (fun a => by unfold attrVer8; kept h) _

theorem attrBody (t s : U32) : R (Perf.attrBody t s : M Attr) :=
  h.bind (h.attrHead t s) fun _ => h.attrStep (fun a => by unfold attrTail; kept h) _

end Kept
end Perf
