import Verif.Spec.Record
/-!
# Relations between runs on two buffers

A relation between parser functions over two buffer types that holds for the primitive operations and is kept by
sequencing holds for every record parser (`Closed.body`).
-/
namespace Perf
variable {β γ : Type} [ParseBuf β] [ParseBuf γ]

/-- An error other than the end of the input: what the record parsers themselves report. -/
def Fault.Own (e : Fault) : Prop := ∀ x, e = .err x → x.kind ≠ .eof

theorem ParseError.custom_kind (k : ErrorKind) (m : String) : (ParseError.custom k m).kind = k := rfl

/-- `R` relates the primitive operations of the two parsers and is kept by sequencing. -/
structure Closed (R : {α : Type} → P β α → P γ α → Prop) : Prop where
  pure : ∀ {α : Type} (a : α), R (Pure.pure a) (Pure.pure a)
  bind : ∀ {α α' : Type} {m : P β α} {m' : P γ α} {k : α → P β α'} {k' : α → P γ α'},
    R m m' → (∀ a, R (k a) (k' a)) → R (m >>= k) (m' >>= k')
  fault : ∀ {α : Type} (e : Fault), e.Own → R (P.fault e : P β α) (P.fault e)
  config : R P.config P.config
  array : ∀ n, R (P.array n) (P.array n)
  bytes : ∀ n, R (P.bytes n) (P.bytes n)
  rest : R P.rest P.rest
  padded : ∀ {α : Type} {m : P β α} {m' : P γ α} (n : Nat), R m m' → R (P.padded n m) (P.padded n m')
  slice : ∀ {T : Type} {m : P β T} {m' : P γ T} (e : Elem T) (n : Nat), R m m' → R (P.slice e m n) (P.slice e m' n)

namespace Closed
variable {R : {α : Type} → P β α → P γ α → Prop} (h : Closed R)
include h

theorem fail {α : Type} (e : ParseError) (he : e.kind ≠ .eof) : R (ParserM.fail e : P β α) (ParserM.fail e) :=
  h.fault _ fun x hx => by cases hx; exact he
omit [ParseBuf β] [ParseBuf γ] h in
theorem ite {R : {α : Type} → P β α → P γ α → Prop} {α : Type} {c : Prop} [Decidable c] {a b : P β α} {a' b' : P γ α} (h1 : R a a') (h2 : R b b') :
    R (if c then a else b) (if c then a' else b') := by
  split
  · exact h1
  · exact h2
theorem restTrimNul : R (P.restTrimNul) (P.restTrimNul) := h.bind h.rest fun _ => h.pure _
theorem cowSplitAt {T : Type} (c : Cow T) (n : Nat) :
    R (ParserM.cowSplitAt c n : P β (Cow T × Cow T)) (ParserM.cowSplitAt c n) := by
  show R (match c.splitAt n with | some r => Pure.pure r | none => P.fault .panic) (match c.splitAt n with | some r => Pure.pure r | none => P.fault .panic)
  cases c.splitAt n with
  | none => exact h.fault _ nofun
  | some r => exact h.pure _
theorem u8 : R (parseU8 : P β U8) parseU8 := h.bind (h.array 1) fun _ => h.pure _
theorem u16 : R (parseU16 : P β U16) parseU16 := h.bind (h.array 2) fun _ => h.bind h.config fun _ => h.pure _
theorem u32 : R (parseU32 : P β U32) parseU32 := h.bind (h.array 4) fun _ => h.bind h.config fun _ => h.pure _
theorem u64 : R (parseU64 : P β U64) parseU64 := h.bind (h.array 8) fun _ => h.bind h.config fun _ => h.pure _
theorem parseIf {α : Type} {m : P β α} {m' : P γ α} (c : Bool) (hm : R m m') : R (Perf.parseIf c m) (Perf.parseIf c m') := by
  cases c with
  | true => exact h.bind hm fun _ => h.pure _
  | false => exact h.pure _

/-- One step of a parser. -/
syntax "closed_leaf" term : tactic
macro_rules | `(tactic| closed_leaf $h) => `(tactic| first
  | exact Closed.u64 $h | exact Closed.u32 $h | exact Closed.u16 $h | exact Closed.u8 $h
  | exact Closed.config $h
  | (with_reducible refine Closed.parseIf $h _ ?_; closed_leaf $h; done)
  | (with_reducible refine Closed.padded $h _ ?_; closed_leaf $h; done)
  | (refine Closed.slice $h _ _ ?_; closed_leaf $h; done)
  | exact Closed.array $h _ | exact Closed.bytes $h _ | exact Closed.rest $h | exact Closed.restTrimNul $h
  | exact Closed.cowSplitAt $h _ _)

/-- Walk through a `do` block on both sides. -/
macro "closed" h:term : tactic => `(tactic| repeat' (first
  | exact Closed.fail $h _ (by rw [ParseError.custom_kind]; decide)
  | exact Closed.pure $h _
  | closed_leaf $h
  | refine Closed.bind $h (by closed_leaf $h) (fun _ => ?_)
  | refine Closed.ite ?_ ?_))

theorem mmap : R (parseMmap : P β (Mmap Cow)) parseMmap := by unfold parseMmap; closed h
theorem lost : R (parseLost : P β Lost) parseLost := by unfold parseLost; closed h
theorem comm : R (parseComm : P β (Comm Cow)) parseComm := by unfold parseComm; closed h
theorem exit : R (parseExit : P β Exit) parseExit := by unfold parseExit; closed h
theorem throttle : R (parseThrottle : P β Throttle) parseThrottle := by unfold parseThrottle; closed h
theorem mmapDetail : R (parseMmapDetail : P β MmapDetail) parseMmapDetail := by unfold parseMmapDetail; closed h
macro_rules | `(tactic| closed_leaf $h) => `(tactic| exact Closed.mmapDetail $h)
theorem mmap2 : R (parseMmap2 : P β (Mmap2 Cow)) parseMmap2 := by unfold parseMmap2; closed h
theorem aux : R (parseAux : P β Aux) parseAux := by unfold parseAux; closed h
theorem itraceStart : R (parseITraceStart : P β ITraceStart) parseITraceStart := by unfold parseITraceStart; closed h
theorem lostSamples : R (parseLostSamples : P β LostSamples) parseLostSamples := by unfold parseLostSamples; closed h
theorem switchCpuWide : R (parseSwitchCpuWide : P β SwitchCpuWide) parseSwitchCpuWide := by
  unfold parseSwitchCpuWide; closed h
theorem namespaceEntry : R (parseNamespaceEntry : P β NamespaceEntry) parseNamespaceEntry := by
  unfold parseNamespaceEntry; closed h
macro_rules | `(tactic| closed_leaf $h) => `(tactic| exact Closed.namespaceEntry $h)
theorem namespaces : R (parseNamespaces : P β (Namespaces Cow)) parseNamespaces := by unfold parseNamespaces; closed h
theorem ksymbol : R (parseKSymbol : P β (KSymbol Cow)) parseKSymbol := by unfold parseKSymbol; closed h
theorem bpfEvent : R (parseBpfEvent : P β BpfEvent) parseBpfEvent := by unfold parseBpfEvent; closed h
theorem cgroup : R (parseCGroup : P β (CGroup Cow)) parseCGroup := by unfold parseCGroup; closed h
theorem textPoke : R (parseTextPoke : P β (TextPoke Cow)) parseTextPoke := by unfold parseTextPoke; closed h
theorem auxOutputHwId : R (parseAuxOutputHwId : P β AuxOutputHwId) parseAuxOutputHwId := by
  unfold parseAuxOutputHwId; closed h
theorem cpu : R (parseCpu : P β U32) parseCpu := by unfold parseCpu; closed h
macro_rules | `(tactic| closed_leaf $h) => `(tactic| exact Closed.cpu $h)
theorem sampleId : R (parseSampleId : P β SampleId) parseSampleId := by unfold parseSampleId; closed h
theorem readValue : R (parseReadValue : P β ReadValue) parseReadValue := by unfold parseReadValue; closed h
macro_rules | `(tactic| closed_leaf $h) => `(tactic| exact Closed.readValue $h)
theorem readGroup : R (parseReadGroup : P β (ReadGroup Cow)) parseReadGroup := by unfold parseReadGroup; closed h
theorem read : R (parseRead : P β Read) parseRead := by unfold parseRead; closed h
macro_rules | `(tactic| closed_leaf $h) => `(tactic| exact Closed.readGroup $h)
theorem branchEntry : R (parseBranchEntry : P β BranchEntry) parseBranchEntry := by unfold parseBranchEntry; closed h
macro_rules | `(tactic| closed_leaf $h) => `(tactic| exact Closed.branchEntry $h)
theorem registers (mask : U64) : R (parseRegisters mask : P β (Registers Cow)) (parseRegisters mask) := by
  unfold parseRegisters; closed h
macro_rules | `(tactic| closed_leaf $h) => `(tactic| exact Closed.registers $h _)
theorem registersUser : R (parseRegistersUser : P β (Registers Cow)) parseRegistersUser := by
  exact h.bind h.config fun _ => h.registers _
theorem registersIntr : R (parseRegistersIntr : P β (Registers Cow)) parseRegistersIntr := by
  exact h.bind h.config fun _ => h.registers _
theorem values : R (parseValues : P β (ReadGroup Cow)) parseValues := by
  unfold parseValues
  refine h.bind h.config fun _ => Closed.ite h.readGroup (h.bind h.readValue fun v => ?_)
  exact h.pure _
theorem callchain : R (parseCallchain : P β (Cow U64)) parseCallchain := by unfold parseCallchain; closed h
theorem rawInner : R (parseRawInner : P β (Cow Byte)) parseRawInner := by unfold parseRawInner; closed h
theorem lbr (b : Bool) : R (parseLbr b : P β (Cow BranchEntry × Option U64)) (parseLbr b) := by unfold parseLbr; closed h
theorem dynSize (s : U64) : R (parseDynSize s : P β U64) (parseDynSize s) := by unfold parseDynSize; closed h
macro_rules | `(tactic| closed_leaf $h) => `(tactic| exact Closed.dynSize $h _)
theorem stackUser : R (parseStackUser : P β (Cow Byte)) parseStackUser := by
  unfold parseStackUser
  refine h.bind h.u64 fun _ => h.bind (h.bytes _) fun _ => h.bind (h.dynSize _) fun _ => Closed.ite (h.fail _ (by rw [ParseError.custom_kind]; decide)) (h.pure _)
theorem auxData : R (parseAuxData : P β (Cow Byte)) parseAuxData := by unfold parseAuxData; closed h
theorem sample : R (parseSample : P β (Sample Cow)) parseSample := by
  unfold parseSample
  refine h.bind h.config fun cfg => ?_
  iterate 7 refine h.bind (h.parseIf _ (by first | exact h.u64 | exact h.u32)) fun _ => ?_
  refine h.bind (h.parseIf _ h.u64) fun _ => h.bind (h.parseIf _ h.cpu) fun _ => h.bind (h.parseIf _ h.u64) fun _ => ?_
  refine h.bind (h.parseIf _ h.values) fun _ => h.bind (h.parseIf _ h.callchain) fun _ => ?_
  refine h.bind (h.parseIf _ (h.padded 8 h.rawInner)) fun _ => h.bind (h.parseIf _ (h.lbr _)) fun _ => ?_
  refine h.bind (h.parseIf _ h.registersUser) fun _ => h.bind (h.parseIf _ h.stackUser) fun _ => ?_
  iterate 3 refine h.bind (h.parseIf _ h.u64) fun _ => ?_
  refine h.bind (h.parseIf _ h.registersIntr) fun _ => ?_
  iterate 4 refine h.bind (h.parseIf _ h.u64) fun _ => ?_
  exact h.bind (h.parseIf _ h.auxData) fun _ => h.pure _
theorem header : R (parseHeader : P β Header) parseHeader := by unfold parseHeader; closed h

theorem body (ty : U32) : R (parseBody ty : P β (Record Cow)) (parseBody ty) := by
  unfold parseBody
  split
  · exact h.bind h.mmap fun _ => h.pure _
  · exact h.bind h.lost fun _ => h.pure _
  · exact h.bind h.comm fun _ => h.pure _
  · exact h.bind h.exit fun _ => h.pure _
  · exact h.bind h.throttle fun _ => h.pure _
  · exact h.bind h.throttle fun _ => h.pure _
  · exact h.bind h.exit fun _ => h.pure _
  · exact h.bind h.read fun _ => h.pure _
  · exact h.bind h.sample fun _ => h.pure _
  · exact h.bind h.mmap2 fun _ => h.pure _
  · exact h.bind h.aux fun _ => h.pure _
  · exact h.bind h.itraceStart fun _ => h.pure _
  · exact h.bind h.lostSamples fun _ => h.pure _
  · exact h.bind h.switchCpuWide fun _ => h.pure _
  · exact h.bind h.namespaces fun _ => h.pure _
  · exact h.bind h.ksymbol fun _ => h.pure _
  · exact h.bind h.bpfEvent fun _ => h.pure _
  · exact h.bind h.cgroup fun _ => h.pure _
  · exact h.bind h.textPoke fun _ => h.pure _
  · exact h.bind h.auxOutputHwId fun _ => h.pure _
  · exact h.bind h.rest fun _ => h.pure _

end Closed
end Perf
