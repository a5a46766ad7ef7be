import Verif.Proof.Suits
/-!
# Every record parser of the corrected crate, on any machine, does what its ideal reading says
-/
namespace Perf
variable {w : Platform} {β : Type} [ParseBuf β] [Lawful β] {α α' : Type}
open ParserM

/-! ## Integers -/

theorem Suits.u8 : Suits Eq (parseU8 : MendOn w β U8) (parseU8 : Ideal U8) :=
  Suits.bind (Suits.array 1) fun _ _ h => Suits.pure (by rw [h])
theorem Suits.u16 : Suits Eq (parseU16 : MendOn w β U16) (parseU16 : Ideal U16) :=
  Suits.bind (Suits.array 2) fun _ _ h => Suits.bind Suits.config fun _ _ h' => Suits.pure (by rw [h, h'])
theorem Suits.u32 : Suits Eq (parseU32 : MendOn w β U32) (parseU32 : Ideal U32) :=
  Suits.bind (Suits.array 4) fun _ _ h => Suits.bind Suits.config fun _ _ h' => Suits.pure (by rw [h, h'])
theorem Suits.u64 : Suits Eq (parseU64 : MendOn w β U64) (parseU64 : Ideal U64) :=
  Suits.bind (Suits.array 8) fun _ _ h => Suits.bind Suits.config fun _ _ h' => Suits.pure (by rw [h, h'])

theorem Suits.parseIf_eq {m : MendOn w β α} {s : Ideal α} (c : Bool) (h : Suits Eq m s) :
    Suits Eq (parseIf c m) (parseIf c s) := by
  cases c with
  | true => exact Suits.bind h fun _ _ h => Suits.pure (by rw [h])
  | false => exact Suits.pure rfl

theorem Suits.parseIf_via {g : α → α'} {m : MendOn w β α} {s : Ideal α'} (c : Bool) (h : Suits (Via g) m s) :
    Suits (Via (Option.map g)) (parseIf c m) (parseIf c s) := by
  cases c with
  | true => exact Suits.bind h fun _ _ h => Suits.pure (by rw [← h]; rfl)
  | false => exact Suits.pure rfl

syntax "suits_leaf" : tactic
macro_rules | `(tactic| suits_leaf) => `(tactic| first
  | exact Suits.u64 | exact Suits.u32 | exact Suits.u16 | exact Suits.u8
  | exact Suits.config
  | (with_reducible refine Suits.parseIf_eq _ ?_; suits_leaf; done)
  | (with_reducible refine Suits.parseIf_via _ ?_; suits_leaf; done)
  | exact Suits.array _ | exact Suits.bytes _ | exact Suits.rest | exact Suits.restTrimNul)

/-- Close the goal left at the `pure` at the end. -/
macro "suits_end" : tactic =>
  `(tactic| first | rfl | ((try simp only [HasData, Via] at *); subst_vars; rfl))

/-- Walk through a `do` block on both sides. -/
macro "suits" : tactic => `(tactic| repeat' (first
  | exact Suits.fail _
  | (refine Suits.pure ?_; suits_end; done)
  | suits_leaf
  | refine Suits.bind (by suits_leaf) (fun _ _ h => ?_)
  | refine Suits.ite (fun _ => ?_) (fun _ => ?_)))

theorem Suits.mmap {β : Type} [ParseBuf β] [LawfulEof β] : Suits (Via Mmap.view) (parseMmap : MendOn w β (Mmap Cow)) parseMmap := by
  unfold parseMmap; suits
theorem Suits.lost : Suits Eq (parseLost : MendOn w β Lost) parseLost := by
  unfold parseLost; suits
theorem Suits.comm {β : Type} [ParseBuf β] [LawfulEof β] : Suits (Via Comm.view) (parseComm : MendOn w β (Comm Cow)) parseComm := by
  unfold parseComm; suits
theorem Suits.exit : Suits Eq (parseExit : MendOn w β Exit) parseExit := by
  unfold parseExit; suits
theorem Suits.throttle : Suits Eq (parseThrottle : MendOn w β Throttle) parseThrottle := by
  unfold parseThrottle; suits
theorem Suits.mmapDetail : Suits Eq (parseMmapDetail : MendOn w β MmapDetail) parseMmapDetail := by
  unfold parseMmapDetail
  refine Suits.bind Suits.config fun c _ h => ?_
  subst h
  refine Suits.ite (fun _ => ?_) fun _ => ?_
  · refine Suits.bind Suits.u8 fun _ _ h => ?_
    subst h
    refine Suits.bind Suits.u8 fun _ _ _ => Suits.bind Suits.u16 fun _ _ _ => ?_
    refine Suits.bind (Suits.array 20) fun _ _ h => ?_
    subst h
    suits
  · suits
macro_rules | `(tactic| suits_leaf) => `(tactic| exact Suits.mmapDetail)
theorem Suits.mmap2 {β : Type} [ParseBuf β] [LawfulEof β] : Suits (Via Mmap2.view) (parseMmap2 : MendOn w β (Mmap2 Cow)) parseMmap2 := by
  unfold parseMmap2; suits
theorem Suits.aux : Suits Eq (parseAux : MendOn w β Aux) parseAux := by
  unfold parseAux; suits
theorem Suits.itraceStart : Suits Eq (parseITraceStart : MendOn w β ITraceStart) parseITraceStart := by
  unfold parseITraceStart; suits
theorem Suits.lostSamples : Suits Eq (parseLostSamples : MendOn w β LostSamples) parseLostSamples := by
  unfold parseLostSamples; suits
theorem Suits.switchCpuWide : Suits Eq (parseSwitchCpuWide : MendOn w β SwitchCpuWide) parseSwitchCpuWide := by
  unfold parseSwitchCpuWide
  refine Suits.bind Suits.u32 fun _ _ h => Suits.bind Suits.u32 fun _ _ h' =>
    Suits.bind Suits.config fun _ _ h'' => ?_
  subst h h' h''
  suits
theorem Suits.ksymbol {β : Type} [ParseBuf β] [LawfulEof β] : Suits (Via KSymbol.view) (parseKSymbol : MendOn w β (KSymbol Cow)) parseKSymbol := by
  unfold parseKSymbol; suits
theorem Suits.bpfEvent : Suits Eq (parseBpfEvent : MendOn w β BpfEvent) parseBpfEvent := by
  unfold parseBpfEvent; suits
theorem Suits.cgroup {β : Type} [ParseBuf β] [LawfulEof β] : Suits (Via CGroup.view) (parseCGroup : MendOn w β (CGroup Cow)) parseCGroup := by
  unfold parseCGroup; suits
theorem Suits.auxOutputHwId : Suits Eq (parseAuxOutputHwId : MendOn w β AuxOutputHwId) parseAuxOutputHwId := by
  unfold parseAuxOutputHwId; suits
theorem Suits.header : Suits Eq (parseHeader : MendOn w β Header) parseHeader := by
  unfold parseHeader; suits
theorem Suits.textPoke : Suits (Via TextPoke.view) (parseTextPoke : MendOn w β (TextPoke Cow)) parseTextPoke := by
  unfold parseTextPoke
  refine Suits.bind Suits.u64 fun _ _ h => Suits.bind Suits.u16 fun o _ h1 =>
    Suits.bind Suits.u16 fun n _ h2 => ?_
  subst h h1 h2
  refine Suits.bind (Suits.bytesLen _) fun d l h => Suits.bind (Suits.splitAt h ?_) fun a c h => Suits.pure ?_
  · have := roundUpMod_ge (o.toNat + n.toNat) 4 8
    omega
  obtain ⟨h1, h2⟩ := h
  unfold HasData at h1 h2
  show TextPoke.view _ = _
  unfold TextPoke.view
  simp only [h1, cowTruncate, Cow.truncate_data, h2]

theorem Suits.namespaceEntry : Suits Eq (parseNamespaceEntry : MendOn w β NamespaceEntry) parseNamespaceEntry := by
  unfold parseNamespaceEntry; suits
theorem Suits.branchEntry : Suits Eq (parseBranchEntry : MendOn w β BranchEntry) parseBranchEntry := by
  unfold parseBranchEntry; suits
theorem Suits.u64s (n : Nat) : Suits HasData (ParserM.slice U64.elem parseU64 n : MendOn w β (Cow U64))
    (ParserM.slice U64.elem parseU64 n : Ideal (List U64)) := Suits.slice Suits.u64 IdealItem.u64 n
theorem Suits.entries (n : Nat) :
    Suits HasData (ParserM.slice NamespaceEntry.elem parseNamespaceEntry n : MendOn w β (Cow NamespaceEntry))
      (ParserM.slice NamespaceEntry.elem parseNamespaceEntry n : Ideal (List NamespaceEntry)) :=
  Suits.slice Suits.namespaceEntry IdealItem.namespaceEntry n
theorem Suits.branches (n : Nat) :
    Suits HasData (ParserM.slice BranchEntry.elem parseBranchEntry n : MendOn w β (Cow BranchEntry))
      (ParserM.slice BranchEntry.elem parseBranchEntry n : Ideal (List BranchEntry)) :=
  Suits.slice Suits.branchEntry IdealItem.branchEntry n
theorem Suits.namespaces : Suits (Via Namespaces.view) (parseNamespaces : MendOn w β (Namespaces Cow)) parseNamespaces := by
  unfold parseNamespaces
  refine Suits.bind Suits.u32 fun _ _ h => Suits.bind Suits.u32 fun _ _ h1 =>
    Suits.bind Suits.u64 fun _ _ h2 => ?_
  subst h h1 h2
  exact Suits.bind (Suits.entries _) fun _ _ h => Suits.pure (by suits_end)
theorem Suits.cpu : Suits Eq (parseCpu : MendOn w β U32) parseCpu := by
  unfold parseCpu; suits
macro_rules | `(tactic| suits_leaf) => `(tactic| exact Suits.cpu)
theorem Suits.sampleId : Suits Eq (parseSampleId : MendOn w β SampleId) parseSampleId := by
  unfold parseSampleId
  refine Suits.bind Suits.config fun _ _ h => ?_
  subst h
  suits
theorem Suits.readValue : Suits Eq (parseReadValue : MendOn w β ReadValue) parseReadValue := by
  unfold parseReadValue
  refine Suits.bind Suits.config fun _ _ h => ?_
  subst h
  suits
macro_rules | `(tactic| suits_leaf) => `(tactic| exact Suits.readValue)
theorem Suits.read : Suits Eq (parseRead : MendOn w β Read) parseRead := by
  unfold parseRead; suits
theorem Suits.readGroup : Suits (Via ReadGroup.view) (parseReadGroup : MendOn w β (ReadGroup Cow)) parseReadGroup := by
  unfold parseReadGroup
  refine Suits.bind Suits.config fun _ _ h => ?_
  subst h
  refine Suits.ite (fun _ => Suits.fail _) fun _ => Suits.ite (fun _ => Suits.fail _) fun _ => ?_
  refine Suits.bind Suits.u64 fun _ _ h => ?_
  subst h
  refine Suits.bind (by suits_leaf) fun _ _ h => Suits.bind (by suits_leaf) fun _ _ h' => ?_
  subst h h'
  refine Suits.ite (fun _ => Suits.fail _) fun _ => ?_
  exact Suits.bind (Suits.u64s _) fun _ _ h => Suits.pure (by suits_end)
theorem Suits.regs (abi mask : U64) :
    Suits HasData (mendedRegs abi mask : MendOn w β (Cow U64)) (mendedRegs abi mask : Ideal (List U64)) := by
  unfold mendedRegs
  exact Suits.ite (fun _ => Suits.pure rfl) fun _ => Suits.u64s _
theorem Suits.registers (mask : U64) :
    Suits (Via Registers.view) (mendedRegisters mask : MendOn w β (Registers Cow)) (mendedRegisters mask) := by
  unfold mendedRegisters
  refine Suits.bind Suits.u64 fun _ _ h => ?_
  subst h
  exact Suits.bind (Suits.regs _ _) fun _ _ h' => Suits.pure (by suits_end)
theorem Suits.registersUser :
    Suits (Via Registers.view) (mendedRegistersUser : MendOn w β (Registers Cow)) mendedRegistersUser := by
  unfold mendedRegistersUser
  refine Suits.bind Suits.config fun _ _ h => ?_
  subst h
  exact Suits.registers _
theorem Suits.registersIntr :
    Suits (Via Registers.view) (mendedRegistersIntr : MendOn w β (Registers Cow)) mendedRegistersIntr := by
  unfold mendedRegistersIntr
  refine Suits.bind Suits.config fun _ _ h => ?_
  subst h
  exact Suits.registers _

theorem Suits.values : Suits (Via ReadGroup.view) (parseValues : MendOn w β (ReadGroup Cow)) parseValues := by
  unfold parseValues
  refine Suits.bind Suits.config fun _ _ h => ?_
  subst h
  refine Suits.ite (fun _ => Suits.readGroup) fun _ => ?_
  exact Suits.bind Suits.readValue fun _ _ h => Suits.pure (by subst h; rfl)
theorem Suits.callchain : Suits (Via Cow.data) (parseCallchain : MendOn w β (Cow U64)) parseCallchain := by
  unfold parseCallchain
  refine Suits.bind Suits.u64 fun _ _ h => ?_
  subst h
  exact Suits.u64s _
theorem Suits.rawInner : Suits (Via Cow.data) (parseRawInner : MendOn w β (Cow Byte)) parseRawInner := by
  unfold parseRawInner
  refine Suits.bind Suits.u32 fun _ _ h => ?_
  subst h
  exact Suits.bytes _
theorem Suits.raw : Suits (Via Cow.data) (ParserM.padded 8 parseRawInner : MendOn w β (Cow Byte))
    (ParserM.padded 8 parseRawInner : Ideal (List Byte)) := Suits.padded (by decide) Suits.rawInner
theorem Suits.lbr (b : Bool) : Suits (Via lbrView) (parseLbr b : MendOn w β (Cow BranchEntry × Option U64)) (parseLbr b) := by
  unfold parseLbr
  refine Suits.bind Suits.u64 fun _ _ h => Suits.bind (by suits_leaf) fun _ _ h' => ?_
  subst h h'
  exact Suits.bind (Suits.branches _) fun _ _ h => Suits.pure (by suits_end)
theorem Suits.auxData : Suits (Via Cow.data) (parseAuxData : MendOn w β (Cow Byte)) parseAuxData := by
  unfold parseAuxData
  refine Suits.bind Suits.u64 fun _ _ h => ?_
  subst h
  exact Suits.bytes _
theorem Suits.dynSize (size : U64) : Suits Eq (parseDynSize size : MendOn w β U64) (parseDynSize size) := by
  unfold parseDynSize
  exact Suits.ite (fun _ => Suits.pure rfl) fun _ => Suits.u64
theorem Suits.stackUser : Suits (Via Cow.data) (parseStackUser : MendOn w β (Cow Byte)) parseStackUser := by
  unfold parseStackUser
  refine Suits.bind Suits.u64 fun _ _ h => ?_
  subst h
  refine Suits.bind (Suits.bytes _) fun d l h => ?_
  refine Suits.bind (Suits.dynSize _) fun _ _ h' => ?_
  subst h'
  unfold HasData at h
  subst h
  refine Suits.ite (fun _ => Suits.fail _) fun _ => Suits.pure ?_
  exact Cow.truncate_data _ _
theorem Suits.sample : Suits (Via Sample.view) (mendedSample : MendOn w β (Sample Cow)) mendedSample := by
  unfold mendedSample
  refine Suits.bind Suits.config fun cfg _ h => ?_
  subst h
  refine Suits.bind (Suits.parseIf_eq _ Suits.u64) fun _ _ h0 => ?_
  refine Suits.bind (Suits.parseIf_eq _ Suits.u64) fun _ _ h1 => ?_
  refine Suits.bind (Suits.parseIf_eq _ Suits.u32) fun _ _ h2 => ?_
  refine Suits.bind (Suits.parseIf_eq _ Suits.u32) fun _ _ h3 => ?_
  refine Suits.bind (Suits.parseIf_eq _ Suits.u64) fun _ _ h4 => ?_
  refine Suits.bind (Suits.parseIf_eq _ Suits.u64) fun _ _ h5 => ?_
  refine Suits.bind (Suits.parseIf_eq _ Suits.u64) fun _ _ h6 => ?_
  refine Suits.bind (Suits.parseIf_eq _ Suits.u64) fun _ _ h7 => ?_
  refine Suits.bind (Suits.parseIf_eq _ Suits.cpu) fun _ _ h8 => ?_
  refine Suits.bind (Suits.parseIf_eq _ Suits.u64) fun _ _ h9 => ?_
  refine Suits.bind (Suits.parseIf_via _ Suits.values) fun _ _ h10 => ?_
  refine Suits.bind (Suits.parseIf_via _ Suits.callchain) fun _ _ h11 => ?_
  refine Suits.bind (Suits.parseIf_via _ Suits.raw) fun _ _ h12 => ?_
  refine Suits.bind (Suits.parseIf_via _ (Suits.lbr _)) fun l _ h13 => ?_
  refine Suits.bind (Suits.parseIf_via _ Suits.registersUser) fun _ _ h14 => ?_
  refine Suits.bind (Suits.parseIf_via _ Suits.stackUser) fun _ _ h15 => ?_
  refine Suits.bind (Suits.parseIf_eq _ Suits.u64) fun _ _ h16 => ?_
  refine Suits.bind (Suits.parseIf_eq _ Suits.u64) fun _ _ h17 => ?_
  refine Suits.bind (Suits.parseIf_eq _ Suits.u64) fun _ _ h18 => ?_
  refine Suits.bind (Suits.parseIf_via _ Suits.registersIntr) fun _ _ h19 => ?_
  refine Suits.bind (Suits.parseIf_eq _ Suits.u64) fun _ _ h20 => ?_
  refine Suits.bind (Suits.parseIf_eq _ Suits.u64) fun _ _ h21 => ?_
  refine Suits.bind (Suits.parseIf_eq _ Suits.u64) fun _ _ h22 => ?_
  refine Suits.bind (Suits.parseIf_eq _ Suits.u64) fun _ _ h23 => ?_
  refine Suits.bind (Suits.parseIf_via _ Suits.auxData) fun _ _ h24 => ?_
  refine Suits.pure ?_
  unfold Via at *
  subst_vars
  cases l <;> rfl


theorem Suits.body {β : Type} [ParseBuf β] [LawfulEof β] (ty : U32) :
    Suits (Via Record.view) (mendedBody ty : MendOn w β (Record Cow)) (mendedBody ty : Ideal (Record List)) := by
  unfold mendedBody
  split
  · exact Suits.bind Suits.mmap fun _ _ h => Suits.pure (by subst h; rfl)
  · exact Suits.bind Suits.lost fun _ _ h => Suits.pure (by subst h; rfl)
  · exact Suits.bind Suits.comm fun _ _ h => Suits.pure (by subst h; rfl)
  · exact Suits.bind Suits.exit fun _ _ h => Suits.pure (by subst h; rfl)
  · exact Suits.bind Suits.throttle fun _ _ h => Suits.pure (by subst h; rfl)
  · exact Suits.bind Suits.throttle fun _ _ h => Suits.pure (by subst h; rfl)
  · exact Suits.bind Suits.exit fun _ _ h => Suits.pure (by subst h; rfl)
  · exact Suits.bind Suits.read fun _ _ h => Suits.pure (by subst h; rfl)
  · exact Suits.bind Suits.sample fun _ _ h => Suits.pure (by subst h; rfl)
  · exact Suits.bind Suits.mmap2 fun _ _ h => Suits.pure (by subst h; rfl)
  · exact Suits.bind Suits.aux fun _ _ h => Suits.pure (by subst h; rfl)
  · exact Suits.bind Suits.itraceStart fun _ _ h => Suits.pure (by subst h; rfl)
  · exact Suits.bind Suits.lostSamples fun _ _ h => Suits.pure (by subst h; rfl)
  · exact Suits.pure rfl
  · exact Suits.bind Suits.switchCpuWide fun _ _ h => Suits.pure (by subst h; rfl)
  · exact Suits.bind Suits.namespaces fun _ _ h => Suits.pure (by subst h; rfl)
  · exact Suits.bind Suits.ksymbol fun _ _ h => Suits.pure (by subst h; rfl)
  · exact Suits.bind Suits.bpfEvent fun _ _ h => Suits.pure (by subst h; rfl)
  · exact Suits.bind Suits.cgroup fun _ _ h => Suits.pure (by subst h; rfl)
  · exact Suits.bind Suits.textPoke fun _ _ h => Suits.pure (by subst h; rfl)
  · exact Suits.bind Suits.auxOutputHwId fun _ _ h => Suits.pure (by subst h; rfl)
  · exact Suits.bind Suits.rest fun _ _ h => Suits.pure (by unfold HasData at h; subst h; rfl)

end Perf
