import Verif.Proof.Sure
/-!
# Every record parser, over the corrected operations, does what `Sure` says
-/
namespace Perf
variable {β : Type} [ParseBuf β] [LawfulEof β] {α α' : Type}
open ParserM

/-! ## Integers -/

theorem Sures.u8 : Sures Eq (parseU8 : Mend β U8) (parseU8 : Sure U8) :=
  Sures.bind (Sures.array 1) fun _ _ h => Sures.pure (by rw [h])
theorem Sures.u16 : Sures Eq (parseU16 : Mend β U16) (parseU16 : Sure U16) :=
  Sures.bind (Sures.array 2) fun _ _ h => Sures.bind Sures.config fun _ _ h' => Sures.pure (by rw [h, h'])
theorem Sures.u32 : Sures Eq (parseU32 : Mend β U32) (parseU32 : Sure U32) :=
  Sures.bind (Sures.array 4) fun _ _ h => Sures.bind Sures.config fun _ _ h' => Sures.pure (by rw [h, h'])
theorem Sures.u64 : Sures Eq (parseU64 : Mend β U64) (parseU64 : Sure U64) :=
  Sures.bind (Sures.array 8) fun _ _ h => Sures.bind Sures.config fun _ _ h' => Sures.pure (by rw [h, h'])

theorem Sures.parseIf_eq {m : Mend β α} {s : Sure α} (c : Bool) (h : Sures Eq m s) :
    Sures Eq (parseIf c m) (parseIf c s) := by
  cases c with
  | true => exact Sures.bind h fun _ _ h => Sures.pure (by rw [h])
  | false => exact Sures.pure rfl

theorem Sures.parseIf_via {g : α → α'} {m : Mend β α} {s : Sure α'} (c : Bool) (h : Sures (Via g) m s) :
    Sures (Via (Option.map g)) (parseIf c m) (parseIf c s) := by
  cases c with
  | true => exact Sures.bind h fun _ _ h => Sures.pure (by rw [← h]; rfl)
  | false => exact Sures.pure rfl

syntax "sures_leaf" : tactic
macro_rules | `(tactic| sures_leaf) => `(tactic| first
  | exact Sures.u64 | exact Sures.u32 | exact Sures.u16 | exact Sures.u8
  | exact Sures.config
  | (with_reducible refine Sures.parseIf_eq _ ?_; sures_leaf; done)
  | (with_reducible refine Sures.parseIf_via _ ?_; sures_leaf; done)
  | exact Sures.array _ | exact Sures.bytes _ | exact Sures.rest | exact Sures.restTrimNul)

/-- Close the goal left at the `pure` at the end. -/
macro "sures_end" : tactic =>
  `(tactic| first | rfl | ((try simp only [HasData, Via] at *); subst_vars; rfl))

/-- Walk through a `do` block on both sides. -/
macro "sures" : tactic => `(tactic| repeat' (first
  | exact Sures.fail _
  | (refine Sures.pure ?_; sures_end; done)
  | sures_leaf
  | refine Sures.bind (by sures_leaf) (fun _ _ h => ?_)
  | refine Sures.ite (fun _ => ?_) (fun _ => ?_)))

theorem Sures.mmap : Sures (Via Mmap.view) (parseMmap : Mend β (Mmap Cow)) parseMmap := by
  unfold parseMmap; sures
theorem Sures.lost : Sures Eq (parseLost : Mend β Lost) parseLost := by
  unfold parseLost; sures
theorem Sures.comm : Sures (Via Comm.view) (parseComm : Mend β (Comm Cow)) parseComm := by
  unfold parseComm; sures
theorem Sures.exit : Sures Eq (parseExit : Mend β Exit) parseExit := by
  unfold parseExit; sures
theorem Sures.throttle : Sures Eq (parseThrottle : Mend β Throttle) parseThrottle := by
  unfold parseThrottle; sures
theorem Sures.mmapDetail : Sures Eq (parseMmapDetail : Mend β MmapDetail) parseMmapDetail := by
  unfold parseMmapDetail
  refine Sures.bind Sures.config fun c _ h => ?_
  subst h
  refine Sures.ite (fun _ => ?_) fun _ => ?_
  · refine Sures.bind Sures.u8 fun _ _ h => ?_
    subst h
    refine Sures.bind Sures.u8 fun _ _ _ => Sures.bind Sures.u16 fun _ _ _ => ?_
    refine Sures.bind (Sures.array 20) fun _ _ h => ?_
    subst h
    sures
  · sures
macro_rules | `(tactic| sures_leaf) => `(tactic| exact Sures.mmapDetail)
theorem Sures.mmap2 : Sures (Via Mmap2.view) (parseMmap2 : Mend β (Mmap2 Cow)) parseMmap2 := by
  unfold parseMmap2; sures
theorem Sures.aux : Sures Eq (parseAux : Mend β Aux) parseAux := by
  unfold parseAux; sures
theorem Sures.itraceStart : Sures Eq (parseITraceStart : Mend β ITraceStart) parseITraceStart := by
  unfold parseITraceStart; sures
theorem Sures.lostSamples : Sures Eq (parseLostSamples : Mend β LostSamples) parseLostSamples := by
  unfold parseLostSamples; sures
theorem Sures.switchCpuWide : Sures Eq (parseSwitchCpuWide : Mend β SwitchCpuWide) parseSwitchCpuWide := by
  unfold parseSwitchCpuWide
  refine Sures.bind Sures.u32 fun _ _ h => Sures.bind Sures.u32 fun _ _ h' =>
    Sures.bind Sures.config fun _ _ h'' => ?_
  subst h h' h''
  sures
theorem Sures.ksymbol : Sures (Via KSymbol.view) (parseKSymbol : Mend β (KSymbol Cow)) parseKSymbol := by
  unfold parseKSymbol; sures
theorem Sures.bpfEvent : Sures Eq (parseBpfEvent : Mend β BpfEvent) parseBpfEvent := by
  unfold parseBpfEvent; sures
theorem Sures.cgroup : Sures (Via CGroup.view) (parseCGroup : Mend β (CGroup Cow)) parseCGroup := by
  unfold parseCGroup; sures
theorem Sures.auxOutputHwId : Sures Eq (parseAuxOutputHwId : Mend β AuxOutputHwId) parseAuxOutputHwId := by
  unfold parseAuxOutputHwId; sures
theorem Sures.header : Sures Eq (parseHeader : Mend β Header) parseHeader := by
  unfold parseHeader; sures
theorem Sures.textPoke : Sures (Via TextPoke.view) (parseTextPoke : Mend β (TextPoke Cow)) parseTextPoke := by
  unfold parseTextPoke
  refine Sures.bind Sures.u64 fun _ _ h => Sures.bind Sures.u16 fun o _ h1 =>
    Sures.bind Sures.u16 fun n _ h2 => ?_
  subst h h1 h2
  refine Sures.bind (Sures.bytesLen _) fun d l h => Sures.bind (Sures.splitAt h ?_) fun a c h => Sures.pure ?_
  · have := roundUpMod_ge (o.toNat + n.toNat) 4 8
    omega
  obtain ⟨h1, h2⟩ := h
  unfold HasData at h1 h2
  show TextPoke.view _ = _
  unfold TextPoke.view
  simp only [h1, cowTruncate, Cow.truncate_data, h2]

theorem Sure.take_ok {i : Input} {n : Nat} (h : n ≤ i.bytes.length) : Sure.take n i = (.ok (i.bytes.take n), i.adv n) := by
  unfold Sure.take; rw [if_pos h]
theorem Sure.take_short {i : Input} {n : Nat} (h : i.bytes.length < n) : Sure.take n i = (.error i.fin, i.adv i.bytes.length) := by
  unfold Sure.take; rw [if_neg (by omega)]

theorem Input.adv_end (i : Input) {k : Nat} (h : k ≤ i.bytes.length) : (i.adv k).adv (i.adv k).bytes.length = i.adv i.bytes.length := by
  rw [Input.adv_adv, Input.adv_bytes, List.length_drop, Nat.add_sub_cancel' h]

theorem Sure.u64_ok (f : Input) (h : 8 ≤ f.bytes.length) :
    (parseU64 : Sure U64) f = (.ok (f.cfg.endian.conv64 (f.bytes.take 8)), f.adv 8) := by
  exact (Sure.bind_ok (m := Sure.take 8) (Sure.take_ok h)).trans rfl

theorem Sure.u64_short (f : Input) (h : f.bytes.length < 8) :
    (parseU64 : Sure U64) f = (.error f.fin, f.adv f.bytes.length) := by
  exact Sure.bind_err (m := Sure.take 8) (Sure.take_short h)

theorem SureItem.u64 : SureItem U64.elem (parseU64 : Sure U64) where
  pos := by decide
  item := Sure.u64_ok
  short := Sure.u64_short
  congr c c' h bs hb := h bs hb

theorem SureItem.namespaceEntry : SureItem NamespaceEntry.elem (parseNamespaceEntry : Sure NamespaceEntry) where
  pos := by decide
  item f h := by
    simp only [NamespaceEntry.elem] at h ⊢
    unfold parseNamespaceEntry
    rw [Sure.bind_ok (Sure.u64_ok f (by omega)), Sure.bind_ok (Sure.u64_ok (f.adv 8) (by simp; omega))]
    simp only [Input.adv_adv, Input.adv_bytes, Input.adv_cfg, List.take_take, List.drop_take]
    rfl
  short f h := by
    simp only [NamespaceEntry.elem] at h
    unfold parseNamespaceEntry
    by_cases h8 : 8 ≤ f.bytes.length
    · rw [Sure.bind_ok (Sure.u64_ok f h8), Sure.bind_err (Sure.u64_short (f.adv 8) (by simp; omega)), Input.adv_end f h8]
      rfl
    · rw [Sure.bind_err (Sure.u64_short f (by omega))]
  congr c c' h bs hb := by
    simp only [NamespaceEntry.elem] at hb ⊢
    rw [h _ (by simp; omega), h _ (by simp; omega)]

theorem SureItem.branchEntry : SureItem BranchEntry.elem (parseBranchEntry : Sure BranchEntry) where
  pos := by decide
  item f h := by
    simp only [BranchEntry.elem] at h ⊢
    unfold parseBranchEntry
    rw [Sure.bind_ok (Sure.u64_ok f (by omega)), Sure.bind_ok (Sure.u64_ok (f.adv 8) (by simp; omega)),
      Sure.bind_ok (Sure.u64_ok ((f.adv 8).adv 8) (by simp; omega))]
    simp only [Input.adv_adv, Input.adv_bytes, Input.adv_cfg, List.take_take, List.drop_take]
    rfl
  short f h := by
    simp only [BranchEntry.elem] at h
    unfold parseBranchEntry
    by_cases h8 : 8 ≤ f.bytes.length
    · rw [Sure.bind_ok (Sure.u64_ok f h8)]
      by_cases h16 : 16 ≤ f.bytes.length
      · rw [Sure.bind_ok (Sure.u64_ok (f.adv 8) (by simp; omega)),
          Sure.bind_err (Sure.u64_short ((f.adv 8).adv 8) (by simp; omega)), Input.adv_adv, Input.adv_end f h16]
        rfl
      · rw [Sure.bind_err (Sure.u64_short (f.adv 8) (by simp; omega)), Input.adv_end f h8]
        rfl
    · rw [Sure.bind_err (Sure.u64_short f (by omega))]
  congr c c' h bs hb := by
    simp only [BranchEntry.elem] at hb ⊢
    rw [h _ (by simp; omega), h _ (by simp; omega), h _ (by simp; omega)]

theorem Sures.namespaceEntry : Sures Eq (parseNamespaceEntry : Mend β NamespaceEntry) parseNamespaceEntry := by
  unfold parseNamespaceEntry; sures
theorem Sures.branchEntry : Sures Eq (parseBranchEntry : Mend β BranchEntry) parseBranchEntry := by
  unfold parseBranchEntry; sures
theorem Sures.u64s (n : Nat) : Sures HasData (ParserM.slice U64.elem parseU64 n : Mend β (Cow U64))
    (ParserM.slice U64.elem parseU64 n : Sure (List U64)) := Sures.slice Sures.u64 SureItem.u64 n
theorem Sures.entries (n : Nat) :
    Sures HasData (ParserM.slice NamespaceEntry.elem parseNamespaceEntry n : Mend β (Cow NamespaceEntry))
      (ParserM.slice NamespaceEntry.elem parseNamespaceEntry n : Sure (List NamespaceEntry)) :=
  Sures.slice Sures.namespaceEntry SureItem.namespaceEntry n
theorem Sures.branches (n : Nat) :
    Sures HasData (ParserM.slice BranchEntry.elem parseBranchEntry n : Mend β (Cow BranchEntry))
      (ParserM.slice BranchEntry.elem parseBranchEntry n : Sure (List BranchEntry)) :=
  Sures.slice Sures.branchEntry SureItem.branchEntry n
theorem Sures.namespaces : Sures (Via Namespaces.view) (parseNamespaces : Mend β (Namespaces Cow)) parseNamespaces := by
  unfold parseNamespaces
  refine Sures.bind Sures.u32 fun _ _ h => Sures.bind Sures.u32 fun _ _ h1 =>
    Sures.bind Sures.u64 fun _ _ h2 => ?_
  subst h h1 h2
  exact Sures.bind (Sures.entries _) fun _ _ h => Sures.pure (by sures_end)
theorem Sures.cpu : Sures Eq (parseCpu : Mend β U32) parseCpu := by
  unfold parseCpu; sures
macro_rules | `(tactic| sures_leaf) => `(tactic| exact Sures.cpu)
theorem Sures.sampleId : Sures Eq (parseSampleId : Mend β SampleId) parseSampleId := by
  unfold parseSampleId
  refine Sures.bind Sures.config fun _ _ h => ?_
  subst h
  sures
theorem Sures.readValue : Sures Eq (parseReadValue : Mend β ReadValue) parseReadValue := by
  unfold parseReadValue
  refine Sures.bind Sures.config fun _ _ h => ?_
  subst h
  sures
macro_rules | `(tactic| sures_leaf) => `(tactic| exact Sures.readValue)
theorem Sures.read : Sures Eq (parseRead : Mend β Read) parseRead := by
  unfold parseRead; sures
theorem Sures.readGroup : Sures (Via ReadGroup.view) (parseReadGroup : Mend β (ReadGroup Cow)) parseReadGroup := by
  unfold parseReadGroup
  refine Sures.bind Sures.config fun _ _ h => ?_
  subst h
  refine Sures.ite (fun _ => Sures.fail _) fun _ => Sures.ite (fun _ => Sures.fail _) fun _ => ?_
  refine Sures.bind Sures.u64 fun _ _ h => ?_
  subst h
  refine Sures.bind (by sures_leaf) fun _ _ h => Sures.bind (by sures_leaf) fun _ _ h' => ?_
  subst h h'
  refine Sures.ite (fun _ => Sures.fail _) fun _ => ?_
  exact Sures.bind (Sures.u64s _) fun _ _ h => Sures.pure (by sures_end)
theorem Sures.regs (abi mask : U64) :
    Sures HasData (mendedRegs abi mask : Mend β (Cow U64)) (mendedRegs abi mask : Sure (List U64)) := by
  unfold mendedRegs
  exact Sures.ite (fun _ => Sures.pure rfl) fun _ => Sures.u64s _
theorem Sures.registers (mask : U64) :
    Sures (Via Registers.view) (mendedRegisters mask : Mend β (Registers Cow)) (mendedRegisters mask) := by
  unfold mendedRegisters
  refine Sures.bind Sures.u64 fun _ _ h => ?_
  subst h
  exact Sures.bind (Sures.regs _ _) fun _ _ h' => Sures.pure (by sures_end)
theorem Sures.registersUser :
    Sures (Via Registers.view) (mendedRegistersUser : Mend β (Registers Cow)) mendedRegistersUser := by
  unfold mendedRegistersUser
  refine Sures.bind Sures.config fun _ _ h => ?_
  subst h
  exact Sures.registers _
theorem Sures.registersIntr :
    Sures (Via Registers.view) (mendedRegistersIntr : Mend β (Registers Cow)) mendedRegistersIntr := by
  unfold mendedRegistersIntr
  refine Sures.bind Sures.config fun _ _ h => ?_
  subst h
  exact Sures.registers _

theorem Sures.values : Sures (Via ReadGroup.view) (parseValues : Mend β (ReadGroup Cow)) parseValues := by
  unfold parseValues
  refine Sures.bind Sures.config fun _ _ h => ?_
  subst h
  refine Sures.ite (fun _ => Sures.readGroup) fun _ => ?_
  exact Sures.bind Sures.readValue fun _ _ h => Sures.pure (by subst h; rfl)
theorem Sures.callchain : Sures (Via Cow.data) (parseCallchain : Mend β (Cow U64)) parseCallchain := by
  unfold parseCallchain
  refine Sures.bind Sures.u64 fun _ _ h => ?_
  subst h
  exact Sures.u64s _
theorem Sures.rawInner : Sures (Via Cow.data) (parseRawInner : Mend β (Cow Byte)) parseRawInner := by
  unfold parseRawInner
  refine Sures.bind Sures.u32 fun _ _ h => ?_
  subst h
  exact Sures.bytes _
theorem Sures.raw : Sures (Via Cow.data) (ParserM.padded 8 parseRawInner : Mend β (Cow Byte))
    (ParserM.padded 8 parseRawInner : Sure (List Byte)) := Sures.padded (by decide) Sures.rawInner
theorem Sures.lbr (b : Bool) : Sures (Via lbrView) (parseLbr b : Mend β (Cow BranchEntry × Option U64)) (parseLbr b) := by
  unfold parseLbr
  refine Sures.bind Sures.u64 fun _ _ h => Sures.bind (by sures_leaf) fun _ _ h' => ?_
  subst h h'
  exact Sures.bind (Sures.branches _) fun _ _ h => Sures.pure (by sures_end)
theorem Sures.auxData : Sures (Via Cow.data) (parseAuxData : Mend β (Cow Byte)) parseAuxData := by
  unfold parseAuxData
  refine Sures.bind Sures.u64 fun _ _ h => ?_
  subst h
  exact Sures.bytes _
theorem Sures.dynSize (size : U64) : Sures Eq (parseDynSize size : Mend β U64) (parseDynSize size) := by
  unfold parseDynSize
  exact Sures.ite (fun _ => Sures.pure rfl) fun _ => Sures.u64
theorem Sures.stackUser : Sures (Via Cow.data) (parseStackUser : Mend β (Cow Byte)) parseStackUser := by
  unfold parseStackUser
  refine Sures.bind Sures.u64 fun _ _ h => ?_
  subst h
  refine Sures.bind (Sures.bytes _) fun d l h => ?_
  refine Sures.bind (Sures.dynSize _) fun _ _ h' => ?_
  subst h'
  unfold HasData at h
  subst h
  refine Sures.ite (fun _ => Sures.fail _) fun _ => Sures.pure ?_
  exact Cow.truncate_data _ _
theorem Sures.sample : Sures (Via Sample.view) (mendedSample : Mend β (Sample Cow)) mendedSample := by
  unfold mendedSample
  refine Sures.bind Sures.config fun cfg _ h => ?_
  subst h
  refine Sures.bind (Sures.parseIf_eq _ Sures.u64) fun _ _ h0 => ?_
  refine Sures.bind (Sures.parseIf_eq _ Sures.u64) fun _ _ h1 => ?_
  refine Sures.bind (Sures.parseIf_eq _ Sures.u32) fun _ _ h2 => ?_
  refine Sures.bind (Sures.parseIf_eq _ Sures.u32) fun _ _ h3 => ?_
  refine Sures.bind (Sures.parseIf_eq _ Sures.u64) fun _ _ h4 => ?_
  refine Sures.bind (Sures.parseIf_eq _ Sures.u64) fun _ _ h5 => ?_
  refine Sures.bind (Sures.parseIf_eq _ Sures.u64) fun _ _ h6 => ?_
  refine Sures.bind (Sures.parseIf_eq _ Sures.u64) fun _ _ h7 => ?_
  refine Sures.bind (Sures.parseIf_eq _ Sures.cpu) fun _ _ h8 => ?_
  refine Sures.bind (Sures.parseIf_eq _ Sures.u64) fun _ _ h9 => ?_
  refine Sures.bind (Sures.parseIf_via _ Sures.values) fun _ _ h10 => ?_
  refine Sures.bind (Sures.parseIf_via _ Sures.callchain) fun _ _ h11 => ?_
  refine Sures.bind (Sures.parseIf_via _ Sures.raw) fun _ _ h12 => ?_
  refine Sures.bind (Sures.parseIf_via _ (Sures.lbr _)) fun l _ h13 => ?_
  refine Sures.bind (Sures.parseIf_via _ Sures.registersUser) fun _ _ h14 => ?_
  refine Sures.bind (Sures.parseIf_via _ Sures.stackUser) fun _ _ h15 => ?_
  refine Sures.bind (Sures.parseIf_eq _ Sures.u64) fun _ _ h16 => ?_
  refine Sures.bind (Sures.parseIf_eq _ Sures.u64) fun _ _ h17 => ?_
  refine Sures.bind (Sures.parseIf_eq _ Sures.u64) fun _ _ h18 => ?_
  refine Sures.bind (Sures.parseIf_via _ Sures.registersIntr) fun _ _ h19 => ?_
  refine Sures.bind (Sures.parseIf_eq _ Sures.u64) fun _ _ h20 => ?_
  refine Sures.bind (Sures.parseIf_eq _ Sures.u64) fun _ _ h21 => ?_
  refine Sures.bind (Sures.parseIf_eq _ Sures.u64) fun _ _ h22 => ?_
  refine Sures.bind (Sures.parseIf_eq _ Sures.u64) fun _ _ h23 => ?_
  refine Sures.bind (Sures.parseIf_via _ Sures.auxData) fun _ _ h24 => ?_
  refine Sures.pure ?_
  unfold Via at *
  subst_vars
  cases l <;> rfl


theorem Sures.body (ty : U32) :
    Sures (Via Record.view) (mendedBody ty : Mend β (Record Cow)) (mendedBody ty : Sure (Record List)) := by
  unfold mendedBody
  split
  · exact Sures.bind Sures.mmap fun _ _ h => Sures.pure (by subst h; rfl)
  · exact Sures.bind Sures.lost fun _ _ h => Sures.pure (by subst h; rfl)
  · exact Sures.bind Sures.comm fun _ _ h => Sures.pure (by subst h; rfl)
  · exact Sures.bind Sures.exit fun _ _ h => Sures.pure (by subst h; rfl)
  · exact Sures.bind Sures.throttle fun _ _ h => Sures.pure (by subst h; rfl)
  · exact Sures.bind Sures.throttle fun _ _ h => Sures.pure (by subst h; rfl)
  · exact Sures.bind Sures.exit fun _ _ h => Sures.pure (by subst h; rfl)
  · exact Sures.bind Sures.read fun _ _ h => Sures.pure (by subst h; rfl)
  · exact Sures.bind Sures.sample fun _ _ h => Sures.pure (by subst h; rfl)
  · exact Sures.bind Sures.mmap2 fun _ _ h => Sures.pure (by subst h; rfl)
  · exact Sures.bind Sures.aux fun _ _ h => Sures.pure (by subst h; rfl)
  · exact Sures.bind Sures.itraceStart fun _ _ h => Sures.pure (by subst h; rfl)
  · exact Sures.bind Sures.lostSamples fun _ _ h => Sures.pure (by subst h; rfl)
  · exact Sures.pure rfl
  · exact Sures.bind Sures.switchCpuWide fun _ _ h => Sures.pure (by subst h; rfl)
  · exact Sures.bind Sures.namespaces fun _ _ h => Sures.pure (by subst h; rfl)
  · exact Sures.bind Sures.ksymbol fun _ _ h => Sures.pure (by subst h; rfl)
  · exact Sures.bind Sures.bpfEvent fun _ _ h => Sures.pure (by subst h; rfl)
  · exact Sures.bind Sures.cgroup fun _ _ h => Sures.pure (by subst h; rfl)
  · exact Sures.bind Sures.textPoke fun _ _ h => Sures.pure (by subst h; rfl)
  · exact Sures.bind Sures.auxOutputHwId fun _ _ h => Sures.pure (by subst h; rfl)
  · exact Sures.bind Sures.rest fun _ _ h => Sures.pure (by unfold HasData at h; subst h; rfl)

end Perf
