import Verif.Proof.Mended
/-!
# Every record parser, over the corrected operations, does what its ideal reading says
-/
namespace Perf
variable {β : Type} [ParseBuf β] [Lawful β] {α α' : Type}
open ParserM

/-! ## Integers -/

theorem Mends.u8 : Mends Eq (parseU8 : Mend β U8) (parseU8 : Ideal U8) :=
  Mends.bind (Mends.array 1) fun _ _ h => Mends.pure (by rw [h])
theorem Mends.u16 : Mends Eq (parseU16 : Mend β U16) (parseU16 : Ideal U16) :=
  Mends.bind (Mends.array 2) fun _ _ h => Mends.bind Mends.config fun _ _ h' => Mends.pure (by rw [h, h'])
theorem Mends.u32 : Mends Eq (parseU32 : Mend β U32) (parseU32 : Ideal U32) :=
  Mends.bind (Mends.array 4) fun _ _ h => Mends.bind Mends.config fun _ _ h' => Mends.pure (by rw [h, h'])
theorem Mends.u64 : Mends Eq (parseU64 : Mend β U64) (parseU64 : Ideal U64) :=
  Mends.bind (Mends.array 8) fun _ _ h => Mends.bind Mends.config fun _ _ h' => Mends.pure (by rw [h, h'])

theorem Mends.parseIf_eq {m : Mend β α} {s : Ideal α} (c : Bool) (h : Mends Eq m s) :
    Mends Eq (parseIf c m) (parseIf c s) := by
  cases c with
  | true => exact Mends.bind h fun _ _ h => Mends.pure (by rw [h])
  | false => exact Mends.pure rfl

theorem Mends.parseIf_via {g : α → α'} {m : Mend β α} {s : Ideal α'} (c : Bool) (h : Mends (Via g) m s) :
    Mends (Via (Option.map g)) (parseIf c m) (parseIf c s) := by
  cases c with
  | true => exact Mends.bind h fun _ _ h => Mends.pure (by rw [← h]; rfl)
  | false => exact Mends.pure rfl

syntax "meets_leaf" : tactic
macro_rules | `(tactic| meets_leaf) => `(tactic| first
  | exact Mends.u64 | exact Mends.u32 | exact Mends.u16 | exact Mends.u8
  | exact Mends.config
  | (with_reducible refine Mends.parseIf_eq _ ?_; meets_leaf; done)
  | (with_reducible refine Mends.parseIf_via _ ?_; meets_leaf; done)
  | exact Mends.array _ | exact Mends.bytes _ | exact Mends.rest | exact Mends.restTrimNul)

/-- Close the goal left at the `pure` at the end. -/
macro "meets_end" : tactic =>
  `(tactic| first | rfl | ((try simp only [HasData, Via] at *); subst_vars; rfl))

/-- Walk through a `do` block on both sides. -/
macro "meets" : tactic => `(tactic| repeat' (first
  | exact Mends.fail _
  | (refine Mends.pure ?_; meets_end; done)
  | meets_leaf
  | refine Mends.bind (by meets_leaf) (fun _ _ h => ?_)
  | refine Mends.ite (fun _ => ?_) (fun _ => ?_)))

theorem Mends.mmap {β : Type} [ParseBuf β] [LawfulEof β] : Mends (Via Mmap.view) (parseMmap : Mend β (Mmap Cow)) parseMmap := by
  unfold parseMmap; meets
theorem Mends.lost : Mends Eq (parseLost : Mend β Lost) parseLost := by
  unfold parseLost; meets
theorem Mends.comm {β : Type} [ParseBuf β] [LawfulEof β] : Mends (Via Comm.view) (parseComm : Mend β (Comm Cow)) parseComm := by
  unfold parseComm; meets
theorem Mends.exit : Mends Eq (parseExit : Mend β Exit) parseExit := by
  unfold parseExit; meets
theorem Mends.throttle : Mends Eq (parseThrottle : Mend β Throttle) parseThrottle := by
  unfold parseThrottle; meets
theorem Mends.mmapDetail : Mends Eq (parseMmapDetail : Mend β MmapDetail) parseMmapDetail := by
  unfold parseMmapDetail
  refine Mends.bind Mends.config fun c _ h => ?_
  subst h
  refine Mends.ite (fun _ => ?_) fun _ => ?_
  · refine Mends.bind Mends.u8 fun _ _ h => ?_
    subst h
    refine Mends.bind Mends.u8 fun _ _ _ => Mends.bind Mends.u16 fun _ _ _ => ?_
    refine Mends.bind (Mends.array 20) fun _ _ h => ?_
    subst h
    meets
  · meets
macro_rules | `(tactic| meets_leaf) => `(tactic| exact Mends.mmapDetail)
theorem Mends.mmap2 {β : Type} [ParseBuf β] [LawfulEof β] : Mends (Via Mmap2.view) (parseMmap2 : Mend β (Mmap2 Cow)) parseMmap2 := by
  unfold parseMmap2; meets
theorem Mends.aux : Mends Eq (parseAux : Mend β Aux) parseAux := by
  unfold parseAux; meets
theorem Mends.itraceStart : Mends Eq (parseITraceStart : Mend β ITraceStart) parseITraceStart := by
  unfold parseITraceStart; meets
theorem Mends.lostSamples : Mends Eq (parseLostSamples : Mend β LostSamples) parseLostSamples := by
  unfold parseLostSamples; meets
theorem Mends.switchCpuWide : Mends Eq (parseSwitchCpuWide : Mend β SwitchCpuWide) parseSwitchCpuWide := by
  unfold parseSwitchCpuWide
  refine Mends.bind Mends.u32 fun _ _ h => Mends.bind Mends.u32 fun _ _ h' =>
    Mends.bind Mends.config fun _ _ h'' => ?_
  subst h h' h''
  meets
theorem Mends.ksymbol {β : Type} [ParseBuf β] [LawfulEof β] : Mends (Via KSymbol.view) (parseKSymbol : Mend β (KSymbol Cow)) parseKSymbol := by
  unfold parseKSymbol; meets
theorem Mends.bpfEvent : Mends Eq (parseBpfEvent : Mend β BpfEvent) parseBpfEvent := by
  unfold parseBpfEvent; meets
theorem Mends.cgroup {β : Type} [ParseBuf β] [LawfulEof β] : Mends (Via CGroup.view) (parseCGroup : Mend β (CGroup Cow)) parseCGroup := by
  unfold parseCGroup; meets
theorem Mends.auxOutputHwId : Mends Eq (parseAuxOutputHwId : Mend β AuxOutputHwId) parseAuxOutputHwId := by
  unfold parseAuxOutputHwId; meets
theorem Mends.header : Mends Eq (parseHeader : Mend β Header) parseHeader := by
  unfold parseHeader; meets
theorem Mends.textPoke : Mends (Via TextPoke.view) (parseTextPoke : Mend β (TextPoke Cow)) parseTextPoke := by
  unfold parseTextPoke
  refine Mends.bind Mends.u64 fun _ _ h => Mends.bind Mends.u16 fun o _ h1 =>
    Mends.bind Mends.u16 fun n _ h2 => ?_
  subst h h1 h2
  refine Mends.bind (Mends.bytesLen _) fun d l h => Mends.bind (Mends.splitAt h ?_) fun a c h => Mends.pure ?_
  · have := roundUpMod_ge (o.toNat + n.toNat) 4 8
    omega
  obtain ⟨h1, h2⟩ := h
  unfold HasData at h1 h2
  show TextPoke.view _ = _
  unfold TextPoke.view
  simp only [h1, cowTruncate, Cow.truncate_data, h2]

theorem Ideal.take_ok {i : Input} {n : Nat} (h : n ≤ i.bytes.length) : Ideal.take n i = .ok (i.bytes.take n, i.adv n) := by
  unfold Ideal.take; rw [if_pos h]
theorem Ideal.take_short {i : Input} {n : Nat} (h : i.bytes.length < n) : Ideal.take n i = .error i.fin := by
  unfold Ideal.take; rw [if_neg (by omega)]
@[simp] theorem Input.adv_bytes (i : Input) (k : Nat) : (i.adv k).bytes = i.bytes.drop k := rfl
@[simp] theorem Input.adv_cfg (i : Input) (k : Nat) : (i.adv k).cfg = i.cfg := rfl
@[simp] theorem Input.adv_fin (i : Input) (k : Nat) : (i.adv k).fin = i.fin := rfl

theorem Ideal.u64_ok (f : Input) (h : 8 ≤ f.bytes.length) :
    (parseU64 : Ideal U64) f = .ok (f.cfg.endian.conv64 (f.bytes.take 8), f.adv 8) := by
  exact (Ideal.bind_ok (m := Ideal.take 8) (Ideal.take_ok h)).trans rfl

theorem Ideal.u64_short (f : Input) (h : f.bytes.length < 8) :
    (parseU64 : Ideal U64) f = .error f.fin := by
  exact Ideal.bind_err (m := Ideal.take 8) (Ideal.take_short h)

theorem IdealItem.u64 : IdealItem U64.elem (parseU64 : Ideal U64) where
  pos := by decide
  item := Ideal.u64_ok
  short := Ideal.u64_short
  congr c c' h bs hb := h bs hb

theorem IdealItem.namespaceEntry : IdealItem NamespaceEntry.elem (parseNamespaceEntry : Ideal NamespaceEntry) where
  pos := by decide
  item f h := by
    simp only [NamespaceEntry.elem] at h ⊢
    unfold parseNamespaceEntry
    rw [Ideal.bind_ok (Ideal.u64_ok f (by omega)), Ideal.bind_ok (Ideal.u64_ok (f.adv 8) (by simp; omega))]
    simp only [Input.adv_adv, Input.adv_bytes, Input.adv_cfg, List.take_take, List.drop_take]
    rfl
  short f h := by
    simp only [NamespaceEntry.elem] at h
    unfold parseNamespaceEntry
    by_cases h8 : 8 ≤ f.bytes.length
    · rw [Ideal.bind_ok (Ideal.u64_ok f h8), Ideal.bind_err (Ideal.u64_short (f.adv 8) (by simp; omega))]
      rfl
    · rw [Ideal.bind_err (Ideal.u64_short f (by omega))]
  congr c c' h bs hb := by
    simp only [NamespaceEntry.elem] at hb ⊢
    rw [h _ (by simp; omega), h _ (by simp; omega)]

theorem IdealItem.branchEntry : IdealItem BranchEntry.elem (parseBranchEntry : Ideal BranchEntry) where
  pos := by decide
  item f h := by
    simp only [BranchEntry.elem] at h ⊢
    unfold parseBranchEntry
    rw [Ideal.bind_ok (Ideal.u64_ok f (by omega)), Ideal.bind_ok (Ideal.u64_ok (f.adv 8) (by simp; omega)),
      Ideal.bind_ok (Ideal.u64_ok ((f.adv 8).adv 8) (by simp; omega))]
    simp only [Input.adv_adv, Input.adv_bytes, Input.adv_cfg, List.take_take, List.drop_take]
    rfl
  short f h := by
    simp only [BranchEntry.elem] at h
    unfold parseBranchEntry
    by_cases h8 : 8 ≤ f.bytes.length
    · rw [Ideal.bind_ok (Ideal.u64_ok f h8)]
      by_cases h16 : 16 ≤ f.bytes.length
      · rw [Ideal.bind_ok (Ideal.u64_ok (f.adv 8) (by simp; omega)),
          Ideal.bind_err (Ideal.u64_short ((f.adv 8).adv 8) (by simp; omega))]
        rfl
      · rw [Ideal.bind_err (Ideal.u64_short (f.adv 8) (by simp; omega))]
        rfl
    · rw [Ideal.bind_err (Ideal.u64_short f (by omega))]
  congr c c' h bs hb := by
    simp only [BranchEntry.elem] at hb ⊢
    rw [h _ (by simp; omega), h _ (by simp; omega), h _ (by simp; omega)]

theorem Mends.namespaceEntry : Mends Eq (parseNamespaceEntry : Mend β NamespaceEntry) parseNamespaceEntry := by
  unfold parseNamespaceEntry; meets
theorem Mends.branchEntry : Mends Eq (parseBranchEntry : Mend β BranchEntry) parseBranchEntry := by
  unfold parseBranchEntry; meets
theorem Mends.u64s (n : Nat) : Mends HasData (ParserM.slice U64.elem parseU64 n : Mend β (Cow U64))
    (ParserM.slice U64.elem parseU64 n : Ideal (List U64)) := Mends.slice Mends.u64 IdealItem.u64 n
theorem Mends.entries (n : Nat) :
    Mends HasData (ParserM.slice NamespaceEntry.elem parseNamespaceEntry n : Mend β (Cow NamespaceEntry))
      (ParserM.slice NamespaceEntry.elem parseNamespaceEntry n : Ideal (List NamespaceEntry)) :=
  Mends.slice Mends.namespaceEntry IdealItem.namespaceEntry n
theorem Mends.branches (n : Nat) :
    Mends HasData (ParserM.slice BranchEntry.elem parseBranchEntry n : Mend β (Cow BranchEntry))
      (ParserM.slice BranchEntry.elem parseBranchEntry n : Ideal (List BranchEntry)) :=
  Mends.slice Mends.branchEntry IdealItem.branchEntry n
theorem Mends.namespaces : Mends (Via Namespaces.view) (parseNamespaces : Mend β (Namespaces Cow)) parseNamespaces := by
  unfold parseNamespaces
  refine Mends.bind Mends.u32 fun _ _ h => Mends.bind Mends.u32 fun _ _ h1 =>
    Mends.bind Mends.u64 fun _ _ h2 => ?_
  subst h h1 h2
  exact Mends.bind (Mends.entries _) fun _ _ h => Mends.pure (by meets_end)
theorem Mends.cpu : Mends Eq (parseCpu : Mend β U32) parseCpu := by
  unfold parseCpu; meets
macro_rules | `(tactic| meets_leaf) => `(tactic| exact Mends.cpu)
theorem Mends.sampleId : Mends Eq (parseSampleId : Mend β SampleId) parseSampleId := by
  unfold parseSampleId
  refine Mends.bind Mends.config fun _ _ h => ?_
  subst h
  meets
theorem Mends.readValue : Mends Eq (parseReadValue : Mend β ReadValue) parseReadValue := by
  unfold parseReadValue
  refine Mends.bind Mends.config fun _ _ h => ?_
  subst h
  meets
macro_rules | `(tactic| meets_leaf) => `(tactic| exact Mends.readValue)
theorem Mends.read : Mends Eq (parseRead : Mend β Read) parseRead := by
  unfold parseRead; meets
theorem Mends.readGroup : Mends (Via ReadGroup.view) (parseReadGroup : Mend β (ReadGroup Cow)) parseReadGroup := by
  unfold parseReadGroup
  refine Mends.bind Mends.config fun _ _ h => ?_
  subst h
  refine Mends.ite (fun _ => Mends.fail _) fun _ => Mends.ite (fun _ => Mends.fail _) fun _ => ?_
  refine Mends.bind Mends.u64 fun _ _ h => ?_
  subst h
  refine Mends.bind (by meets_leaf) fun _ _ h => Mends.bind (by meets_leaf) fun _ _ h' => ?_
  subst h h'
  refine Mends.ite (fun _ => Mends.fail _) fun _ => ?_
  exact Mends.bind (Mends.u64s _) fun _ _ h => Mends.pure (by meets_end)
theorem Mends.regs (abi mask : U64) :
    Mends HasData (mendedRegs abi mask : Mend β (Cow U64)) (mendedRegs abi mask : Ideal (List U64)) := by
  unfold mendedRegs
  exact Mends.ite (fun _ => Mends.pure rfl) fun _ => Mends.u64s _
theorem Mends.registers (mask : U64) :
    Mends (Via Registers.view) (mendedRegisters mask : Mend β (Registers Cow)) (mendedRegisters mask) := by
  unfold mendedRegisters
  refine Mends.bind Mends.u64 fun _ _ h => ?_
  subst h
  exact Mends.bind (Mends.regs _ _) fun _ _ h' => Mends.pure (by meets_end)
theorem Mends.registersUser :
    Mends (Via Registers.view) (mendedRegistersUser : Mend β (Registers Cow)) mendedRegistersUser := by
  unfold mendedRegistersUser
  refine Mends.bind Mends.config fun _ _ h => ?_
  subst h
  exact Mends.registers _
theorem Mends.registersIntr :
    Mends (Via Registers.view) (mendedRegistersIntr : Mend β (Registers Cow)) mendedRegistersIntr := by
  unfold mendedRegistersIntr
  refine Mends.bind Mends.config fun _ _ h => ?_
  subst h
  exact Mends.registers _

theorem Mends.values : Mends (Via ReadGroup.view) (parseValues : Mend β (ReadGroup Cow)) parseValues := by
  unfold parseValues
  refine Mends.bind Mends.config fun _ _ h => ?_
  subst h
  refine Mends.ite (fun _ => Mends.readGroup) fun _ => ?_
  exact Mends.bind Mends.readValue fun _ _ h => Mends.pure (by subst h; rfl)
theorem Mends.callchain : Mends (Via Cow.data) (parseCallchain : Mend β (Cow U64)) parseCallchain := by
  unfold parseCallchain
  refine Mends.bind Mends.u64 fun _ _ h => ?_
  subst h
  exact Mends.u64s _
theorem Mends.rawInner : Mends (Via Cow.data) (parseRawInner : Mend β (Cow Byte)) parseRawInner := by
  unfold parseRawInner
  refine Mends.bind Mends.u32 fun _ _ h => ?_
  subst h
  exact Mends.bytes _
theorem Mends.raw : Mends (Via Cow.data) (ParserM.padded 8 parseRawInner : Mend β (Cow Byte))
    (ParserM.padded 8 parseRawInner : Ideal (List Byte)) := Mends.padded (by decide) Mends.rawInner
theorem Mends.lbr (b : Bool) : Mends (Via lbrView) (parseLbr b : Mend β (Cow BranchEntry × Option U64)) (parseLbr b) := by
  unfold parseLbr
  refine Mends.bind Mends.u64 fun _ _ h => Mends.bind (by meets_leaf) fun _ _ h' => ?_
  subst h h'
  exact Mends.bind (Mends.branches _) fun _ _ h => Mends.pure (by meets_end)
theorem Mends.auxData : Mends (Via Cow.data) (parseAuxData : Mend β (Cow Byte)) parseAuxData := by
  unfold parseAuxData
  refine Mends.bind Mends.u64 fun _ _ h => ?_
  subst h
  exact Mends.bytes _
theorem Mends.dynSize (size : U64) : Mends Eq (parseDynSize size : Mend β U64) (parseDynSize size) := by
  unfold parseDynSize
  exact Mends.ite (fun _ => Mends.pure rfl) fun _ => Mends.u64
theorem Mends.stackUser : Mends (Via Cow.data) (parseStackUser : Mend β (Cow Byte)) parseStackUser := by
  unfold parseStackUser
  refine Mends.bind Mends.u64 fun _ _ h => ?_
  subst h
  refine Mends.bind (Mends.bytes _) fun d l h => ?_
  refine Mends.bind (Mends.dynSize _) fun _ _ h' => ?_
  subst h'
  unfold HasData at h
  subst h
  refine Mends.ite (fun _ => Mends.fail _) fun _ => Mends.pure ?_
  exact Cow.truncate_data _ _
theorem Mends.sample : Mends (Via Sample.view) (mendedSample : Mend β (Sample Cow)) mendedSample := by
  unfold mendedSample
  refine Mends.bind Mends.config fun cfg _ h => ?_
  subst h
  refine Mends.bind (Mends.parseIf_eq _ Mends.u64) fun _ _ h0 => ?_
  refine Mends.bind (Mends.parseIf_eq _ Mends.u64) fun _ _ h1 => ?_
  refine Mends.bind (Mends.parseIf_eq _ Mends.u32) fun _ _ h2 => ?_
  refine Mends.bind (Mends.parseIf_eq _ Mends.u32) fun _ _ h3 => ?_
  refine Mends.bind (Mends.parseIf_eq _ Mends.u64) fun _ _ h4 => ?_
  refine Mends.bind (Mends.parseIf_eq _ Mends.u64) fun _ _ h5 => ?_
  refine Mends.bind (Mends.parseIf_eq _ Mends.u64) fun _ _ h6 => ?_
  refine Mends.bind (Mends.parseIf_eq _ Mends.u64) fun _ _ h7 => ?_
  refine Mends.bind (Mends.parseIf_eq _ Mends.cpu) fun _ _ h8 => ?_
  refine Mends.bind (Mends.parseIf_eq _ Mends.u64) fun _ _ h9 => ?_
  refine Mends.bind (Mends.parseIf_via _ Mends.values) fun _ _ h10 => ?_
  refine Mends.bind (Mends.parseIf_via _ Mends.callchain) fun _ _ h11 => ?_
  refine Mends.bind (Mends.parseIf_via _ Mends.raw) fun _ _ h12 => ?_
  refine Mends.bind (Mends.parseIf_via _ (Mends.lbr _)) fun l _ h13 => ?_
  refine Mends.bind (Mends.parseIf_via _ Mends.registersUser) fun _ _ h14 => ?_
  refine Mends.bind (Mends.parseIf_via _ Mends.stackUser) fun _ _ h15 => ?_
  refine Mends.bind (Mends.parseIf_eq _ Mends.u64) fun _ _ h16 => ?_
  refine Mends.bind (Mends.parseIf_eq _ Mends.u64) fun _ _ h17 => ?_
  refine Mends.bind (Mends.parseIf_eq _ Mends.u64) fun _ _ h18 => ?_
  refine Mends.bind (Mends.parseIf_via _ Mends.registersIntr) fun _ _ h19 => ?_
  refine Mends.bind (Mends.parseIf_eq _ Mends.u64) fun _ _ h20 => ?_
  refine Mends.bind (Mends.parseIf_eq _ Mends.u64) fun _ _ h21 => ?_
  refine Mends.bind (Mends.parseIf_eq _ Mends.u64) fun _ _ h22 => ?_
  refine Mends.bind (Mends.parseIf_eq _ Mends.u64) fun _ _ h23 => ?_
  refine Mends.bind (Mends.parseIf_via _ Mends.auxData) fun _ _ h24 => ?_
  refine Mends.pure ?_
  unfold Via at *
  subst_vars
  cases l <;> rfl


theorem Mends.body {β : Type} [ParseBuf β] [LawfulEof β] (ty : U32) :
    Mends (Via Record.view) (mendedBody ty : Mend β (Record Cow)) (mendedBody ty : Ideal (Record List)) := by
  unfold mendedBody
  split
  · exact Mends.bind Mends.mmap fun _ _ h => Mends.pure (by subst h; rfl)
  · exact Mends.bind Mends.lost fun _ _ h => Mends.pure (by subst h; rfl)
  · exact Mends.bind Mends.comm fun _ _ h => Mends.pure (by subst h; rfl)
  · exact Mends.bind Mends.exit fun _ _ h => Mends.pure (by subst h; rfl)
  · exact Mends.bind Mends.throttle fun _ _ h => Mends.pure (by subst h; rfl)
  · exact Mends.bind Mends.throttle fun _ _ h => Mends.pure (by subst h; rfl)
  · exact Mends.bind Mends.exit fun _ _ h => Mends.pure (by subst h; rfl)
  · exact Mends.bind Mends.read fun _ _ h => Mends.pure (by subst h; rfl)
  · exact Mends.bind Mends.sample fun _ _ h => Mends.pure (by subst h; rfl)
  · exact Mends.bind Mends.mmap2 fun _ _ h => Mends.pure (by subst h; rfl)
  · exact Mends.bind Mends.aux fun _ _ h => Mends.pure (by subst h; rfl)
  · exact Mends.bind Mends.itraceStart fun _ _ h => Mends.pure (by subst h; rfl)
  · exact Mends.bind Mends.lostSamples fun _ _ h => Mends.pure (by subst h; rfl)
  · exact Mends.pure rfl
  · exact Mends.bind Mends.switchCpuWide fun _ _ h => Mends.pure (by subst h; rfl)
  · exact Mends.bind Mends.namespaces fun _ _ h => Mends.pure (by subst h; rfl)
  · exact Mends.bind Mends.ksymbol fun _ _ h => Mends.pure (by subst h; rfl)
  · exact Mends.bind Mends.bpfEvent fun _ _ h => Mends.pure (by subst h; rfl)
  · exact Mends.bind Mends.cgroup fun _ _ h => Mends.pure (by subst h; rfl)
  · exact Mends.bind Mends.textPoke fun _ _ h => Mends.pure (by subst h; rfl)
  · exact Mends.bind Mends.auxOutputHwId fun _ _ h => Mends.pure (by subst h; rfl)
  · exact Mends.bind Mends.rest fun _ _ h => Mends.pure (by unfold HasData at h; subst h; rfl)

end Perf
