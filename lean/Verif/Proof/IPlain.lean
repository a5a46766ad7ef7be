import Verif.Proof.Plain
import Verif.Proof.MendedRec
/-!
# Ideal outcomes do not depend on `is_native` or on the offset
-/
namespace Perf
open ParserM
variable {α γ T : Type}

/-- The same input without `is_native`, at another offset. -/
def Input.plain (i : Input) (o : Nat) : Input := { i with cfg := i.cfg.plain, off := o }

/-- The same outcome with and without, at any offset. -/
def Even (s s' : Ideal α) : Prop := ∀ i o, match s i with
  | .error e => s' (i.plain o) = .error e
  | .ok (a, i') => s' (i.plain o) = .ok (a, i'.plain (o + (i'.off - i.off))) ∧ i.off ≤ i'.off

theorem Even.pure (a : α) : Even (Pure.pure a : Ideal α) (Pure.pure a) := fun i o =>
  ⟨by rw [Nat.sub_self]; rfl, Nat.le_refl _⟩
theorem Even.fail (e : ParseError) : Even (ParserM.fail e : Ideal α) (ParserM.fail e) := fun _ _ => rfl

theorem Even.bind {s s' : Ideal α} {k k' : α → Ideal γ} (h : Even s s') (hk : ∀ a, Even (k a) (k' a)) : Even (s >>= k) (s' >>= k') := by
  intro i o
  have h1 := h i o
  rcases hs : s i with e | ⟨a, i'⟩ <;> rw [hs] at h1
  · rw [Ideal.bind_err hs]; exact Ideal.bind_err h1
  · have h2 := hk a i' (o + (i'.off - i.off))
    rw [Ideal.bind_ok hs, Ideal.bind_ok h1.1]
    rcases hr : k a i' with e | ⟨b, i''⟩ <;> rw [hr] at h2
    · exact h2
    · refine ⟨h2.1.trans ?_, Nat.le_trans h1.2 h2.2⟩
      have := h1.2
      have := h2.2
      rw [show o + (i'.off - i.off) + (i''.off - i'.off) = o + (i''.off - i.off) by omega]

theorem Even.config {k k' : ParseConfig → Ideal γ} (hk : ∀ c, Even (k c) (k' c.plain)) :
    Even ((ParserM.config : Ideal ParseConfig) >>= k) ((ParserM.config : Ideal ParseConfig) >>= k') :=
  fun i o => hk i.cfg i o

theorem Even.ite {c : Prop} [Decidable c] {s t s' t' : Ideal α} (h : Even s s') (h' : Even t t') :
    Even (if c then s else t) (if c then s' else t') := by
  split
  · exact h
  · exact h'

theorem Even.take (n : Nat) : Even (Ideal.take n) (Ideal.take n) := by
  intro i o
  unfold Ideal.take
  rw [show (i.plain o).bytes = i.bytes from rfl]
  by_cases hn : n ≤ i.bytes.length
  · simp only [if_pos hn]
    exact ⟨by simp [Input.plain, Input.adv], by simp [Input.adv]⟩
  · simp only [if_neg hn]; rfl

theorem Even.rest : Even Ideal.rest Ideal.rest := by
  intro i o
  unfold Ideal.rest
  rw [show (i.plain o).bytes = i.bytes from rfl, show (i.plain o).fin = i.fin from rfl]
  by_cases hn : i.fin.kind = .eof
  · simp only [if_pos hn]
    exact ⟨by simp [Input.plain, Input.adv], by simp [Input.adv]⟩
  · simp only [if_neg hn]

theorem Even.array (n : Nat) : Even (ParserM.array n : Ideal (List Byte)) (ParserM.array n) := Even.take n
theorem Even.bytes (n : Nat) : Even (ParserM.bytes n : Ideal (List Byte)) (ParserM.bytes n) := Even.take n
theorem Even.restM : Even (ParserM.rest : Ideal (List Byte)) ParserM.rest := Even.rest
theorem Even.name : Even (ParserM.restTrimNul : Ideal (List Byte)) ParserM.restTrimNul := .bind .rest fun _ => .pure _
theorem Even.splitAt (l : List T) (n : Nat) : Even (cowSplitAt l n : Ideal (List T × List T)) (cowSplitAt l n) := .pure _

theorem Even.u8 : Even (parseU8 : Ideal U8) parseU8 := .bind (.array 1) fun _ => .pure _
theorem Even.u16 : Even (parseU16 : Ideal U16) parseU16 := .bind (.array 2) fun _ => .config fun _ => .pure _
theorem Even.u32 : Even (parseU32 : Ideal U32) parseU32 := .bind (.array 4) fun _ => .config fun _ => .pure _
theorem Even.u64 : Even (parseU64 : Ideal U64) parseU64 := .bind (.array 8) fun _ => .config fun _ => .pure _

theorem Even.parseIf {s s' : Ideal α} (c : Bool) (h : Even s s') : Even (Perf.parseIf c s) (Perf.parseIf c s') := by
  cases c with
  | true => exact .bind h fun _ => .pure _
  | false => exact .pure _

theorem Even.padded {s s' : Ideal α} (n : Nat) (h : Even s s') : Even (ParserM.padded n s : Ideal α) (ParserM.padded n s') := by
  intro i o
  have h1 := h i o
  show match Ideal.padded n s i with
    | .error e => Ideal.padded n s' (i.plain o) = .error e
    | .ok (a, i') => Ideal.padded n s' (i.plain o) = .ok (a, i'.plain (o + (i'.off - i.off))) ∧ i.off ≤ i'.off
  unfold Ideal.padded
  rcases hs : s i with e | ⟨a, i'⟩ <;> rw [hs] at h1
  · simp only [h1]
  · simp only [h1.1]
    have ho : (i'.plain (o + (i'.off - i.off))).off - (i.plain o).off = i'.off - i.off := Nat.add_sub_cancel_left ..
    rw [ho]
    by_cases h0 : (i'.off - i.off) % n = 0
    · simp only [if_pos h0]; exact ⟨trivial, h1.2⟩
    · simp only [if_neg h0]
      have h2 := Even.take (n - (i'.off - i.off) % n) i' (o + (i'.off - i.off))
      rcases hr : Ideal.take (n - (i'.off - i.off) % n) i' with e | ⟨b, i''⟩ <;> rw [hr] at h2
      · simp only [h2]
      · have h3 := h1.2
        have h4 := h2.2
        simp only [h2.1]
        refine ⟨?_, Nat.le_trans h3 h4⟩
        rw [show o + (i'.off - i.off) + (i''.off - i'.off) = o + (i''.off - i.off) by omega]

theorem Even.repeated {s s' : Ideal T} (h : Even s s') : ∀ n, Even (Ideal.repeated s n) (Ideal.repeated s' n)
  | 0 => .pure _
  | n + 1 => .bind h fun _ => .bind (.repeated h n) fun _ => .pure _

theorem Even.islice {e : Elem T} {s s' : Ideal T} (h : Even s s') (n : Nat) : Even (Ideal.slice e s n) (Ideal.slice e s' n) := by
  intro i o
  unfold Ideal.slice
  by_cases h1 : n * e.size ≥ usizeLimit
  · simp only [if_pos h1]
  · simp only [if_neg h1]
    exact Even.repeated h n i o

theorem Even.slice {e : Elem T} {s s' : Ideal T} (h : Even s s') (n : Nat) :
    Even (ParserM.slice e s n : Ideal (List T)) (ParserM.slice e s' n) := Even.islice h n

/-- Work through a parser. -/
macro "even" : tactic => `(tactic|
  repeat' first
    | with_reducible exact Even.pure _
    | with_reducible exact Even.fail _
    | with_reducible exact Even.u64
    | with_reducible exact Even.u32
    | with_reducible exact Even.u16
    | with_reducible exact Even.u8
    | with_reducible exact Even.array _
    | with_reducible exact Even.bytes _
    | with_reducible exact Even.restM
    | with_reducible exact Even.name
    | with_reducible exact Even.splitAt _ _
    | with_reducible assumption
    | refine Even.parseIf _ ?_
    | refine Even.padded _ ?_
    | refine Even.slice ?_ _
    | refine Even.config fun _ => ?_
    | refine Even.bind ?_ fun _ => ?_
    | refine Even.ite ?_ ?_)

theorem Even.mmap : Even (parseMmap : Ideal (Mmap List)) parseMmap := by unfold parseMmap; even
theorem Even.lost : Even (parseLost : Ideal Lost) parseLost := by unfold parseLost; even
theorem Even.comm : Even (parseComm : Ideal (Comm List)) parseComm := by unfold parseComm; even
theorem Even.exit : Even (parseExit : Ideal Exit) parseExit := by unfold parseExit; even
theorem Even.throttle : Even (parseThrottle : Ideal Throttle) parseThrottle := by unfold parseThrottle; even
theorem Even.mmapDetail : Even (parseMmapDetail : Ideal MmapDetail) parseMmapDetail := by
  unfold parseMmapDetail
  refine .config fun c => .ite ?_ ?_
  · refine .bind .u8 fun _ => .bind .u8 fun _ => .bind .u16 fun _ => .bind (.array 20) fun _ => .ite ?_ ?_ <;> even
  · even
theorem Even.mmap2 : Even (parseMmap2 : Ideal (Mmap2 List)) parseMmap2 := by
  have := Even.mmapDetail
  unfold parseMmap2; even
theorem Even.aux : Even (parseAux : Ideal Aux) parseAux := by unfold parseAux; even
theorem Even.itraceStart : Even (parseITraceStart : Ideal ITraceStart) parseITraceStart := by unfold parseITraceStart; even
theorem Even.lostSamples : Even (parseLostSamples : Ideal LostSamples) parseLostSamples := by unfold parseLostSamples; even
theorem Even.switchCpuWide : Even (parseSwitchCpuWide : Ideal SwitchCpuWide) parseSwitchCpuWide := by
  unfold parseSwitchCpuWide
  exact .bind .u32 fun _ => .bind .u32 fun _ => .config fun c => .ite (.pure _) (.pure _)
theorem Even.ksymbol : Even (parseKSymbol : Ideal (KSymbol List)) parseKSymbol := by unfold parseKSymbol; even
theorem Even.bpfEvent : Even (parseBpfEvent : Ideal BpfEvent) parseBpfEvent := by unfold parseBpfEvent; even
theorem Even.cgroup : Even (parseCGroup : Ideal (CGroup List)) parseCGroup := by unfold parseCGroup; even
theorem Even.auxOutputHwId : Even (parseAuxOutputHwId : Ideal AuxOutputHwId) parseAuxOutputHwId := by unfold parseAuxOutputHwId; even
theorem Even.header : Even (parseHeader : Ideal Header) parseHeader := by unfold parseHeader; even
theorem Even.textPoke : Even (parseTextPoke : Ideal (TextPoke List)) parseTextPoke := by unfold parseTextPoke; even
theorem Even.namespaceEntry : Even (parseNamespaceEntry : Ideal NamespaceEntry) parseNamespaceEntry := by unfold parseNamespaceEntry; even
theorem Even.branchEntry : Even (parseBranchEntry : Ideal BranchEntry) parseBranchEntry := by unfold parseBranchEntry; even
theorem Even.namespaces : Even (parseNamespaces : Ideal (Namespaces List)) parseNamespaces := by
  have := Even.namespaceEntry
  unfold parseNamespaces; even
theorem Even.cpu : Even (parseCpu : Ideal U32) parseCpu := by unfold parseCpu; even
theorem Even.sampleId : Even (parseSampleId : Ideal SampleId) parseSampleId := by
  have := Even.cpu
  unfold parseSampleId
  refine .config fun c => .ite (.pure _) ?_
  exact .bind (.parseIf _ .u32) fun _ => .bind (.parseIf _ .u32) fun _ => .bind (.parseIf _ .u64) fun _ => .bind (.parseIf _ .u64) fun _ =>
      .bind (.parseIf _ .u64) fun _ => .bind (.parseIf _ .cpu) fun _ => .bind (.parseIf _ .u64) fun _ => .pure _
theorem Even.readValue : Even (parseReadValue : Ideal ReadValue) parseReadValue := by
  unfold parseReadValue
  refine .config fun c => .ite (.fail _) (.ite (.fail _) ?_)
  exact .bind .u64 fun _ => .bind (.parseIf _ .u64) fun _ => .bind (.parseIf _ .u64) fun _ => .bind (.parseIf _ .u64) fun _ =>
    .bind (.parseIf _ .u64) fun _ => .pure _
theorem Even.read : Even (parseRead : Ideal Read) parseRead := by
  have := Even.readValue
  unfold parseRead; even
theorem Even.readGroup : Even (parseReadGroup : Ideal (ReadGroup List)) parseReadGroup := by
  unfold parseReadGroup
  refine .config fun c => .ite (.fail _) (.ite (.fail _) ?_)
  refine .bind .u64 fun _ => .bind (.parseIf _ .u64) fun _ => .bind (.parseIf _ .u64) fun _ => .ite ?_ ?_
  · even
  · exact .bind (.slice .u64 _) fun _ => .pure _
theorem Even.values : Even (parseValues : Ideal (ReadGroup List)) parseValues := by
  unfold parseValues
  exact .config fun c => .ite .readGroup (.bind .readValue fun _ => .pure _)
theorem Even.callchain : Even (parseCallchain : Ideal (List U64)) parseCallchain := by unfold parseCallchain; even
theorem Even.rawInner : Even (parseRawInner : Ideal (List Byte)) parseRawInner := by unfold parseRawInner; even
theorem Even.lbr (b : Bool) : Even (parseLbr b : Ideal (List BranchEntry × Option U64)) (parseLbr b) := by
  have := Even.branchEntry
  unfold parseLbr; even
theorem Even.regs (abi mask : U64) : Even (mendedRegs abi mask : Ideal (List U64)) (mendedRegs abi mask) := by unfold mendedRegs; even
theorem Even.registers (mask : U64) : Even (mendedRegisters mask : Ideal (Registers List)) (mendedRegisters mask) := by
  unfold mendedRegisters
  exact .bind .u64 fun _ => .bind (.regs _ _) fun _ => .pure _
theorem Even.registersUser : Even (mendedRegistersUser : Ideal (Registers List)) mendedRegistersUser := .config fun _ => .registers _
theorem Even.registersIntr : Even (mendedRegistersIntr : Ideal (Registers List)) mendedRegistersIntr := .config fun _ => .registers _
theorem Even.auxData : Even (parseAuxData : Ideal (List Byte)) parseAuxData := by unfold parseAuxData; even
theorem Even.dynSize (size : U64) : Even (parseDynSize size : Ideal U64) (parseDynSize size) := by unfold parseDynSize; even
theorem Even.stackUser : Even (parseStackUser : Ideal (List Byte)) parseStackUser := by
  unfold parseStackUser
  exact .bind .u64 fun _ => .bind (.bytes _) fun _ => .bind (.dynSize _) fun _ => .ite (.fail _) (.pure _)

theorem Even.sample : Even (mendedSample : Ideal (Sample List)) mendedSample := by
  unfold mendedSample
  refine .config fun c => ?_
  refine .bind (.parseIf _ .u64) fun _ => .bind (.parseIf _ .u64) fun _ => .bind (.parseIf _ .u32) fun _ => .bind (.parseIf _ .u32) fun _ => ?_
  refine .bind (.parseIf _ .u64) fun _ => .bind (.parseIf _ .u64) fun _ => .bind (.parseIf _ .u64) fun _ => .bind (.parseIf _ .u64) fun _ => ?_
  refine .bind (.parseIf _ .cpu) fun _ => .bind (.parseIf _ .u64) fun _ => .bind (.parseIf _ .values) fun _ => ?_
  refine .bind (.parseIf _ .callchain) fun _ => .bind (.parseIf _ (.padded 8 .rawInner)) fun _ => .bind (.parseIf _ (.lbr _)) fun _ => ?_
  refine .bind (.parseIf _ .registersUser) fun _ => .bind (.parseIf _ .stackUser) fun _ => .bind (.parseIf _ .u64) fun _ => ?_
  refine .bind (.parseIf _ .u64) fun _ => .bind (.parseIf _ .u64) fun _ => .bind (.parseIf _ .registersIntr) fun _ => ?_
  refine .bind (.parseIf _ .u64) fun _ => .bind (.parseIf _ .u64) fun _ => .bind (.parseIf _ .u64) fun _ => .bind (.parseIf _ .u64) fun _ => ?_
  exact .bind (.parseIf _ .auxData) fun _ => .pure _

theorem Even.body (ty : U32) : Even (mendedBody ty : Ideal (Record List)) (mendedBody ty) := by
  unfold mendedBody
  split
  · exact .bind .mmap fun _ => .pure _
  · exact .bind .lost fun _ => .pure _
  · exact .bind .comm fun _ => .pure _
  · exact .bind .exit fun _ => .pure _
  · exact .bind .throttle fun _ => .pure _
  · exact .bind .throttle fun _ => .pure _
  · exact .bind .exit fun _ => .pure _
  · exact .bind .read fun _ => .pure _
  · exact .bind .sample fun _ => .pure _
  · exact .bind .mmap2 fun _ => .pure _
  · exact .bind .aux fun _ => .pure _
  · exact .bind .itraceStart fun _ => .pure _
  · exact .bind .lostSamples fun _ => .pure _
  · exact .pure _
  · exact .bind .switchCpuWide fun _ => .pure _
  · exact .bind .namespaces fun _ => .pure _
  · exact .bind .ksymbol fun _ => .pure _
  · exact .bind .bpfEvent fun _ => .pure _
  · exact .bind .cgroup fun _ => .pure _
  · exact .bind .textPoke fun _ => .pure _
  · exact .bind .auxOutputHwId fun _ => .pure _
  · exact .bind .restM fun _ => .pure _

theorem Ideal.frame_plain (h : Header) (i : Input) (o : Nat) : Ideal.frame h (i.plain o) = match Ideal.frame h i with
    | .error e => .error e
    | .ok (r, md) => .ok (r.plain r.off, md) := by
  unfold Ideal.frame
  rw [show SampleId.estimateLen (i.plain o).cfg = SampleId.estimateLen i.cfg from rfl, show (i.plain o).bytes = i.bytes from rfl,
    show (i.plain o).fin = i.fin from rfl]
  by_cases h1 : h.size.toNat < 8
  · simp only [if_pos h1]
  simp only [if_neg h1]
  by_cases h2 : i.bytes.length < h.size.toNat - 8
  · simp only [if_pos h2]
  simp only [if_neg h2]
  by_cases h3 : h.type_.toNat = 9
  · simp only [if_pos h3]
    rfl
  simp only [if_neg h3]
  by_cases h4 : h.size.toNat - 8 < SampleId.estimateLen i.cfg
  · simp only [if_pos h4]
  simp only [if_neg h4]
  have h5 := Even.sampleId ((Ideal.region i (h.size.toNat - 8)).adv (h.size.toNat - 8 - SampleId.estimateLen i.cfg))
    (h.size.toNat - 8 - SampleId.estimateLen i.cfg)
  have h6 : ((Ideal.region i (h.size.toNat - 8)).adv (h.size.toNat - 8 - SampleId.estimateLen i.cfg)).plain
      (h.size.toNat - 8 - SampleId.estimateLen i.cfg) =
    (Ideal.region (i.plain o) (h.size.toNat - 8)).adv (h.size.toNat - 8 - SampleId.estimateLen i.cfg) := by
    simp [Input.plain, Ideal.region, Input.adv]
  rw [h6] at h5
  rcases hr : (parseSampleId : Ideal SampleId)
    ((Ideal.region i (h.size.toNat - 8)).adv (h.size.toNat - 8 - SampleId.estimateLen i.cfg)) with e | ⟨sid, j⟩ <;> rw [hr] at h5
  · simp only [h5]
  · simp only [h5.1]
    rfl

theorem Ideal.recordWithHeader_plain (h : Header) (i : Input) (o : Nat) :
    Ideal.recordWithHeader h (i.plain o) = Ideal.recordWithHeader h i := by
  unfold Ideal.recordWithHeader
  rw [Ideal.frame_plain]
  rcases Ideal.frame h i with e | ⟨r, md⟩
  · rfl
  · have h1 := Even.body md.ty { r with cfg := r.cfg.withMisc md.misc } r.off
    dsimp only
    rw [show ({ r.plain r.off with cfg := (r.plain r.off).cfg.withMisc md.misc } : Input) =
      Input.plain { r with cfg := r.cfg.withMisc md.misc } r.off from rfl]
    rcases e6 : (mendedBody md.ty : Ideal (Record List)) { r with cfg := r.cfg.withMisc md.misc } with e | ⟨c, j⟩ <;> rw [e6] at h1
    · rw [show (mendedBody md.ty : Ideal (Record List)) _ = _ from h1]
    · rw [show (mendedBody md.ty : Ideal (Record List)) _ = _ from h1.1]

/-- The ideal outcome depends on the bytes, the error after them and the configuration without `is_native`, on nothing else. -/
theorem Ideal.record_plain (i : Input) (o : Nat) : Ideal.record (i.plain o) = Ideal.record i := by
  unfold Ideal.record
  have h1 := Even.header i o
  rcases e : (parseHeader : Ideal Header) i with e | ⟨h, j⟩ <;> rw [e] at h1
  · simp only [h1]
  · simp only [h1.1]
    exact Ideal.recordWithHeader_plain h j _

end Perf
