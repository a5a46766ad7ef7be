import Verif.Proof.MendedRec
/-!
# Whatever the crate accepts as a function of the bytes, the corrected crate reads in the same way
-/
namespace Perf
variable {α γ T : Type}
open ParserM

/-- The same input, without its place in memory. -/
def Flat.input (f : Flat) : Input := ⟨f.s.bytes, f.s.fin, f.off, f.cfg⟩

theorem Flat.input_flat (f : Flat) : f.input.flat f.s.al = f := rfl
theorem Flat.input_adv (f : Flat) (k : Nat) : (f.adv k).input = f.input.adv k := rfl

/-- What `m` accepts, `s` accepts with the same value, for inputs that fit into memory. -/
def IKeeps (m : Spec α) (s : Ideal α) : Prop := ∀ f a f', f.s.bytes.length < usizeLimit → m f = .ok (a, f') →
  s f.input = .ok (a, f'.input) ∧ f'.s.bytes.length ≤ f.s.bytes.length

theorem IKeeps.pure (a : α) : IKeeps (Pure.pure a : Spec α) (Pure.pure a) := by
  intro f b f' _ h
  cases h
  exact ⟨rfl, Nat.le_refl _⟩

theorem IKeeps.bind {m : Spec α} {s : Ideal α} {k : α → Spec γ} {l : α → Ideal γ} (h : IKeeps m s) (hk : ∀ a, IKeeps (k a) (l a)) :
    IKeeps (m >>= k) (s >>= l) := by
  intro f b f' hf hb
  rcases hm : m f with e | ⟨a, g⟩
  · rw [Spec.bind_err hm] at hb; cases hb
  · rw [Spec.bind_ok hm] at hb
    obtain ⟨h1, h2⟩ := h f a g hf hm
    rw [Ideal.bind_ok h1]
    obtain ⟨h3, h4⟩ := hk a g b f' (by omega) hb
    exact ⟨h3, by omega⟩

theorem IKeeps.ite {c : Prop} [Decidable c] {m m' : Spec α} {s s' : Ideal α} (h : c → IKeeps m s) (h' : ¬ c → IKeeps m' s') :
    IKeeps (if c then m else m') (if c then s else s') := by
  by_cases hc : c
  · rw [if_pos hc, if_pos hc]; exact h hc
  · rw [if_neg hc, if_neg hc]; exact h' hc

theorem IKeeps.config : IKeeps (ParserM.config : Spec ParseConfig) ParserM.config := by
  intro f b f' _ h
  cases h
  exact ⟨rfl, Nat.le_refl _⟩

theorem IKeeps.fail (e : ParseError) : IKeeps (ParserM.fail e : Spec α) (ParserM.fail e) := by
  intro f b f' _ h
  cases h

theorem IKeeps.take (n : Nat) : IKeeps (Spec.take n) (Ideal.take n) := by
  intro f b f' _ h
  unfold Spec.take at h
  by_cases hn : n ≤ f.s.bytes.length
  · rw [if_pos hn] at h
    cases h
    exact ⟨Ideal.take_ok hn, by simp⟩
  · rw [if_neg hn] at h; cases h

theorem IKeeps.bytes' (n : Nat) : IKeeps (Spec.bytes n) (Ideal.take n) := by
  intro f b f' hf h
  unfold Spec.bytes at h
  by_cases hn : f.s.bytes = []
  · rw [if_pos hn] at h; cases h
  · rw [if_neg hn] at h; exact IKeeps.take n f b f' hf h

theorem IKeeps.array (n : Nat) : IKeeps (ParserM.array n : Spec (List Byte)) (ParserM.array n) := IKeeps.bytes' n
theorem IKeeps.bytes (n : Nat) : IKeeps (ParserM.bytes n : Spec (List Byte)) (ParserM.bytes n) := IKeeps.bytes' n

theorem IKeeps.rest : IKeeps (ParserM.rest : Spec (List Byte)) ParserM.rest := by
  intro f b f' _ h
  change Spec.rest f = _ at h
  change Ideal.rest f.input = _ ∧ _
  unfold Spec.rest at h
  unfold Ideal.rest
  by_cases hn : f.s.bytes = []
  · rw [if_pos hn] at h; cases h
  · rw [if_neg hn] at h
    by_cases hk : f.s.fin.kind = .eof
    · rw [if_pos hk] at h
      cases h
      exact ⟨if_pos hk, by simp⟩
    · rw [if_neg hk] at h; cases h

theorem IKeeps.restTrimNul : IKeeps (ParserM.restTrimNul : Spec (List Byte)) ParserM.restTrimNul :=
  IKeeps.bind (m := Spec.rest) (s := Ideal.rest) IKeeps.rest fun _ => IKeeps.pure _

theorem IKeeps.padded (n : Nat) {m : Spec α} {s : Ideal α} (h : IKeeps m s) :
    IKeeps (ParserM.padded n m) (ParserM.padded n s) := by
  intro f b f' hf hb
  change Spec.padded n m f = _ at hb
  change Ideal.padded n s f.input = _ ∧ _
  unfold Spec.padded at hb
  unfold Ideal.padded
  by_cases h0 : n = 0
  · rw [if_pos h0] at hb; cases hb
  rw [if_neg h0] at hb
  rcases hm : m f with e | ⟨a, g⟩
  · rw [hm] at hb; cases hb
  rw [hm] at hb
  obtain ⟨h1, h2⟩ := h f a g hf hm
  rw [h1]
  simp only at hb ⊢
  by_cases hz : (g.off - f.off) % n = 0
  · rw [if_pos hz] at hb
    cases hb
    exact ⟨if_pos hz, h2⟩
  · rw [if_neg hz] at hb
    rcases ht : Spec.take (n - (g.off - f.off) % n) g with e | ⟨x, g'⟩
    · rw [ht] at hb; cases hb
    · rw [ht] at hb
      cases hb
      obtain ⟨h3, h4⟩ := IKeeps.take _ _ _ _ (by omega) ht
      refine ⟨(if_neg hz).trans ?_, by omega⟩
      rw [show (f.input.off = f.off) from rfl, show (g.input.off = g.off) from rfl, h3]

theorem IKeeps.repeated {m : Spec T} {s : Ideal T} (h : IKeeps m s) : ∀ n, IKeeps (Spec.repeated m n) (Ideal.repeated s n)
  | 0 => IKeeps.pure _
  | n + 1 => IKeeps.bind h fun _ => IKeeps.bind (IKeeps.repeated h n) fun _ => IKeeps.pure _

/-- Items that take at least `k` bytes. -/
def ICosts (k : Nat) (m : Spec T) : Prop := ∀ f a f', m f = .ok (a, f') → f'.s.bytes.length + k ≤ f.s.bytes.length

theorem ICosts.bind {m : Spec α} {k : α → Spec γ} {x y : Nat} (h : ICosts x m) (hk : ∀ a, ICosts y (k a)) : ICosts (x + y) (m >>= k) := by
  intro f b f' hb
  rcases hm : m f with e | ⟨a, g⟩
  · rw [Spec.bind_err hm] at hb; cases hb
  · rw [Spec.bind_ok hm] at hb
    have h1 := h f a g hm
    have h2 := hk a g b f' hb
    omega

theorem ICosts.pure (a : α) : ICosts 0 (Pure.pure a : Spec α) := by
  intro f b f' h
  cases h
  exact Nat.le_refl _

theorem ICosts.u64 : ICosts 8 (parseU64 : Spec U64) := by
  have h8 : ICosts 8 (Spec.bytes 8) := by
    intro f a f' h
    unfold Spec.bytes Spec.take at h
    by_cases h0 : f.s.bytes = []
    · rw [if_pos h0] at h; cases h
    · rw [if_neg h0] at h
      by_cases hn : 8 ≤ f.s.bytes.length
      · rw [if_pos hn] at h
        cases h
        simp; omega
      · rw [if_neg hn] at h; cases h
  have hc : ICosts 0 (ParserM.config : Spec ParseConfig) := by
    intro f a f' h
    cases h
    exact Nat.le_refl _
  exact ICosts.bind (x := 8) (y := 0) h8 fun _ => ICosts.bind (x := 0) (y := 0) hc fun _ => ICosts.pure _

theorem ICosts.namespaceEntry : ICosts 16 (parseNamespaceEntry : Spec NamespaceEntry) :=
  ICosts.bind (x := 8) (y := 8) ICosts.u64 fun _ => ICosts.bind (x := 8) (y := 0) ICosts.u64 fun _ => ICosts.pure _

theorem ICosts.branchEntry : ICosts 24 (parseBranchEntry : Spec BranchEntry) :=
  ICosts.bind (x := 8) (y := 16) ICosts.u64 fun _ => ICosts.bind (x := 8) (y := 8) ICosts.u64 fun _ =>
    ICosts.bind (x := 8) (y := 0) ICosts.u64 fun _ => ICosts.pure _

theorem ICosts.repeated {m : Spec T} {k : Nat} (h : ICosts k m) : ∀ n, ICosts (n * k) (Spec.repeated m n)
  | 0 => by rw [Nat.zero_mul]; exact ICosts.pure _
  | n + 1 => by
    rw [Nat.succ_mul, Nat.add_comm]
    exact ICosts.bind h fun _ => ICosts.bind (y := 0) (ICosts.repeated h n) fun _ => ICosts.pure _

theorem IKeeps.slice {e : Elem T} {m : Spec T} {s : Ideal T} (h : IKeeps m s) (hc : ICosts e.size m) (n : Nat) :
    IKeeps (ParserM.slice e m n : Spec (List T)) (ParserM.slice e s n : Ideal (List T)) := by
  intro f b f' hf hb
  change Spec.slice e m n f = _ at hb
  change Ideal.slice e s n f.input = _ ∧ _
  have hrep : Spec.repeated m n f = .ok (b, f') := by
    unfold Spec.slice at hb
    by_cases hn : f.cfg.endian.isNative = true
    · rw [if_pos hn] at hb
      split at hb
      · cases hb
      · split at hb
        · cases hb
        · split at hb
          · cases hb
          · exact hb
    · rw [if_neg hn] at hb; exact hb
  have hlen := ICosts.repeated hc n _ _ _ hrep
  unfold Ideal.slice
  rw [if_neg (by omega)]
  exact IKeeps.repeated h n f b f' hf hrep

theorem IKeeps.splitAt (l : List T) (n : Nat) :
    IKeeps (ParserM.cowSplitAt (M := Spec) l n) (ParserM.cowSplitAt (M := Ideal) l n) := by
  intro f b f' _ h
  change Spec.splitAt l n f = _ at h
  unfold Spec.splitAt at h
  split at h
  · cases h
  · cases h
    exact ⟨rfl, Nat.le_refl _⟩

/-! ## The records -/

theorem IKeeps.parseIf {m : Spec α} {s : Ideal α} (c : Bool) (h : IKeeps m s) : IKeeps (parseIf c m) (parseIf c s) := by
  cases c with
  | true => exact IKeeps.bind h fun _ => IKeeps.pure _
  | false => exact IKeeps.pure _

syntax "keeps_leaf" : tactic
macro_rules | `(tactic| keeps_leaf) => `(tactic| first
  | with_reducible exact IKeeps.config | with_reducible exact IKeeps.fail _ | with_reducible exact IKeeps.pure _
  | with_reducible exact IKeeps.array _ | with_reducible exact IKeeps.bytes _ | with_reducible exact IKeeps.rest | with_reducible exact IKeeps.restTrimNul
  | (with_reducible refine IKeeps.parseIf _ ?_; keeps_leaf; done))

/-- Walk through a `do` block on both sides. -/
macro "keeps" : tactic => `(tactic| repeat' (first
  | keeps_leaf
  | refine IKeeps.bind (by keeps_leaf) (fun _ => ?_)
  | refine IKeeps.ite (fun _ => ?_) (fun _ => ?_)))

theorem IKeeps.u8 : IKeeps (parseU8 : Spec U8) parseU8 := by unfold parseU8; keeps
theorem IKeeps.u16 : IKeeps (parseU16 : Spec U16) parseU16 := by unfold parseU16; keeps
theorem IKeeps.u32 : IKeeps (parseU32 : Spec U32) parseU32 := by unfold parseU32; keeps
theorem IKeeps.u64 : IKeeps (parseU64 : Spec U64) parseU64 := by unfold parseU64; keeps
macro_rules | `(tactic| keeps_leaf) => `(tactic| first
  | with_reducible exact IKeeps.u64 | with_reducible exact IKeeps.u32 | with_reducible exact IKeeps.u16 | with_reducible exact IKeeps.u8)
theorem IKeeps.cpu : IKeeps (parseCpu : Spec U32) parseCpu := by unfold parseCpu; keeps
macro_rules | `(tactic| keeps_leaf) => `(tactic| with_reducible exact IKeeps.cpu)
theorem IKeeps.sampleId : IKeeps (parseSampleId : Spec SampleId) parseSampleId := by unfold parseSampleId; keeps
theorem IKeeps.header : IKeeps (parseHeader : Spec Header) parseHeader := by unfold parseHeader; keeps
theorem IKeeps.mmap : IKeeps (parseMmap : Spec (Mmap List)) parseMmap := by unfold parseMmap; keeps
theorem IKeeps.lost : IKeeps (parseLost : Spec Lost) parseLost := by unfold parseLost; keeps
theorem IKeeps.comm : IKeeps (parseComm : Spec (Comm List)) parseComm := by unfold parseComm; keeps
theorem IKeeps.exit : IKeeps (parseExit : Spec Exit) parseExit := by unfold parseExit; keeps
theorem IKeeps.throttle : IKeeps (parseThrottle : Spec Throttle) parseThrottle := by unfold parseThrottle; keeps
theorem IKeeps.mmapDetail : IKeeps (parseMmapDetail : Spec MmapDetail) parseMmapDetail := by
  unfold parseMmapDetail
  refine IKeeps.bind IKeeps.config fun _ => IKeeps.ite (fun _ => ?_) fun _ => ?_
  · refine IKeeps.bind IKeeps.u8 fun _ => IKeeps.bind IKeeps.u8 fun _ => IKeeps.bind IKeeps.u16 fun _ => IKeeps.bind (IKeeps.array 20) fun _ => ?_
    exact IKeeps.ite (fun _ => IKeeps.fail _) fun _ => IKeeps.pure _
  · keeps
macro_rules | `(tactic| keeps_leaf) => `(tactic| with_reducible exact IKeeps.mmapDetail)
theorem IKeeps.mmap2 : IKeeps (parseMmap2 : Spec (Mmap2 List)) parseMmap2 := by unfold parseMmap2; keeps
theorem IKeeps.aux : IKeeps (parseAux : Spec Aux) parseAux := by unfold parseAux; keeps
theorem IKeeps.itraceStart : IKeeps (parseITraceStart : Spec ITraceStart) parseITraceStart := by unfold parseITraceStart; keeps
theorem IKeeps.lostSamples : IKeeps (parseLostSamples : Spec LostSamples) parseLostSamples := by unfold parseLostSamples; keeps
theorem IKeeps.switchCpuWide : IKeeps (parseSwitchCpuWide : Spec SwitchCpuWide) parseSwitchCpuWide := by unfold parseSwitchCpuWide; keeps
theorem IKeeps.ksymbol : IKeeps (parseKSymbol : Spec (KSymbol List)) parseKSymbol := by unfold parseKSymbol; keeps
theorem IKeeps.bpfEvent : IKeeps (parseBpfEvent : Spec BpfEvent) parseBpfEvent := by unfold parseBpfEvent; keeps
theorem IKeeps.cgroup : IKeeps (parseCGroup : Spec (CGroup List)) parseCGroup := by unfold parseCGroup; keeps
theorem IKeeps.auxOutputHwId : IKeeps (parseAuxOutputHwId : Spec AuxOutputHwId) parseAuxOutputHwId := by unfold parseAuxOutputHwId; keeps
theorem IKeeps.textPoke : IKeeps (parseTextPoke : Spec (TextPoke List)) parseTextPoke := by
  unfold parseTextPoke
  refine IKeeps.bind (by keeps_leaf) fun _ => IKeeps.bind (by keeps_leaf) fun _ => IKeeps.bind (by keeps_leaf) fun _ =>
    IKeeps.bind (by keeps_leaf) fun _ => IKeeps.bind (IKeeps.splitAt _ _) fun _ => IKeeps.pure _
theorem IKeeps.namespaceEntry : IKeeps (parseNamespaceEntry : Spec NamespaceEntry) parseNamespaceEntry := by unfold parseNamespaceEntry; keeps
theorem IKeeps.branchEntry : IKeeps (parseBranchEntry : Spec BranchEntry) parseBranchEntry := by unfold parseBranchEntry; keeps
theorem IKeeps.u64s (n : Nat) : IKeeps (ParserM.slice U64.elem parseU64 n : Spec (List U64)) (ParserM.slice U64.elem parseU64 n) :=
  IKeeps.slice IKeeps.u64 ICosts.u64 n
theorem IKeeps.entries (n : Nat) : IKeeps (ParserM.slice NamespaceEntry.elem parseNamespaceEntry n : Spec (List NamespaceEntry))
    (ParserM.slice NamespaceEntry.elem parseNamespaceEntry n) := IKeeps.slice IKeeps.namespaceEntry ICosts.namespaceEntry n
theorem IKeeps.branches (n : Nat) : IKeeps (ParserM.slice BranchEntry.elem parseBranchEntry n : Spec (List BranchEntry))
    (ParserM.slice BranchEntry.elem parseBranchEntry n) := IKeeps.slice IKeeps.branchEntry ICosts.branchEntry n
macro_rules | `(tactic| keeps_leaf) => `(tactic| first | with_reducible exact IKeeps.u64s _ | with_reducible exact IKeeps.entries _ | with_reducible exact IKeeps.branches _)
theorem IKeeps.namespaces : IKeeps (parseNamespaces : Spec (Namespaces List)) parseNamespaces := by unfold parseNamespaces; keeps
theorem IKeeps.readValue : IKeeps (parseReadValue : Spec ReadValue) parseReadValue := by unfold parseReadValue; keeps
macro_rules | `(tactic| keeps_leaf) => `(tactic| with_reducible exact IKeeps.readValue)
theorem IKeeps.read : IKeeps (parseRead : Spec Read) parseRead := by unfold parseRead; keeps
theorem IKeeps.readGroup : IKeeps (parseReadGroup : Spec (ReadGroup List)) parseReadGroup := by unfold parseReadGroup; keeps
macro_rules | `(tactic| keeps_leaf) => `(tactic| with_reducible exact IKeeps.readGroup)
theorem IKeeps.values : IKeeps (parseValues : Spec (ReadGroup List)) parseValues := by unfold parseValues; keeps; exact IKeeps.pure _
theorem IKeeps.callchain : IKeeps (parseCallchain : Spec (List U64)) parseCallchain := by unfold parseCallchain; keeps
theorem IKeeps.rawInner : IKeeps (parseRawInner : Spec (List Byte)) parseRawInner := by unfold parseRawInner; keeps
theorem IKeeps.lbr (b : Bool) : IKeeps (parseLbr b : Spec (List BranchEntry × Option U64)) (parseLbr b) := by unfold parseLbr; keeps
theorem IKeeps.auxData : IKeeps (parseAuxData : Spec (List Byte)) parseAuxData := by unfold parseAuxData; keeps
theorem IKeeps.dynSize (size : U64) : IKeeps (parseDynSize size : Spec U64) (parseDynSize size) := by unfold parseDynSize; keeps
macro_rules | `(tactic| keeps_leaf) => `(tactic| with_reducible exact IKeeps.dynSize _)
theorem IKeeps.stackUser : IKeeps (parseStackUser : Spec (List Byte)) parseStackUser := by unfold parseStackUser; keeps; exact IKeeps.pure _

/-! ## Samples -/

/-- What `m` accepts with a value in `Q`, `s` accepts with the same value. -/
def KeepsTo (Q : α → Prop) (m : Spec α) (s : Ideal α) : Prop := ∀ f a f', f.s.bytes.length < usizeLimit → m f = .ok (a, f') →
  Q a → s f.input = .ok (a, f'.input) ∧ f'.s.bytes.length ≤ f.s.bytes.length

/-- `m` returns no value in `Q`. -/
def INever (Q : α → Prop) (m : Spec α) : Prop := ∀ f a f', m f = .ok (a, f') → ¬ Q a

theorem INever.bind {Q : γ → Prop} {m : Spec α} {k : α → Spec γ} (h : ∀ a, INever Q (k a)) : INever Q (m >>= k) := by
  intro f b f' hb
  rcases hm : m f with e | ⟨a, g⟩
  · rw [Spec.bind_err hm] at hb; cases hb
  · rw [Spec.bind_ok hm] at hb
    exact h a g b f' hb

theorem INever.pure {Q : α → Prop} {a : α} (h : ¬ Q a) : INever Q (Pure.pure a : Spec α) := by
  intro f b f' hb
  cases hb
  exact h

theorem IKeeps.to {Q : α → Prop} {m : Spec α} {s : Ideal α} (h : IKeeps m s) : KeepsTo Q m s :=
  fun f a f' hf hm _ => h f a f' hf hm

theorem KeepsTo.bind {Q : γ → Prop} {m : Spec α} {s : Ideal α} {k : α → Spec γ} {l : α → Ideal γ} (h : IKeeps m s)
    (hk : ∀ a, KeepsTo Q (k a) (l a)) : KeepsTo Q (m >>= k) (s >>= l) := by
  intro f b f' hf hb hq
  rcases hm : m f with e | ⟨a, g⟩
  · rw [Spec.bind_err hm] at hb; cases hb
  · rw [Spec.bind_ok hm] at hb
    obtain ⟨h1, h2⟩ := h f a g hf hm
    rw [Ideal.bind_ok h1]
    obtain ⟨h3, h4⟩ := hk a g b f' (by omega) hb hq
    exact ⟨h3, by omega⟩

/-- A step that is only kept for values in `R`; the others never lead to a value in `Q`. -/
theorem KeepsTo.bindTo {Q : γ → Prop} {R : α → Prop} {m : Spec α} {s : Ideal α} {k : α → Spec γ} {l : α → Ideal γ} (h : KeepsTo R m s)
    (hk : ∀ a, KeepsTo Q (k a) (l a)) (hn : ∀ a, ¬ R a → INever Q (k a)) : KeepsTo Q (m >>= k) (s >>= l) := by
  intro f b f' hf hb hq
  rcases hm : m f with e | ⟨a, g⟩
  · rw [Spec.bind_err hm] at hb; cases hb
  · rw [Spec.bind_ok hm] at hb
    by_cases hr : R a
    · obtain ⟨h1, h2⟩ := h f a g hf hm hr
      rw [Ideal.bind_ok h1]
      obtain ⟨h3, h4⟩ := hk a g b f' (by omega) hb hq
      exact ⟨h3, by omega⟩
    · exact absurd hq (hn a hr g b f' hb)

/-- The registers were recorded: their ABI is not `PERF_SAMPLE_REGS_ABI_NONE`. -/
def Registers.Present (r : Registers List) : Prop := r.abi ≠ 0#64

/-- All registers of the sample were recorded. -/
def Sample.RegsPresent (s : Sample List) : Prop := (∀ r ∈ s.regsUser, r.Present) ∧ (∀ r ∈ s.regsIntr, r.Present)

theorem KeepsTo.registers (mask : U64) :
    KeepsTo Registers.Present (parseRegisters mask : Spec (Registers List)) (mendedRegisters mask) := by
  unfold parseRegisters mendedRegisters
  refine KeepsTo.bind IKeeps.u64 fun abi => ?_
  by_cases h : abi = 0#64
  · have hn : INever Registers.Present (ParserM.slice U64.elem parseU64 (popcount mask) >>= fun regs =>
        (Pure.pure { abi, mask, regs } : Spec (Registers List))) := INever.bind fun _ => INever.pure (by
      unfold Registers.Present
      exact fun h' => h' h)
    intro f a f' _ h1 h2
    exact absurd h2 (hn f a f' h1)
  · unfold mendedRegs
    rw [if_neg h]
    exact (IKeeps.bind (IKeeps.u64s _) fun _ => IKeeps.pure _).to

theorem KeepsTo.registersUser : KeepsTo Registers.Present (parseRegistersUser : Spec (Registers List)) mendedRegistersUser :=
  KeepsTo.bind IKeeps.config fun _ => KeepsTo.registers _
theorem KeepsTo.registersIntr : KeepsTo Registers.Present (parseRegistersIntr : Spec (Registers List)) mendedRegistersIntr :=
  KeepsTo.bind IKeeps.config fun _ => KeepsTo.registers _

theorem KeepsTo.parseIf {Q : α → Prop} {m : Spec α} {s : Ideal α} (c : Bool) (h : KeepsTo Q m s) :
    KeepsTo (fun o => ∀ x ∈ o, Q x) (parseIf c m) (parseIf c s) := by
  cases c with
  | true =>
    refine KeepsTo.bindTo h (fun _ => (IKeeps.pure _).to) fun a ha => INever.pure ?_
    exact fun h' => ha (h' a rfl)
  | false => exact (IKeeps.pure _).to

/-- Samples with recorded registers, without `WEIGHT_STRUCT`. -/
theorem KeepsTo.sample {f f' : Flat} {a : Sample List} (hf : f.s.bytes.length < usizeLimit)
    (hw : contains f.cfg.sampleType SampleFlags.WEIGHT_STRUCT = true → contains f.cfg.sampleType SampleFlags.WEIGHT = true)
    (h : (parseSample : Spec (Sample List)) f = .ok (a, f')) (ha : a.RegsPresent) :
    (mendedSample : Ideal (Sample List)) f.input = .ok (a, f'.input) ∧ f'.s.bytes.length ≤ f.s.bytes.length := by
  have hor : (contains f.cfg.sampleType SampleFlags.WEIGHT || contains f.cfg.sampleType SampleFlags.WEIGHT_STRUCT) =
      contains f.cfg.sampleType SampleFlags.WEIGHT := by
    cases h1 : contains f.cfg.sampleType SampleFlags.WEIGHT_STRUCT with
    | true => rw [hw h1]; rfl
    | false => exact Bool.or_false _
  unfold parseSample at h
  unfold mendedSample
  rw [Spec.bind_ok (m := (ParserM.config : Spec ParseConfig)) (a := f.cfg) (f' := f) rfl] at h
  rw [Ideal.bind_ok (m := (ParserM.config : Ideal ParseConfig)) (a := f.cfg) (i' := f.input) rfl]
  refine (?_ : KeepsTo Sample.RegsPresent _ _) f a f' hf h ha
  iterate 10 refine KeepsTo.bind (by keeps_leaf) fun _ => ?_
  refine KeepsTo.bind (IKeeps.parseIf _ IKeeps.values) fun _ => ?_
  refine KeepsTo.bind (IKeeps.parseIf _ IKeeps.callchain) fun _ => ?_
  refine KeepsTo.bind (IKeeps.parseIf _ (IKeeps.padded 8 IKeeps.rawInner)) fun _ => ?_
  refine KeepsTo.bind (IKeeps.parseIf _ (IKeeps.lbr _)) fun _ => ?_
  refine KeepsTo.bindTo (KeepsTo.parseIf _ KeepsTo.registersUser) (fun _ => ?_) fun r hr => ?_
  · refine KeepsTo.bind (IKeeps.parseIf _ IKeeps.stackUser) fun _ => ?_
    refine KeepsTo.bind (by rw [hor]; keeps_leaf) fun _ => ?_
    iterate 2 refine KeepsTo.bind (by keeps_leaf) fun _ => ?_
    refine KeepsTo.bindTo (KeepsTo.parseIf _ KeepsTo.registersIntr) (fun _ => ?_) fun r hr => ?_
    · iterate 4 refine KeepsTo.bind (by keeps_leaf) fun _ => ?_
      exact (IKeeps.bind (IKeeps.parseIf _ IKeeps.auxData) fun _ => IKeeps.pure _).to
    · iterate 5 refine INever.bind fun _ => ?_
      exact INever.pure fun h' => hr h'.2
  · iterate 10 refine INever.bind fun _ => ?_
    exact INever.pure fun h' => hr h'.1

/-- All registers of the record, if it is a SAMPLE, were recorded. -/
def Record.RegsPresent : Record List → Prop
  | .sample s => s.RegsPresent
  | _ => True

/-- What `m` accepts at `f` with a value in `Q`, `s` accepts with the same value. -/
def KeepsAt (f : Flat) (Q : α → Prop) (m : Spec α) (s : Ideal α) : Prop :=
  ∀ a f', m f = .ok (a, f') → Q a → s f.input = .ok (a, f'.input)

theorem KeepsAt.tag {f : Flat} {Q : Record List → Prop} {m : Spec α} {s : Ideal α} {k : α → Record List} (hf : f.s.bytes.length < usizeLimit)
    (h : IKeeps m s) : KeepsAt f Q (m >>= fun a => (Pure.pure (k a) : Spec (Record List)))
      (s >>= fun a => (Pure.pure (k a) : Ideal (Record List))) :=
  fun a f' hm _ => ((IKeeps.bind h fun _ => IKeeps.pure _) f a f' hf hm).1

/-- The body of a record that is not SWITCH. -/
theorem KeepsAt.body {f : Flat} (ty : U32) (hf : f.s.bytes.length < usizeLimit)
    (hw : ty.toNat = 9 → contains f.cfg.sampleType SampleFlags.WEIGHT_STRUCT = true → contains f.cfg.sampleType SampleFlags.WEIGHT = true)
    (h14 : ty.toNat ≠ 14) : KeepsAt f Record.RegsPresent (parseBody ty : Spec (Record List)) (mendedBody ty) := by
  unfold parseBody mendedBody
  generalize hn : ty.toNat = n at h14
  match n, hn, h14 with
  | 1, hn, _ => exact KeepsAt.tag hf IKeeps.mmap
  | 2, hn, _ => exact KeepsAt.tag hf IKeeps.lost
  | 3, hn, _ => exact KeepsAt.tag hf IKeeps.comm
  | 4, hn, _ => exact KeepsAt.tag hf IKeeps.exit
  | 5, hn, _ => exact KeepsAt.tag hf IKeeps.throttle
  | 6, hn, _ => exact KeepsAt.tag hf IKeeps.throttle
  | 7, hn, _ => exact KeepsAt.tag hf IKeeps.exit
  | 8, hn, _ => exact KeepsAt.tag hf IKeeps.read
  | 9, hn, _ =>
    intro a f' h ha
    change ((parseSample : Spec (Sample List)) >>= fun r => (Pure.pure (.sample r) : Spec (Record List))) f = _ at h
    change ((mendedSample : Ideal (Sample List)) >>= fun r => (Pure.pure (.sample r) : Ideal (Record List))) f.input = _
    rcases hs : (parseSample : Spec (Sample List)) f with e | ⟨r, g⟩
    · rw [Spec.bind_err hs] at h; cases h
    · rw [Spec.bind_ok hs] at h
      cases h
      rw [Ideal.bind_ok (KeepsTo.sample hf (hw hn) hs ha).1]
      rfl
  | 10, hn, _ => exact KeepsAt.tag hf IKeeps.mmap2
  | 11, hn, _ => exact KeepsAt.tag hf IKeeps.aux
  | 12, hn, _ => exact KeepsAt.tag hf IKeeps.itraceStart
  | 13, hn, _ => exact KeepsAt.tag hf IKeeps.lostSamples
  | 14, _, h => exact absurd rfl h
  | 15, hn, _ => exact KeepsAt.tag hf IKeeps.switchCpuWide
  | 16, hn, _ => exact KeepsAt.tag hf IKeeps.namespaces
  | 17, hn, _ => exact KeepsAt.tag hf IKeeps.ksymbol
  | 18, hn, _ => exact KeepsAt.tag hf IKeeps.bpfEvent
  | 19, hn, _ => exact KeepsAt.tag hf IKeeps.cgroup
  | 20, hn, _ => exact KeepsAt.tag hf IKeeps.textPoke
  | 21, hn, _ => exact KeepsAt.tag hf IKeeps.auxOutputHwId
  | 0, hn, _ => exact KeepsAt.tag hf IKeeps.rest
  | n + 22, _, _ => exact KeepsAt.tag hf IKeeps.rest

end Perf
