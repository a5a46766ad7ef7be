import Verif.Spec.Agree
import Verif.Proof.Place
import Verif.Proof.ConfigBits
import Verif.Proof.Fixed
/-!
# The parts of a configuration that a record depends on

`Twin` runs the parser on two sides under a relation `A` between the configurations. Here the bodies of the records
are run under relations that equate only what each body looks at.
-/
namespace Perf

/-- Bit `i` of the misc field is the same on both sides. -/
def SameMisc (A : ParseConfig → ParseConfig → Prop) (i : Nat) : Prop := ∀ c d, A c d → c.misc.getLsbD i = d.misc.getLsbD i

theorem misc_congr {x y : U16} (i : Nat) (m : U16) (hm : m = BitVec.twoPow 16 i) (hi : i < 16) (h : x.getLsbD i = y.getLsbD i) :
    (x &&& m ≠ 0#16) = (y &&& m ≠ 0#16) := by
  rw [propext (misc_bit x i m hm hi), propext (misc_bit y i m hm hi), h]

/-- Related configurations read integers the same way. -/
class IntTwin (A : ParseConfig → ParseConfig → Prop) : Prop where
  ints : ∀ {c d}, A c d → SameInts c d

/-- The read format is the same on both sides. -/
def SameFormat (A : ParseConfig → ParseConfig → Prop) : Prop := ∀ c d, A c d → c.readFormat = d.readFormat

namespace Twin
variable {s : Bool} {A : ParseConfig → ParseConfig → Prop} {R : β → γ → Prop} [ParseBuf β] [ParseBuf γ]

theorem u8 (S : BufTwin s R) : Twin s A R Eq (parseU8 : P β U8) parseU8 := bindEq (array S 1) fun _ => pure rfl

theorem parseIf {α : Type} {m : P β α} {m' : P γ α} {c c' : Bool} (hc : c = c') (hm : c = true → Twin s A R Eq m m') :
    Twin s A R Eq (Perf.parseIf c m) (Perf.parseIf c' m') := by
  subst hc
  cases c with
  | true => exact bindEq (hm rfl) fun _ => pure rfl
  | false => exact pure rfl

theorem restTrimNul (S : BufTwin s R) : Twin s A R Eq (P.restTrimNul : P β _) P.restTrimNul := bindEq (rest S) fun _ => pure rfl

theorem cowSplitAt {T : Type} (c : Cow T) (n : Nat) :
    Twin s A R Eq (ParserM.cowSplitAt c n : P β (Cow T × Cow T)) (ParserM.cowSplitAt c n) := by
  show Twin s A R Eq (match c.splitAt n with | some r => Pure.pure r | none => P.fault .panic) (match c.splitAt n with | some r => Pure.pure r | none => P.fault .panic)
  cases c.splitAt n with
  | none => exact fault _
  | some r => exact pure rfl

omit [ParseBuf β] [ParseBuf γ] in
theorem iteIff {α : Type} {c d : Prop} [Decidable c] [Decidable d] {m n : P β α} {m' n' : P γ α} (h : c ↔ d)
    (hm : Twin s A R Eq m m') (hn : Twin s A R Eq n n') : Twin s A R Eq (if c then m else n) (if d then m' else n') := by
  by_cases hc : c
  · rw [if_pos hc, if_pos (h.mp hc)]; exact hm
  · rw [if_neg hc, if_neg (mt h.mpr hc)]; exact hn

variable [E : IntTwin A] (S : BufTwin s R)
include S E

theorem u16 : Twin s A R Eq (parseU16 : P β U16) parseU16 :=
  bindEq (array S 2) fun _ => withConfig fun _ _ h _ => pure (by rw [(E.ints h).conv16])
theorem u32 : Twin s A R Eq (parseU32 : P β U32) parseU32 :=
  bindEq (array S 4) fun _ => withConfig fun _ _ h _ => pure (by rw [(E.ints h).conv32])
theorem u64 : Twin s A R Eq (parseU64 : P β U64) parseU64 :=
  bindEq (array S 8) fun _ => withConfig fun _ _ h _ => pure (by rw [(E.ints h).conv64])

/-- One step of a parser. -/
syntax "twin_leaf" term : tactic
macro_rules | `(tactic| twin_leaf $h) => `(tactic| first
  | exact Twin.u64 $h | exact Twin.u32 $h | exact Twin.u16 $h | exact Twin.u8 $h
  | (with_reducible refine Twin.parseIf rfl fun _ => ?_; twin_leaf $h; done)
  | (with_reducible refine Twin.padded $h _ ?_; twin_leaf $h; done)
  | (refine Twin.slice $h _ _ ?_; twin_leaf $h; done)
  | exact Twin.array $h _ | exact Twin.bytes $h _ | exact Twin.rest $h | exact Twin.restTrimNul $h
  | exact Twin.cowSplitAt _ _)

/-- Walk through a `do` block on both sides. -/
macro "twin" h:term : tactic => `(tactic| repeat' (first
  | exact Twin.fail _
  | exact Twin.pure rfl
  | twin_leaf $h
  | refine Twin.bindEq (by twin_leaf $h) (fun _ => ?_)
  | refine Twin.ite (fun _ => ?_) (fun _ => ?_)))

theorem mmap : Twin s A R Eq (parseMmap : P β (Mmap Cow)) parseMmap := by unfold parseMmap; twin S
theorem lost : Twin s A R Eq (parseLost : P β Lost) parseLost := by unfold parseLost; twin S
theorem comm : Twin s A R Eq (parseComm : P β (Comm Cow)) parseComm := by unfold parseComm; twin S
theorem exit : Twin s A R Eq (parseExit : P β Exit) parseExit := by unfold parseExit; twin S
theorem throttle : Twin s A R Eq (parseThrottle : P β Throttle) parseThrottle := by unfold parseThrottle; twin S
theorem mmapDetail (F : SameMisc A 14) : Twin s A R Eq (parseMmapDetail : P β MmapDetail) parseMmapDetail := by
  unfold parseMmapDetail
  refine withConfig fun c d h _ => ?_
  refine iteIff (iff_of_eq (misc_congr 14 MISC_MMAP_BUILD_ID (by decide) (by omega) (F c d h))) ?_ ?_
  · twin S
  · twin S
theorem mmap2 (F : SameMisc A 14) : Twin s A R Eq (parseMmap2 : P β (Mmap2 Cow)) parseMmap2 := by
  unfold parseMmap2
  iterate 2 refine bindEq (u32 S) fun _ => ?_
  iterate 3 refine bindEq (u64 S) fun _ => ?_
  refine bindEq (mmapDetail S F) fun _ => ?_
  twin S
theorem aux : Twin s A R Eq (parseAux : P β Aux) parseAux := by unfold parseAux; twin S
theorem itraceStart : Twin s A R Eq (parseITraceStart : P β ITraceStart) parseITraceStart := by unfold parseITraceStart; twin S
theorem lostSamples : Twin s A R Eq (parseLostSamples : P β LostSamples) parseLostSamples := by unfold parseLostSamples; twin S
theorem switchCpuWide (F : SameMisc A 13) : Twin s A R Eq (parseSwitchCpuWide : P β SwitchCpuWide) parseSwitchCpuWide := by
  unfold parseSwitchCpuWide
  iterate 2 refine bindEq (u32 S) fun _ => ?_
  refine withConfig fun c d h _ => ?_
  refine iteIff (iff_of_eq (misc_congr 13 MISC_SWITCH_OUT (by decide) (by omega) (F c d h))) ?_ ?_
  · twin S
  · twin S
theorem namespaceEntry : Twin s A R Eq (parseNamespaceEntry : P β NamespaceEntry) parseNamespaceEntry := by
  unfold parseNamespaceEntry; twin S
macro_rules | `(tactic| twin_leaf $h) => `(tactic| exact Twin.namespaceEntry $h)
theorem namespaces [ListTwin A] : Twin s A R Eq (parseNamespaces : P β (Namespaces Cow)) parseNamespaces := by unfold parseNamespaces; twin S
theorem ksymbol : Twin s A R Eq (parseKSymbol : P β (KSymbol Cow)) parseKSymbol := by unfold parseKSymbol; twin S
theorem bpfEvent : Twin s A R Eq (parseBpfEvent : P β BpfEvent) parseBpfEvent := by unfold parseBpfEvent; twin S
theorem cgroup : Twin s A R Eq (parseCGroup : P β (CGroup Cow)) parseCGroup := by unfold parseCGroup; twin S
theorem textPoke : Twin s A R Eq (parseTextPoke : P β (TextPoke Cow)) parseTextPoke := by unfold parseTextPoke; twin S
theorem auxOutputHwId : Twin s A R Eq (parseAuxOutputHwId : P β AuxOutputHwId) parseAuxOutputHwId := by
  unfold parseAuxOutputHwId; twin S
theorem cpu : Twin s A R Eq (parseCpu : P β U32) parseCpu := by unfold parseCpu; twin S
macro_rules | `(tactic| twin_leaf $h) => `(tactic| exact Twin.cpu $h)

theorem readValue (F : SameFormat A) : Twin s A R Eq (parseReadValue : P β ReadValue) parseReadValue := by
  unfold parseReadValue
  refine withConfig fun c d h _ => ?_
  dsimp only
  rw [F c d h]
  twin S
theorem readGroup [ListTwin A] (F : SameFormat A) : Twin s A R Eq (parseReadGroup : P β (ReadGroup Cow)) parseReadGroup := by
  unfold parseReadGroup
  refine withConfig fun c d h _ => ?_
  dsimp only
  rw [F c d h]
  twin S
theorem read (F : SameFormat A) : Twin s A R Eq (parseRead : P β Read) parseRead :=
  bindEq (u32 S) fun _ => bindEq (u32 S) fun _ => bindEq (readValue S F) fun _ => pure rfl
theorem branchEntry : Twin s A R Eq (parseBranchEntry : P β BranchEntry) parseBranchEntry := by unfold parseBranchEntry; twin S
macro_rules | `(tactic| twin_leaf $h) => `(tactic| exact Twin.branchEntry $h)
theorem registers [ListTwin A] (mask : U64) : Twin s A R Eq (parseRegisters mask : P β (Registers Cow)) (parseRegisters mask) := by
  unfold parseRegisters; twin S
theorem registersUser [ListTwin A] (h : ∀ c d, A c d → c.regsUser = d.regsUser) :
    Twin s A R Eq (parseRegistersUser : P β (Registers Cow)) parseRegistersUser :=
  withConfig fun c d hc _ => by rw [h c d hc]; exact registers S _
theorem registersIntr [ListTwin A] (h : ∀ c d, A c d → c.regsIntr = d.regsIntr) :
    Twin s A R Eq (parseRegistersIntr : P β (Registers Cow)) parseRegistersIntr :=
  withConfig fun c d hc _ => by rw [h c d hc]; exact registers S _
theorem callchain [ListTwin A] : Twin s A R Eq (parseCallchain : P β (Cow U64)) parseCallchain := by unfold parseCallchain; twin S
theorem rawInner : Twin s A R Eq (parseRawInner : P β (Cow Byte)) parseRawInner := by unfold parseRawInner; twin S
theorem lbr [ListTwin A] (b : Bool) : Twin s A R Eq (parseLbr b : P β (Cow BranchEntry × Option U64)) (parseLbr b) := by unfold parseLbr; twin S
theorem dynSize (n : U64) : Twin s A R Eq (parseDynSize n : P β U64) (parseDynSize n) := by unfold parseDynSize; twin S
theorem stackUser : Twin s A R Eq (parseStackUser : P β (Cow Byte)) parseStackUser := by
  unfold parseStackUser
  exact bindEq (u64 S) fun _ => bindEq (bytes S _) fun _ => bindEq (dynSize S _) fun _ => ite (fun _ => fail _) fun _ => pure rfl
theorem auxData : Twin s A R Eq (parseAuxData : P β (Cow Byte)) parseAuxData := by unfold parseAuxData; twin S
theorem header : Twin s A R Eq (parseHeader : P β Header) parseHeader := by unfold parseHeader; twin S

end Twin

/-! ## One pair of configurations -/

/-- The relation that holds of `c` and `d` only. -/
def Just (c d : ParseConfig) : ParseConfig → ParseConfig → Prop := fun c' d' => c' = c ∧ d' = d

/-- The configuration never changes, so it is enough to look at one pair at a time. -/
theorem Twin.focus {α α' : Type} {s : Bool} {A : ParseConfig → ParseConfig → Prop} {R : β → γ → Prop} {V : α → α' → Prop}
    {m : P β α} {m' : P γ α'} (h : ∀ c d, A c d → Twin s (Just c d) R V m m') : Twin s A R V m m' := by
  intro p q hp
  obtain ⟨h1, h2, h3⟩ := h _ _ hp.config p q ⟨hp.buf, hp.offset, ⟨rfl, rfl⟩, hp.foreign⟩
  exact ⟨h1, h2, h3.buf, h3.offset, by rw [h3.config.1, h3.config.2]; exact hp.config, h3.foreign⟩

/-! ## What the bodies look at -/

instance {ty : Nat} : IntTwin (BodyAgree ty) := ⟨fun h => h.ints⟩
instance {ty : Nat} : IntTwin (Agree ty) := ⟨fun h => h.ints⟩

theorem SameInts.refl {c : ParseConfig} : SameInts c c := ⟨rfl, rfl, rfl⟩
theorem SameNative.refl {c : ParseConfig} : SameNative c c := ⟨rfl, rfl⟩
theorem SameInts.just {c d : ParseConfig} (h : SameInts c d) : IntTwin (Just c d) := ⟨fun e => by rw [e.1, e.2]; exact h⟩
theorem SameNative.just {c d : ParseConfig} (h : SameNative c d) : ListTwin (Just c d) :=
  ⟨fun e => by rw [e.1, e.2]; exact h.isNative, fun e => by rw [e.1, e.2]; exact h.host⟩

theorem TrailerAgree.estimateLen {c d : ParseConfig} (h : TrailerAgree c d) : SampleId.estimateLen c = SampleId.estimateLen d := by
  rw [estimateLen_eq, estimateLen_eq, ← h.all]
  cases hc : c.sampleIdAll with
  | false => rfl
  | true =>
    rw [if_pos rfl, if_pos rfl]
    unfold trailerLen
    have hb := h.bits hc
    congr 2
    refine List.filter_congr fun i hi => hb i ?_
    simp only [List.mem_cons, List.not_mem_nil, or_false] at hi ⊢
    omega

theorem contains_congr {x y : U64} (i : Nat) (hi : i < 64) (h : x.getLsbD i = y.getLsbD i) :
    contains x (1#64 <<< i) = contains y (1#64 <<< i) := by
  rw [contains_bit x i hi, contains_bit y i hi, h]

namespace Twin
variable {s : Bool} {R : β → γ → Prop} [ParseBuf β] [ParseBuf γ] (S : BufTwin s R)
include S

theorem sampleId {A : ParseConfig → ParseConfig → Prop} [IntTwin A] (h : ∀ c d, A c d → TrailerAgree c d) :
    Twin s A R Eq (parseSampleId : P β SampleId) parseSampleId := by
  unfold parseSampleId
  refine withConfig fun c d hc _ => ?_
  have ht := h c d hc
  dsimp only
  rw [← ht.all]
  refine ite (fun _ => pure rfl) fun hn => ?_
  have hb := ht.bits (by cases hx : c.sampleIdAll <;> simp_all)
  have hb : ∀ i ∈ [1, 2, 6, 7, 9, 16], contains c.sampleType (1#64 <<< i) = contains d.sampleType (1#64 <<< i) := fun i hi =>
    contains_congr i (by simp only [List.mem_cons, List.not_mem_nil, or_false] at hi; omega) (hb i hi)
  refine bindEq (parseIf (hb 1 (by decide)) fun _ => u32 S) fun _ => bindEq (parseIf (hb 1 (by decide)) fun _ => u32 S) fun _ => ?_
  refine bindEq (parseIf (hb 2 (by decide)) fun _ => u64 S) fun _ => bindEq (parseIf (hb 6 (by decide)) fun _ => u64 S) fun _ => ?_
  refine bindEq (parseIf (hb 9 (by decide)) fun _ => u64 S) fun _ => bindEq (parseIf (hb 7 (by decide)) fun _ => cpu S) fun _ => ?_
  exact bindEq (parseIf (hb 16 (by decide)) fun _ => u64 S) fun _ => pure rfl

theorem values {c d : ParseConfig} [IntTwin (Just c d)] (F : c.readFormat = d.readFormat)
    (N : contains c.readFormat ReadFormat.GROUP = true → ListTwin (Just c d)) :
    Twin s (Just c d) R Eq (parseValues : P β (ReadGroup Cow)) parseValues := by
  have F' : SameFormat (Just c d) := fun _ _ h => by rw [h.1, h.2, F]
  unfold parseValues
  refine withConfig fun c' d' h _ => ?_
  obtain ⟨rfl, rfl⟩ := h
  rw [← F]
  refine ite (fun h => ?_) fun _ => bindEq (readValue S F') fun v => pure rfl
  have := N h
  exact readGroup S F'

theorem sample {A : ParseConfig → ParseConfig → Prop} [IntTwin A] (h : ∀ c d, A c d → SampleAgree c d ∧ (HasLists 9 c → SameNative c d)) :
    Twin s A R Eq (parseSample : P β (Sample Cow)) parseSample := by
  refine focus fun c d hA => ?_
  obtain ⟨hs, hn⟩ := h c d hA
  have := (IntTwin.ints hA).just
  have hb : ∀ i < 24, contains c.sampleType (1#64 <<< i) = contains d.sampleType (1#64 <<< i) := fun i hi =>
    contains_congr i (by omega) (hs.bits i hi)
  have hg : ∀ i < 24, contains c.sampleType (1#64 <<< i) = true → c.sampleType.getLsbD i = true := fun i hi hx => by
    rwa [contains_bit _ i (by omega)] at hx
  unfold parseSample
  refine withConfig fun c' d' hc _ => ?_
  obtain ⟨rfl, rfl⟩ := hc
  dsimp only
  refine bindEq (parseIf (hb 16 (by decide)) fun _ => u64 S) fun _ => bindEq (parseIf (hb 0 (by decide)) fun _ => u64 S) fun _ => ?_
  refine bindEq (parseIf (hb 1 (by decide)) fun _ => u32 S) fun _ => bindEq (parseIf (hb 1 (by decide)) fun _ => u32 S) fun _ => ?_
  refine bindEq (parseIf (hb 2 (by decide)) fun _ => u64 S) fun _ => bindEq (parseIf (hb 3 (by decide)) fun _ => u64 S) fun _ => ?_
  refine bindEq (parseIf (hb 6 (by decide)) fun _ => u64 S) fun _ => bindEq (parseIf (hb 9 (by decide)) fun _ => u64 S) fun _ => ?_
  refine bindEq (parseIf (hb 7 (by decide)) fun _ => cpu S) fun _ => bindEq (parseIf (hb 8 (by decide)) fun _ => u64 S) fun _ => ?_
  refine bindEq (parseIf (hb 4 (by decide)) fun hx => values S (hs.read (hg 4 (by decide) hx)) fun hy => (hn (.inr ⟨rfl, .inr (.inr (.inr (.inr ⟨hg 4 (by decide) hx, ?_⟩)))⟩)).just) fun _ => ?_
  · rw [← contains_bit _ 3 (by decide)]; exact hy
  refine bindEq (parseIf (hb 5 (by decide)) fun hx => ?_) fun _ => ?_
  · have := (hn (.inr ⟨rfl, .inl (hg 5 (by decide) hx)⟩)).just
    exact callchain S
  refine bindEq (parseIf (hb 10 (by decide)) fun _ => padded S 8 (rawInner S)) fun _ => ?_
  refine bindEq (parseIf (hb 11 (by decide)) fun hx => ?_) fun _ => ?_
  · have := (hn (.inr ⟨rfl, .inr (.inl (hg 11 (by decide) hx))⟩)).just
    rw [hs.branch (hg 11 (by decide) hx)]; exact lbr S _
  refine bindEq (parseIf (hb 12 (by decide)) fun hx => ?_) fun _ => ?_
  · have := (hn (.inr ⟨rfl, .inr (.inr (.inl (hg 12 (by decide) hx)))⟩)).just
    refine registersUser S ?_
    rintro _ _ ⟨rfl, rfl⟩; exact hs.user (hg 12 (by decide) hx)
  refine bindEq (parseIf (hb 13 (by decide)) fun _ => stackUser S) fun _ => bindEq (parseIf (hb 14 (by decide)) fun _ => u64 S) fun _ => ?_
  refine bindEq (parseIf (hb 15 (by decide)) fun _ => u64 S) fun _ => bindEq (parseIf (hb 17 (by decide)) fun _ => u64 S) fun _ => ?_
  refine bindEq (parseIf (hb 18 (by decide)) fun hx => ?_) fun _ => ?_
  · have := (hn (.inr ⟨rfl, .inr (.inr (.inr (.inl (hg 18 (by decide) hx))))⟩)).just
    refine registersIntr S ?_
    rintro _ _ ⟨rfl, rfl⟩; exact hs.intr (hg 18 (by decide) hx)
  refine bindEq (parseIf (hb 19 (by decide)) fun _ => u64 S) fun _ => bindEq (parseIf (hb 21 (by decide)) fun _ => u64 S) fun _ => ?_
  refine bindEq (parseIf (hb 22 (by decide)) fun _ => u64 S) fun _ => bindEq (parseIf (hb 23 (by decide)) fun _ => u64 S) fun _ => ?_
  exact bindEq (parseIf (hb 20 (by decide)) fun _ => auxData S) fun _ => pure rfl

theorem body (ty : U32) : Twin s (BodyAgree ty.toNat) R Eq (parseBody ty : P β (Record Cow)) (parseBody ty) := by
  unfold parseBody
  split
  · exact bindEq (mmap S) fun _ => pure rfl
  · exact bindEq (lost S) fun _ => pure rfl
  · exact bindEq (comm S) fun _ => pure rfl
  · exact bindEq (exit S) fun _ => pure rfl
  · exact bindEq (throttle S) fun _ => pure rfl
  · exact bindEq (throttle S) fun _ => pure rfl
  · exact bindEq (exit S) fun _ => pure rfl
  · exact bindEq (read S fun _ _ h => h.read ‹_›) fun _ => pure rfl
  · exact bindEq (sample S fun _ _ h => ⟨h.sample ‹_›, fun hl => h.native (by rw [‹ty.toNat = 9›]; exact hl)⟩) fun _ => pure rfl
  · exact bindEq (mmap2 S fun _ _ h => h.detail ‹_›) fun _ => pure rfl
  · exact bindEq (aux S) fun _ => pure rfl
  · exact bindEq (itraceStart S) fun _ => pure rfl
  · exact bindEq (lostSamples S) fun _ => pure rfl
  · exact bindEq (switchCpuWide S fun _ _ h => h.out ‹_›) fun _ => pure rfl
  · have : ListTwin (BodyAgree ty.toNat) := ⟨fun h => (h.native (.inl ‹_›)).isNative, fun h => (h.native (.inl ‹_›)).host⟩
    exact bindEq (namespaces S) fun _ => pure rfl
  · exact bindEq (ksymbol S) fun _ => pure rfl
  · exact bindEq (bpfEvent S) fun _ => pure rfl
  · exact bindEq (cgroup S) fun _ => pure rfl
  · exact bindEq (textPoke S) fun _ => pure rfl
  · exact bindEq (auxOutputHwId S) fun _ => pure rfl
  · exact bindEq (rest S) fun _ => pure rfl

end Twin

theorem SampleAgree.withMisc {c d : ParseConfig} (h : SampleAgree c d) (m : U16) : SampleAgree (c.withMisc m) (d.withMisc m) where
  bits := by rw [ParseConfig.withMisc_sampleType, ParseConfig.withMisc_sampleType]; exact h.bits
  read := by rw [ParseConfig.withMisc_sampleType, ParseConfig.withMisc_readFormat, ParseConfig.withMisc_readFormat]; exact h.read
  branch := by rw [ParseConfig.withMisc_sampleType, ParseConfig.withMisc_branchHwIndex, ParseConfig.withMisc_branchHwIndex]; exact h.branch
  user := by rw [ParseConfig.withMisc_sampleType]; exact h.user
  intr := by rw [ParseConfig.withMisc_sampleType]; exact h.intr

theorem Agree.withMisc {ty : Nat} {c d : ParseConfig} (h : Agree ty c d) (m : U16) : BodyAgree ty (c.withMisc m) (d.withMisc m) where
  ints := ⟨h.ints.conv16, h.ints.conv32, h.ints.conv64⟩
  native hl := by
    unfold HasLists at hl
    rw [ParseConfig.withMisc_sampleType, ParseConfig.withMisc_readFormat] at hl
    exact ⟨(h.native hl).isNative, (h.native hl).host⟩
  detail _ := by rw [ParseConfig.withMisc_misc, ParseConfig.withMisc_misc]
  out _ := by rw [ParseConfig.withMisc_misc, ParseConfig.withMisc_misc]
  read hr := by rw [ParseConfig.withMisc_readFormat, ParseConfig.withMisc_readFormat]; exact h.read hr
  sample hs := (h.sample hs).withMisc m

/-- A buffer and itself. -/
theorem BufTwin.refl [ParseBuf β] : BufTwin (β := β) true Eq where
  chunk b c h := by
    subst h
    refine ⟨?_, rfl⟩
    rcases (ParseBuf.chunk b).1 with e | ⟨l, x⟩
    · rfl
    · refine ⟨rfl, ?_⟩
      cases l
      · trivial
      · exact fun _ => rfl
  advance b c n h := by
    subst h
    cases ParseBuf.advance b n
    · trivial
    · rfl
  hint b c h := by rw [h]
  steps b c h := by rw [h]

namespace Twin
variable {s : Bool} {R : β → γ → Prop} [ParseBuf β] [ParseBuf γ] (S : BufTwin s R) {O : Type}
include S

theorem metadataAgree (h : Header) :
    Twin s (Agree h.type_.toNat) R (fun a b => TwinP s (Agree h.type_.toNat) (Cursor.Like s) a.1 b.1 ∧ a.2 = b.2 ∧ a.2.ty = h.type_ ∧ a.2.misc = h.misc)
      (P.metadataWithHeader h : P β _) (P.metadataWithHeader h) :=
  metadataWithHeader' S h fun hty => ⟨fun _ _ hc => (hc.trailer hty).estimateLen, sampleId (Cursor.twin s) fun _ _ hc => hc.trailer hty⟩

theorem recordAgree (v : Visitor Cow O) (h : Header) : Twin s (Agree h.type_.toNat) R Eq (P.recordWithHeader v h : P β O) (P.recordWithHeader v h) :=
  recordWithHeader' (B := BodyAgree h.type_.toNat) S v h
    (fun hty => ⟨fun _ _ hc => (hc.trailer hty).estimateLen, sampleId (Cursor.twin s) fun _ _ hc => hc.trailer hty⟩)
    (fun _ _ hc => hc.withMisc _) (fun S' => body S' _)

end Twin
end Perf
