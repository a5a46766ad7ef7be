import Verif.Proof.Logic
import Verif.Spec.View
/-!
# Every record parser refines its flat reading and is safe
-/
namespace Perf
variable {β : Type} [ParseBuf β] [Lawful β] {α α' : Type}
open ParserM

/-- Values related by a projection. -/
def Via (g : α → α') (a : α) (c : α') : Prop := g a = c

/-! ## Integers -/

theorem Refines.u8 : Refines Eq (parseU8 : P β U8) (parseU8 : Spec U8) :=
  Refines.bind (Refines.array 1) fun _ _ h => Refines.pure (by rw [h])
theorem Refines.u16 : Refines Eq (parseU16 : P β U16) (parseU16 : Spec U16) :=
  Refines.bind (Refines.array 2) fun _ _ h => Refines.bind Refines.config fun _ _ h' => Refines.pure (by rw [h, h'])
theorem Refines.u32 : Refines Eq (parseU32 : P β U32) (parseU32 : Spec U32) :=
  Refines.bind (Refines.array 4) fun _ _ h => Refines.bind Refines.config fun _ _ h' => Refines.pure (by rw [h, h'])
theorem Refines.u64 : Refines Eq (parseU64 : P β U64) (parseU64 : Spec U64) :=
  Refines.bind (Refines.array 8) fun _ _ h => Refines.bind Refines.config fun _ _ h' => Refines.pure (by rw [h, h'])

theorem Refines.parseIf_eq {m : P β α} {s : Spec α} (c : Bool) (h : Refines Eq m s) :
    Refines Eq (parseIf c m) (parseIf c s) := by
  cases c with
  | true => exact Refines.bind h fun _ _ h => Refines.pure (by rw [h])
  | false => exact Refines.pure rfl

theorem Refines.parseIf_via {g : α → α'} {m : P β α} {s : Spec α'} (c : Bool) (h : Refines (Via g) m s) :
    Refines (Via (Option.map g)) (parseIf c m) (parseIf c s) := by
  cases c with
  | true => exact Refines.bind h fun _ _ h => Refines.pure (by rw [← h]; rfl)
  | false => exact Refines.pure rfl

theorem Safe.triv {B : Nat} {Q : α → Prop} {m : P β α} (h : Safe B Q m) : Safe B (fun _ => True) m :=
  h.mono fun _ _ => trivial
theorem Safe.u8 {B : Nat} : Safe B (fun _ => True) (parseU8 : P β U8) :=
  Safe.bind (Safe.array 1) fun _ _ => Safe.pure trivial
theorem Safe.u16 {B : Nat} : Safe B (fun _ => True) (parseU16 : P β U16) :=
  Safe.bind (Safe.array 2) fun _ _ => Safe.bind Safe.config fun _ _ => Safe.pure trivial
theorem Safe.u32 {B : Nat} : Safe B (fun _ => True) (parseU32 : P β U32) :=
  Safe.bind (Safe.array 4) fun _ _ => Safe.bind Safe.config fun _ _ => Safe.pure trivial
theorem Safe.u64 {B : Nat} : Safe B (fun _ => True) (parseU64 : P β U64) :=
  Safe.bind (Safe.array 8) fun _ _ => Safe.bind Safe.config fun _ _ => Safe.pure trivial
theorem Safe.parseIf {B : Nat} {m : P β α} {c : Bool} (h : c = true → Safe B (fun _ => True) m) :
    Safe B (fun _ => True) (parseIf c m) := by
  cases c with
  | true => exact Safe.bind (h rfl) fun _ _ => Safe.pure trivial
  | false => exact Safe.pure trivial

/-! ## Automation -/

/-- Close a goal for one step of a parser. -/
syntax "refines_leaf" : tactic
macro_rules | `(tactic| refines_leaf) => `(tactic| first
  | exact Refines.u64 | exact Refines.u32 | exact Refines.u16 | exact Refines.u8
  | exact Refines.config
  | (with_reducible refine Refines.parseIf_eq _ ?_; refines_leaf; done)
  | (with_reducible refine Refines.parseIf_via _ ?_; refines_leaf; done)
  | exact Refines.array _ | exact Refines.bytes _ | exact Refines.rest | exact Refines.restTrimNul)

/-- Close the goal left at the `pure` at the end. -/
macro "refines_end" : tactic =>
  `(tactic| first | rfl | ((try simp only [HasData, Via] at *); subst_vars; rfl))

/-- Walk through a `do` block on both sides. -/
macro "refines" : tactic => `(tactic| repeat' (first
  | exact Refines.fail _
  | (refine Refines.pure ?_; refines_end; done)
  | refines_leaf
  | refine Refines.bind (by refines_leaf) (fun _ _ h => ?_)
  | refine Refines.ite (fun _ => ?_) (fun _ => ?_)))

syntax "safe_leaf" : tactic
macro_rules | `(tactic| safe_leaf) => `(tactic| first
  | exact Safe.u64 | exact Safe.u32 | exact Safe.u16 | exact Safe.u8
  | exact Safe.config
  | (with_reducible refine Safe.parseIf (fun _ => ?_); safe_leaf; done)
  | exact Safe.array _ | exact Safe.bytes _ | exact Safe.rest | exact Safe.restTrimNul)

macro "safe" : tactic => `(tactic| repeat' (first
  | exact Safe.fail (by first | exact .inl rfl | exact .inr rfl)
  | exact Safe.pure trivial
  | safe_leaf
  | refine Safe.bind (by safe_leaf) (fun _ _ => ?_)
  | refine Safe.ite (fun _ => ?_) (fun _ => ?_)))

/-! ## Small records -/

theorem Refines.mmap {β : Type} [ParseBuf β] [LawfulEof β] : Refines (Via Mmap.view) (parseMmap : P β (Mmap Cow)) parseMmap := by
  unfold parseMmap; refines
theorem Safe.mmap {β : Type} [ParseBuf β] [LawfulEof β] {B : Nat} : Safe B (fun _ => True) (parseMmap : P β (Mmap Cow)) := by
  unfold parseMmap; safe
theorem Refines.lost : Refines Eq (parseLost : P β Lost) parseLost := by
  unfold parseLost; refines
theorem Safe.lost {B : Nat} : Safe B (fun _ => True) (parseLost : P β Lost) := by
  unfold parseLost; safe
theorem Refines.comm {β : Type} [ParseBuf β] [LawfulEof β] : Refines (Via Comm.view) (parseComm : P β (Comm Cow)) parseComm := by
  unfold parseComm; refines
theorem Safe.comm {β : Type} [ParseBuf β] [LawfulEof β] {B : Nat} : Safe B (fun _ => True) (parseComm : P β (Comm Cow)) := by
  unfold parseComm; safe
theorem Refines.exit : Refines Eq (parseExit : P β Exit) parseExit := by
  unfold parseExit; refines
theorem Safe.exit {B : Nat} : Safe B (fun _ => True) (parseExit : P β Exit) := by
  unfold parseExit; safe
theorem Refines.throttle : Refines Eq (parseThrottle : P β Throttle) parseThrottle := by
  unfold parseThrottle; refines
theorem Safe.throttle {B : Nat} : Safe B (fun _ => True) (parseThrottle : P β Throttle) := by
  unfold parseThrottle; safe
theorem Refines.mmapDetail : Refines Eq (parseMmapDetail : P β MmapDetail) parseMmapDetail := by
  unfold parseMmapDetail
  refine Refines.bind Refines.config fun c _ h => ?_
  subst h
  refine Refines.ite (fun _ => ?_) fun _ => ?_
  · refine Refines.bind Refines.u8 fun _ _ h => ?_
    subst h
    refine Refines.bind Refines.u8 fun _ _ _ => Refines.bind Refines.u16 fun _ _ _ => ?_
    refine Refines.bind (Refines.array 20) fun _ _ h => ?_
    subst h
    refines
  · refines
theorem Safe.mmapDetail {B : Nat} : Safe B (fun _ => True) (parseMmapDetail : P β MmapDetail) := by
  unfold parseMmapDetail; safe
macro_rules | `(tactic| refines_leaf) => `(tactic| exact Refines.mmapDetail)
macro_rules | `(tactic| safe_leaf) => `(tactic| exact Safe.mmapDetail)
theorem Refines.mmap2 {β : Type} [ParseBuf β] [LawfulEof β] : Refines (Via Mmap2.view) (parseMmap2 : P β (Mmap2 Cow)) parseMmap2 := by
  unfold parseMmap2; refines
theorem Safe.mmap2 {β : Type} [ParseBuf β] [LawfulEof β] {B : Nat} : Safe B (fun _ => True) (parseMmap2 : P β (Mmap2 Cow)) := by
  unfold parseMmap2; safe
theorem Refines.aux : Refines Eq (parseAux : P β Aux) parseAux := by
  unfold parseAux; refines
theorem Safe.aux {B : Nat} : Safe B (fun _ => True) (parseAux : P β Aux) := by
  unfold parseAux; safe
theorem Refines.itraceStart : Refines Eq (parseITraceStart : P β ITraceStart) parseITraceStart := by
  unfold parseITraceStart; refines
theorem Safe.itraceStart {B : Nat} : Safe B (fun _ => True) (parseITraceStart : P β ITraceStart) := by
  unfold parseITraceStart; safe
theorem Refines.lostSamples : Refines Eq (parseLostSamples : P β LostSamples) parseLostSamples := by
  unfold parseLostSamples; refines
theorem Safe.lostSamples {B : Nat} : Safe B (fun _ => True) (parseLostSamples : P β LostSamples) := by
  unfold parseLostSamples; safe
theorem Refines.switchCpuWide : Refines Eq (parseSwitchCpuWide : P β SwitchCpuWide) parseSwitchCpuWide := by
  unfold parseSwitchCpuWide
  refine Refines.bind Refines.u32 fun _ _ h => Refines.bind Refines.u32 fun _ _ h' =>
    Refines.bind Refines.config fun _ _ h'' => ?_
  subst h h' h''
  refines
theorem Safe.switchCpuWide {B : Nat} : Safe B (fun _ => True) (parseSwitchCpuWide : P β SwitchCpuWide) := by
  unfold parseSwitchCpuWide; safe
theorem Refines.ksymbol {β : Type} [ParseBuf β] [LawfulEof β] : Refines (Via KSymbol.view) (parseKSymbol : P β (KSymbol Cow)) parseKSymbol := by
  unfold parseKSymbol; refines
theorem Safe.ksymbol {β : Type} [ParseBuf β] [LawfulEof β] {B : Nat} : Safe B (fun _ => True) (parseKSymbol : P β (KSymbol Cow)) := by
  unfold parseKSymbol; safe
theorem Refines.bpfEvent : Refines Eq (parseBpfEvent : P β BpfEvent) parseBpfEvent := by
  unfold parseBpfEvent; refines
theorem Safe.bpfEvent {B : Nat} : Safe B (fun _ => True) (parseBpfEvent : P β BpfEvent) := by
  unfold parseBpfEvent; safe
theorem Refines.cgroup {β : Type} [ParseBuf β] [LawfulEof β] : Refines (Via CGroup.view) (parseCGroup : P β (CGroup Cow)) parseCGroup := by
  unfold parseCGroup; refines
theorem Safe.cgroup {β : Type} [ParseBuf β] [LawfulEof β] {B : Nat} : Safe B (fun _ => True) (parseCGroup : P β (CGroup Cow)) := by
  unfold parseCGroup; safe
theorem Refines.auxOutputHwId : Refines Eq (parseAuxOutputHwId : P β AuxOutputHwId) parseAuxOutputHwId := by
  unfold parseAuxOutputHwId; refines
theorem Safe.auxOutputHwId {B : Nat} : Safe B (fun _ => True) (parseAuxOutputHwId : P β AuxOutputHwId) := by
  unfold parseAuxOutputHwId; safe
theorem Refines.header : Refines Eq (parseHeader : P β Header) parseHeader := by
  unfold parseHeader; refines
theorem Safe.header {B : Nat} : Safe B (fun _ => True) (parseHeader : P β Header) := by
  unfold parseHeader; safe

theorem Refines.textPoke : Refines (Via TextPoke.view) (parseTextPoke : P β (TextPoke Cow)) parseTextPoke := by
  unfold parseTextPoke
  refine Refines.bind Refines.u64 fun _ _ h => Refines.bind Refines.u16 fun _ _ h1 =>
    Refines.bind Refines.u16 fun _ _ h2 => ?_
  subst h h1 h2
  refine Refines.bind (Refines.bytes _) fun d l h => Refines.bind (Refines.splitAt h _) fun a c h => Refines.pure ?_
  obtain ⟨h1, h2⟩ := h
  unfold HasData at h1 h2
  show TextPoke.view _ = _
  unfold TextPoke.view
  simp only [h1, cowTruncate, Cow.truncate_data, h2]

theorem roundUpMod_ge (v k m : Nat) : v ≤ roundUpMod v k m := Nat.le_add_right _ _

theorem Safe.textPoke {B : Nat} : Safe B (fun _ => True) (parseTextPoke : P β (TextPoke Cow)) := by
  unfold parseTextPoke
  refine Safe.bind Safe.u64 fun _ _ => Safe.bind Safe.u16 fun o _ => Safe.bind Safe.u16 fun n _ => ?_
  refine Safe.bind (Safe.bytes _) fun d h => Safe.bind (Safe.splitAt ?_) fun _ _ => Safe.pure trivial
  have := roundUpMod_ge (o.toNat + n.toNat) 4 8
  omega

/-! ## Elements of slices -/

theorem Spec.u64_ok (f : Flat) (h : 8 ≤ f.s.bytes.length) :
    (parseU64 : Spec U64) f = .ok (f.cfg.endian.conv64 (f.s.bytes.take 8), f.adv 8) := by
  have hne : f.s.bytes ≠ [] := by intro h'; rw [h'] at h; simp at h
  show Spec.bind (Spec.bytes 8) _ f = _
  have : Spec.bytes 8 f = .ok (f.s.bytes.take 8, f.adv 8) := by
    unfold Spec.bytes Spec.take
    rw [if_neg hne, if_pos h]
  simp only [Spec.bind, this]
  rfl

theorem Spec.u64_short (f : Flat) (h : f.s.bytes.length < 8) :
    (parseU64 : Spec U64) f = .error (.err f.s.fin) := by
  show Spec.bind (Spec.bytes 8) _ f = _
  have : Spec.bytes 8 f = .error (.err f.s.fin) := by
    unfold Spec.bytes Spec.take
    by_cases he : f.s.bytes = []
    · rw [if_pos he]
    · rw [if_neg he, if_neg (by omega)]
  simp only [Spec.bind, this]

theorem Spec.bind_ok {m : Spec α} {k : α → Spec α'} {f f' : Flat} {a : α} (h : m f = .ok (a, f')) :
    (m >>= k) f = k a f' := by
  show Spec.bind m k f = _
  simp only [Spec.bind, h]

theorem Spec.bind_err {m : Spec α} {k : α → Spec α'} {f : Flat} {e : SFault} (h : m f = .error e) :
    (m >>= k) f = .error e := by
  show Spec.bind m k f = _
  simp only [Spec.bind, h]

theorem Spec.pure_run (a : α) (f : Flat) : (pure a : Spec α) f = .ok (a, f) := rfl

theorem ItemOk.u64 : ItemOk U64.elem (parseU64 : Spec U64) where
  pos := by decide
  item := Spec.u64_ok
  short := Spec.u64_short
  congr c c' h bs hb := h bs hb

theorem ItemOk.namespaceEntry : ItemOk NamespaceEntry.elem (parseNamespaceEntry : Spec NamespaceEntry) where
  pos := by decide
  item f h := by
    simp only [NamespaceEntry.elem] at h ⊢
    unfold parseNamespaceEntry
    rw [Spec.bind_ok (Spec.u64_ok f (by omega)), Spec.bind_ok (Spec.u64_ok (f.adv 8) (by simp; omega))]
    simp only [Flat.adv_adv, Flat.adv_bytes, Flat.adv_cfg, List.take_take, List.drop_take]
    rfl
  short f h := by
    simp only [NamespaceEntry.elem] at h
    unfold parseNamespaceEntry
    by_cases h8 : 8 ≤ f.s.bytes.length
    · rw [Spec.bind_ok (Spec.u64_ok f h8), Spec.bind_err (Spec.u64_short (f.adv 8) (by simp; omega))]
      rfl
    · rw [Spec.bind_err (Spec.u64_short f (by omega))]
  congr c c' h bs hb := by
    simp only [NamespaceEntry.elem] at hb ⊢
    rw [h _ (by simp; omega), h _ (by simp; omega)]

theorem ItemOk.branchEntry : ItemOk BranchEntry.elem (parseBranchEntry : Spec BranchEntry) where
  pos := by decide
  item f h := by
    simp only [BranchEntry.elem] at h ⊢
    unfold parseBranchEntry
    rw [Spec.bind_ok (Spec.u64_ok f (by omega)), Spec.bind_ok (Spec.u64_ok (f.adv 8) (by simp; omega)),
      Spec.bind_ok (Spec.u64_ok ((f.adv 8).adv 8) (by simp; omega))]
    simp only [Flat.adv_adv, Flat.adv_bytes, Flat.adv_cfg, List.take_take, List.drop_take]
    rfl
  short f h := by
    simp only [BranchEntry.elem] at h
    unfold parseBranchEntry
    by_cases h8 : 8 ≤ f.s.bytes.length
    · rw [Spec.bind_ok (Spec.u64_ok f h8)]
      by_cases h16 : 16 ≤ f.s.bytes.length
      · rw [Spec.bind_ok (Spec.u64_ok (f.adv 8) (by simp; omega)),
          Spec.bind_err (Spec.u64_short ((f.adv 8).adv 8) (by simp; omega))]
        rfl
      · rw [Spec.bind_err (Spec.u64_short (f.adv 8) (by simp; omega))]
        rfl
    · rw [Spec.bind_err (Spec.u64_short f (by omega))]
  congr c c' h bs hb := by
    simp only [BranchEntry.elem] at hb ⊢
    rw [h _ (by simp; omega), h _ (by simp; omega), h _ (by simp; omega)]

theorem Refines.namespaceEntry : Refines Eq (parseNamespaceEntry : P β NamespaceEntry) parseNamespaceEntry := by
  unfold parseNamespaceEntry; refines
theorem Safe.namespaceEntry {B : Nat} : Safe B (fun _ => True) (parseNamespaceEntry : P β NamespaceEntry) := by
  unfold parseNamespaceEntry; safe
theorem Refines.branchEntry : Refines Eq (parseBranchEntry : P β BranchEntry) parseBranchEntry := by
  unfold parseBranchEntry; refines
theorem Safe.branchEntry {B : Nat} : Safe B (fun _ => True) (parseBranchEntry : P β BranchEntry) := by
  unfold parseBranchEntry; safe

theorem Refines.u64s (n : Nat) : Refines HasData (ParserM.slice U64.elem parseU64 n : P β (Cow U64))
    (ParserM.slice U64.elem parseU64 n : Spec (List U64)) := Refines.slice Refines.u64 ItemOk.u64 n
theorem Safe.u64s {B : Nat} (n : Nat) : Safe B (fun c => c.data.length = n)
    (ParserM.slice U64.elem parseU64 n : P β (Cow U64)) := Safe.slice (by decide) Safe.u64 n
theorem Refines.entries (n : Nat) :
    Refines HasData (ParserM.slice NamespaceEntry.elem parseNamespaceEntry n : P β (Cow NamespaceEntry))
      (ParserM.slice NamespaceEntry.elem parseNamespaceEntry n : Spec (List NamespaceEntry)) :=
  Refines.slice Refines.namespaceEntry ItemOk.namespaceEntry n
theorem Safe.entries {B : Nat} (n : Nat) : Safe B (fun c => c.data.length = n)
    (ParserM.slice NamespaceEntry.elem parseNamespaceEntry n : P β (Cow NamespaceEntry)) :=
  Safe.slice (by decide) Safe.namespaceEntry n
theorem Refines.branches (n : Nat) :
    Refines HasData (ParserM.slice BranchEntry.elem parseBranchEntry n : P β (Cow BranchEntry))
      (ParserM.slice BranchEntry.elem parseBranchEntry n : Spec (List BranchEntry)) :=
  Refines.slice Refines.branchEntry ItemOk.branchEntry n
theorem Safe.branches {B : Nat} (n : Nat) : Safe B (fun c => c.data.length = n)
    (ParserM.slice BranchEntry.elem parseBranchEntry n : P β (Cow BranchEntry)) :=
  Safe.slice (by decide) Safe.branchEntry n

theorem Refines.namespaces : Refines (Via Namespaces.view) (parseNamespaces : P β (Namespaces Cow)) parseNamespaces := by
  unfold parseNamespaces
  refine Refines.bind Refines.u32 fun _ _ h => Refines.bind Refines.u32 fun _ _ h1 =>
    Refines.bind Refines.u64 fun _ _ h2 => ?_
  subst h h1 h2
  exact Refines.bind (Refines.entries _) fun _ _ h => Refines.pure (by refines_end)
theorem Safe.namespaces {B : Nat} : Safe B (fun _ => True) (parseNamespaces : P β (Namespaces Cow)) := by
  unfold parseNamespaces
  exact Safe.bind Safe.u32 fun _ _ => Safe.bind Safe.u32 fun _ _ => Safe.bind Safe.u64 fun _ _ =>
    Safe.bind (Safe.entries _) fun _ _ => Safe.pure trivial

/-! ## Counter values -/

theorem Refines.cpu : Refines Eq (parseCpu : P β U32) parseCpu := by
  unfold parseCpu; refines
theorem Safe.cpu {B : Nat} : Safe B (fun _ => True) (parseCpu : P β U32) := by
  unfold parseCpu; safe
macro_rules | `(tactic| refines_leaf) => `(tactic| exact Refines.cpu)
macro_rules | `(tactic| safe_leaf) => `(tactic| exact Safe.cpu)

theorem Refines.sampleId : Refines Eq (parseSampleId : P β SampleId) parseSampleId := by
  unfold parseSampleId
  refine Refines.bind Refines.config fun _ _ h => ?_
  subst h
  refines
theorem Safe.sampleId {B : Nat} : Safe B (fun _ => True) (parseSampleId : P β SampleId) := by
  unfold parseSampleId; safe

theorem Refines.readValue : Refines Eq (parseReadValue : P β ReadValue) parseReadValue := by
  unfold parseReadValue
  refine Refines.bind Refines.config fun _ _ h => ?_
  subst h
  refines
theorem Safe.readValue {B : Nat} : Safe B (fun _ => True) (parseReadValue : P β ReadValue) := by
  unfold parseReadValue; safe
macro_rules | `(tactic| refines_leaf) => `(tactic| exact Refines.readValue)
macro_rules | `(tactic| safe_leaf) => `(tactic| exact Safe.readValue)
theorem Refines.read : Refines Eq (parseRead : P β Read) parseRead := by
  unfold parseRead; refines
theorem Safe.read {B : Nat} : Safe B (fun _ => True) (parseRead : P β Read) := by
  unfold parseRead; safe

theorem Refines.readGroup : Refines (Via ReadGroup.view) (parseReadGroup : P β (ReadGroup Cow)) parseReadGroup := by
  unfold parseReadGroup
  refine Refines.bind Refines.config fun _ _ h => ?_
  subst h
  refine Refines.ite (fun _ => Refines.fail _) fun _ => Refines.ite (fun _ => Refines.fail _) fun _ => ?_
  refine Refines.bind Refines.u64 fun _ _ h => ?_
  subst h
  refine Refines.bind (by refines_leaf) fun _ _ h => Refines.bind (by refines_leaf) fun _ _ h' => ?_
  subst h h'
  refine Refines.ite (fun _ => Refines.fail _) fun _ => ?_
  exact Refines.bind (Refines.u64s _) fun _ _ h => Refines.pure (by refines_end)
theorem Safe.readGroup {B : Nat} : Safe B (fun _ => True) (parseReadGroup : P β (ReadGroup Cow)) := by
  unfold parseReadGroup
  refine Safe.bind Safe.config fun _ _ => ?_
  refine Safe.ite (fun _ => Safe.fail (by first | exact .inl rfl | exact .inr rfl)) fun _ => Safe.ite (fun _ => Safe.fail (by first | exact .inl rfl | exact .inr rfl)) fun _ => ?_
  refine Safe.bind Safe.u64 fun _ _ => ?_
  refine Safe.bind (by safe_leaf) fun _ _ => Safe.bind (by safe_leaf) fun _ _ => ?_
  refine Safe.ite (fun _ => Safe.fail (by first | exact .inl rfl | exact .inr rfl)) fun _ => ?_
  exact Safe.bind (Safe.u64s _) fun _ _ => Safe.pure trivial

/-! ## Samples -/

theorem Refines.registers (mask : U64) :
    Refines (Via Registers.view) (parseRegisters mask : P β (Registers Cow)) (parseRegisters mask) := by
  unfold parseRegisters
  exact Refines.bind Refines.u64 fun _ _ h => Refines.bind (Refines.u64s _) fun _ _ h' =>
    Refines.pure (by refines_end)
theorem Safe.registers {B : Nat} (mask : U64) :
    Safe B (fun _ => True) (parseRegisters mask : P β (Registers Cow)) := by
  unfold parseRegisters
  exact Safe.bind Safe.u64 fun _ _ => Safe.bind (Safe.u64s _) fun _ _ => Safe.pure trivial
theorem Refines.registersUser :
    Refines (Via Registers.view) (parseRegistersUser : P β (Registers Cow)) parseRegistersUser := by
  unfold parseRegistersUser
  refine Refines.bind Refines.config fun _ _ h => ?_
  subst h
  exact Refines.registers _
theorem Safe.registersUser {B : Nat} : Safe B (fun _ => True) (parseRegistersUser : P β (Registers Cow)) :=
  Safe.bind Safe.config fun _ _ => Safe.registers _
theorem Refines.registersIntr :
    Refines (Via Registers.view) (parseRegistersIntr : P β (Registers Cow)) parseRegistersIntr := by
  unfold parseRegistersIntr
  refine Refines.bind Refines.config fun _ _ h => ?_
  subst h
  exact Refines.registers _
theorem Safe.registersIntr {B : Nat} : Safe B (fun _ => True) (parseRegistersIntr : P β (Registers Cow)) :=
  Safe.bind Safe.config fun _ _ => Safe.registers _

theorem Refines.values : Refines (Via ReadGroup.view) (parseValues : P β (ReadGroup Cow)) parseValues := by
  unfold parseValues
  refine Refines.bind Refines.config fun _ _ h => ?_
  subst h
  refine Refines.ite (fun _ => Refines.readGroup) fun _ => ?_
  exact Refines.bind Refines.readValue fun _ _ h => Refines.pure (by subst h; rfl)
theorem Safe.values {B : Nat} : Safe B (fun _ => True) (parseValues : P β (ReadGroup Cow)) := by
  unfold parseValues
  refine Safe.bind Safe.config fun _ _ => Safe.ite (fun _ => Safe.readGroup) fun _ => ?_
  exact Safe.bind Safe.readValue fun _ _ => Safe.pure trivial

theorem Refines.callchain : Refines (Via Cow.data) (parseCallchain : P β (Cow U64)) parseCallchain := by
  unfold parseCallchain
  refine Refines.bind Refines.u64 fun _ _ h => ?_
  subst h
  exact Refines.u64s _
theorem Safe.callchain {B : Nat} : Safe B (fun _ => True) (parseCallchain : P β (Cow U64)) :=
  Safe.bind Safe.u64 fun _ _ => (Safe.u64s _).triv

theorem Refines.rawInner : Refines (Via Cow.data) (parseRawInner : P β (Cow Byte)) parseRawInner := by
  unfold parseRawInner
  refine Refines.bind Refines.u32 fun _ _ h => ?_
  subst h
  exact Refines.bytes _
theorem Safe.rawInner {B : Nat} : Safe B (fun _ => True) (parseRawInner : P β (Cow Byte)) :=
  Safe.bind Safe.u32 fun _ _ => (Safe.bytes _).triv
theorem Refines.raw : Refines (Via Cow.data) (ParserM.padded 8 parseRawInner : P β (Cow Byte))
    (ParserM.padded 8 parseRawInner : Spec (List Byte)) := Refines.padded 8 Refines.rawInner
theorem Safe.raw {B : Nat} : Safe B (fun _ => True) (ParserM.padded 8 parseRawInner : P β (Cow Byte)) :=
  Safe.padded (by decide) Safe.rawInner

/-- The view of the pair the `lbr` closure returns. -/
def lbrView (p : Cow BranchEntry × Option U64) : List BranchEntry × Option U64 := (p.1.data, p.2)

theorem Refines.lbr (b : Bool) : Refines (Via lbrView) (parseLbr b : P β (Cow BranchEntry × Option U64)) (parseLbr b) := by
  unfold parseLbr
  refine Refines.bind Refines.u64 fun _ _ h => Refines.bind (by refines_leaf) fun _ _ h' => ?_
  subst h h'
  exact Refines.bind (Refines.branches _) fun _ _ h => Refines.pure (by refines_end)
theorem Safe.lbr {B : Nat} (b : Bool) :
    Safe B (fun _ => True) (parseLbr b : P β (Cow BranchEntry × Option U64)) := by
  unfold parseLbr
  exact Safe.bind Safe.u64 fun _ _ => Safe.bind (by safe_leaf) fun _ _ =>
    Safe.bind (Safe.branches _) fun _ _ => Safe.pure trivial

theorem Refines.auxData : Refines (Via Cow.data) (parseAuxData : P β (Cow Byte)) parseAuxData := by
  unfold parseAuxData
  refine Refines.bind Refines.u64 fun _ _ h => ?_
  subst h
  exact Refines.bytes _
theorem Safe.auxData {B : Nat} : Safe B (fun _ => True) (parseAuxData : P β (Cow Byte)) :=
  Safe.bind Safe.u64 fun _ _ => (Safe.bytes _).triv

theorem Refines.dynSize (size : U64) : Refines Eq (parseDynSize size : P β U64) (parseDynSize size) := by
  unfold parseDynSize
  exact Refines.ite (fun _ => Refines.pure rfl) fun _ => Refines.u64
theorem Safe.dynSize {B : Nat} (size : U64) : Safe B (fun _ => True) (parseDynSize size : P β U64) := by
  unfold parseDynSize
  exact Safe.ite (fun _ => Safe.pure trivial) fun _ => Safe.u64

theorem Refines.stackUser : Refines (Via Cow.data) (parseStackUser : P β (Cow Byte)) parseStackUser := by
  unfold parseStackUser
  refine Refines.bind Refines.u64 fun _ _ h => ?_
  subst h
  refine Refines.bind (Refines.bytes _) fun d l h => ?_
  refine Refines.bind (Refines.dynSize _) fun _ _ h' => ?_
  subst h'
  unfold HasData at h
  subst h
  refine Refines.ite (fun _ => Refines.fail _) fun _ => Refines.pure ?_
  exact Cow.truncate_data _ _
theorem Safe.stackUser {B : Nat} : Safe B (fun _ => True) (parseStackUser : P β (Cow Byte)) := by
  unfold parseStackUser
  refine Safe.bind Safe.u64 fun _ _ => Safe.bind (Safe.bytes _) fun _ _ => ?_
  refine Safe.bind (Safe.dynSize _) fun _ _ => ?_
  exact Safe.ite (fun _ => Safe.fail (by first | exact .inl rfl | exact .inr rfl)) fun _ => Safe.pure trivial

theorem Refines.sample : Refines (Via Sample.view) (parseSample : P β (Sample Cow)) parseSample := by
  unfold parseSample
  refine Refines.bind Refines.config fun cfg _ h => ?_
  subst h
  refine Refines.bind (Refines.parseIf_eq _ Refines.u64) fun _ _ h0 => ?_
  refine Refines.bind (Refines.parseIf_eq _ Refines.u64) fun _ _ h1 => ?_
  refine Refines.bind (Refines.parseIf_eq _ Refines.u32) fun _ _ h2 => ?_
  refine Refines.bind (Refines.parseIf_eq _ Refines.u32) fun _ _ h3 => ?_
  refine Refines.bind (Refines.parseIf_eq _ Refines.u64) fun _ _ h4 => ?_
  refine Refines.bind (Refines.parseIf_eq _ Refines.u64) fun _ _ h5 => ?_
  refine Refines.bind (Refines.parseIf_eq _ Refines.u64) fun _ _ h6 => ?_
  refine Refines.bind (Refines.parseIf_eq _ Refines.u64) fun _ _ h7 => ?_
  refine Refines.bind (Refines.parseIf_eq _ Refines.cpu) fun _ _ h8 => ?_
  refine Refines.bind (Refines.parseIf_eq _ Refines.u64) fun _ _ h9 => ?_
  refine Refines.bind (Refines.parseIf_via _ Refines.values) fun _ _ h10 => ?_
  refine Refines.bind (Refines.parseIf_via _ Refines.callchain) fun _ _ h11 => ?_
  refine Refines.bind (Refines.parseIf_via _ Refines.raw) fun _ _ h12 => ?_
  refine Refines.bind (Refines.parseIf_via _ (Refines.lbr _)) fun l _ h13 => ?_
  refine Refines.bind (Refines.parseIf_via _ Refines.registersUser) fun _ _ h14 => ?_
  refine Refines.bind (Refines.parseIf_via _ Refines.stackUser) fun _ _ h15 => ?_
  refine Refines.bind (Refines.parseIf_eq _ Refines.u64) fun _ _ h16 => ?_
  refine Refines.bind (Refines.parseIf_eq _ Refines.u64) fun _ _ h17 => ?_
  refine Refines.bind (Refines.parseIf_eq _ Refines.u64) fun _ _ h18 => ?_
  refine Refines.bind (Refines.parseIf_via _ Refines.registersIntr) fun _ _ h19 => ?_
  refine Refines.bind (Refines.parseIf_eq _ Refines.u64) fun _ _ h20 => ?_
  refine Refines.bind (Refines.parseIf_eq _ Refines.u64) fun _ _ h21 => ?_
  refine Refines.bind (Refines.parseIf_eq _ Refines.u64) fun _ _ h22 => ?_
  refine Refines.bind (Refines.parseIf_eq _ Refines.u64) fun _ _ h23 => ?_
  refine Refines.bind (Refines.parseIf_via _ Refines.auxData) fun _ _ h24 => ?_
  refine Refines.pure ?_
  unfold Via at *
  subst_vars
  cases l <;> rfl

theorem Safe.sample {B : Nat} : Safe B (fun _ => True) (parseSample : P β (Sample Cow)) := by
  unfold parseSample
  refine Safe.bind Safe.config fun cfg _ => ?_
  refine Safe.bind (Safe.parseIf fun _ => Safe.u64) fun _ _ => ?_
  refine Safe.bind (Safe.parseIf fun _ => Safe.u64) fun _ _ => ?_
  refine Safe.bind (Safe.parseIf fun _ => Safe.u32) fun _ _ => ?_
  refine Safe.bind (Safe.parseIf fun _ => Safe.u32) fun _ _ => ?_
  refine Safe.bind (Safe.parseIf fun _ => Safe.u64) fun _ _ => ?_
  refine Safe.bind (Safe.parseIf fun _ => Safe.u64) fun _ _ => ?_
  refine Safe.bind (Safe.parseIf fun _ => Safe.u64) fun _ _ => ?_
  refine Safe.bind (Safe.parseIf fun _ => Safe.u64) fun _ _ => ?_
  refine Safe.bind (Safe.parseIf fun _ => Safe.cpu) fun _ _ => ?_
  refine Safe.bind (Safe.parseIf fun _ => Safe.u64) fun _ _ => ?_
  refine Safe.bind (Safe.parseIf fun _ => Safe.values) fun _ _ => ?_
  refine Safe.bind (Safe.parseIf fun _ => Safe.callchain) fun _ _ => ?_
  refine Safe.bind (Safe.parseIf fun _ => Safe.raw) fun _ _ => ?_
  refine Safe.bind (Safe.parseIf fun _ => Safe.lbr _) fun _ _ => ?_
  refine Safe.bind (Safe.parseIf fun _ => Safe.registersUser) fun _ _ => ?_
  refine Safe.bind (Safe.parseIf fun _ => Safe.stackUser) fun _ _ => ?_
  refine Safe.bind (Safe.parseIf fun _ => Safe.u64) fun _ _ => ?_
  refine Safe.bind (Safe.parseIf fun _ => Safe.u64) fun _ _ => ?_
  refine Safe.bind (Safe.parseIf fun _ => Safe.u64) fun _ _ => ?_
  refine Safe.bind (Safe.parseIf fun _ => Safe.registersIntr) fun _ _ => ?_
  refine Safe.bind (Safe.parseIf fun _ => Safe.u64) fun _ _ => ?_
  refine Safe.bind (Safe.parseIf fun _ => Safe.u64) fun _ _ => ?_
  refine Safe.bind (Safe.parseIf fun _ => Safe.u64) fun _ _ => ?_
  refine Safe.bind (Safe.parseIf fun _ => Safe.u64) fun _ _ => ?_
  refine Safe.bind (Safe.parseIf fun _ => Safe.auxData) fun _ _ => ?_
  exact Safe.pure trivial

end Perf
