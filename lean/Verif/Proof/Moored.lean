import Verif.Spec.Moored
import Verif.Proof.Drip
import Verif.Props.Contig
/-!
# Programs over one piece of borrowed memory

`Holds m s`: on a buffer that hands out everything as one borrowed chunk, the code `m` does exactly what `s` says of the bytes and their
address, and stands where `s` says, after errors too.
-/
namespace Perf
variable {β : Type} [ParseBuf β] [LawfulEof β] {α α' T : Type}

/-- The result and the state of a run are those of `r`. -/
def Stays (F : List Byte → β → Prop) (o : Out β α) (r : Except Fault α × Flat) : Prop := o.res = r.1 ∧ (Tame r.1 → At F o.st r.2)

/-- The code does what the parser over the memory says. -/
def Holds (m : P β α) (s : Moored α) : Prop := ∀ F, OneBuf F → ∀ p f, At F p f → Stays F (m p) (s f)

theorem Moored.bind_err {m : Moored α} {k : α → Moored α'} {f f' : Flat} {e : Fault} (h : m f = (.error e, f')) :
    m.bind k f = (.error e, f') := by
  unfold Moored.bind
  rw [h]

theorem Moored.bind_ok {m : Moored α} {k : α → Moored α'} {f f' : Flat} {a : α} (h : m f = (.ok a, f')) : m.bind k f = k a f' := by
  unfold Moored.bind
  rw [h]

namespace Holds

theorem pure (a : α) : Holds (Pure.pure a : P β α) (Pure.pure a : Moored α) := fun _ _ _ _ hp => ⟨rfl, fun _ => hp⟩
theorem fault (e : Fault) : Holds (P.fault e : P β α) (Moored.fault e : Moored α) := fun _ _ _ _ hp => ⟨rfl, fun _ => hp⟩
theorem fail (e : ParseError) : Holds (ParserM.fail e : P β α) (ParserM.fail e : Moored α) := fun _ _ _ _ hp => ⟨rfl, fun _ => hp⟩
theorem config : Holds (ParserM.config : P β ParseConfig) (ParserM.config : Moored ParseConfig) := fun _ _ p _ hp => by
  refine ⟨?_, fun _ => hp⟩
  show Except.ok p.config = _
  rw [hp.rep.cfg]
  rfl

theorem bind {m : P β α} {s : Moored α} {k : α → P β α'} {k' : α → Moored α'} (h : Holds m s)
    (hk : ∀ a, Holds (k a) (k' a)) : Holds (m >>= k) (s >>= k') := by
  intro F hF p f hp
  have h1 := h F hF p f hp
  have hb : (s >>= k') f = match s f with
    | (.error e, f') => (.error e, f')
    | (.ok a, f') => k' a f' := rfl
  rw [hb]
  rcases hs : s f with ⟨e | a, f'⟩ <;> rw [hs] at h1
  · rw [P.bind_err (P.run_eq _ h1.1)]
    exact ⟨rfl, fun ht => h1.2 fun x hx => ht x (by cases hx; rfl)⟩
  · rw [P.bind_ok (P.run_eq _ h1.1)]
    exact hk a F hF _ _ (h1.2 (fun x hx => by cases hx))

theorem ite {c : Prop} [Decidable c] {m n : P β α} {s t : Moored α} (h1 : Holds m s) (h2 : Holds n t) :
    Holds (if c then m else n) (if c then s else t) := by
  split
  · exact h1
  · exact h2

/-- An operation whose errors come from the end, which is then reached. -/
theorem drain {m : P β α} {s : Contig α} (h : ∀ F, OneBuf F → Meets F m s) (hx : Exhausts m)
    (hi : ∀ I : Parser β → Prop, Stable I → Inv I (fun _ => True) m) : Holds m (Moored.drain s) := by
  intro F hF p f hp
  have h1 := h F hF p f hp
  have h2 := hx p f hp.rep (by rw [hp.fin]; rfl)
  have h3 := (hi _ hF.stableP p hp.one).1
  unfold Moored.drain
  rcases hr : s f with e | ⟨a, f'⟩ <;> rw [hr] at h1
  · refine ⟨h1, fun ht => ?_⟩
    obtain ⟨x, rfl⟩ := ht e rfl
    have h1 : (m p).res = .error (.err x) := h1
    unfold Exhausted at h2
    rw [h1] at h2
    exact hp.adv h2 h3
  · exact ⟨h1.1, fun _ => h1.2⟩

theorem array (n : Nat) : Holds (ParserM.array n : P β (List Byte)) (ParserM.array n : Moored (List Byte)) :=
  drain (fun _ h => Meets.array h n) (Exhausts.array LawfulEof.eof_law n) fun _ h => Inv.array h n
theorem bytes (n : Nat) : Holds (ParserM.bytes n : P β (Cow Byte)) (ParserM.bytes n : Moored (Cow Byte)) :=
  drain (fun _ h => Meets.bytes h n) (Exhausts.bytes LawfulEof.eof_law n) fun _ h => Inv.bytes h n
theorem rest : Holds (ParserM.rest : P β (Cow Byte)) (ParserM.rest : Moored (Cow Byte)) :=
  drain (fun _ h => Meets.rest h) (Exhausts.rest LawfulEof.eof_law) fun _ h => Inv.rest h
theorem restTrimNul : Holds (ParserM.restTrimNul : P β (Cow Byte)) (ParserM.restTrimNul : Moored (Cow Byte)) :=
  bind rest fun _ => pure _

theorem ignored (n : Nat) : Holds (P.bytesIgnored n : P β Unit) (Moored.drain fun f => (Contig.take n f).map fun r => ((), r.2)) := by
  refine drain (fun F hF p f hp => ?_) (Exhausts.bytesIgnored LawfulEof.eof_law n) fun _ h => Inv.bytesIgnored h n
  have h1 := Meets.ignored hF n hp
  rcases ht : Contig.take n f with e | ⟨x, f'⟩ <;> rw [ht] at h1
  · exact h1
  · exact h1

theorem padded (n : Nat) {m : P β α} {s : Moored α} (hm : Holds m s) :
    Holds (ParserM.padded n m : P β α) (ParserM.padded n s : Moored α) := by
  intro F hF p f hp
  show Stays F (P.padded n m p) (Moored.padded n s f)
  unfold Moored.padded P.padded
  by_cases h0 : n = 0
  · simp only [if_pos h0]
    exact ⟨rfl, fun ht => by obtain ⟨x, hx⟩ := ht _ rfl; cases hx⟩
  simp only [if_neg h0]
  rw [P.bind_nil (P.offset_run p)]
  have h1 := hm F hF p f hp
  rcases hs : s f with ⟨e | a, f'⟩ <;> rw [hs] at h1
  · rw [P.bind_err (P.run_eq _ h1.1)]
    exact ⟨rfl, fun ht => h1.2 fun x hx => ht x (by cases hx; rfl)⟩
  · have h3 := h1.2 (fun x hx => by cases hx)
    rw [P.bind_ok (P.run_eq _ h1.1), P.bind_nil (P.offset_run _), hp.rep.off, h3.rep.off]
    dsimp only
    by_cases hz : (f'.off - f.off) % n = 0
    · simp only [if_pos hz]
      exact ⟨rfl, fun _ => h3⟩
    · simp only [if_neg hz]
      generalize n - (f'.off - f.off) % n = t
      have h2 := bind (ignored (β := β) t) (fun _ => pure a) F hF (m p).st f' h3
      unfold Stays at h2 ⊢
      have e1 : ((Moored.drain fun g => (Contig.take t g).map fun r => ((), r.2) : Moored Unit) >>= fun _ => Pure.pure a) f' =
          Moored.bind (Moored.drain (Contig.take t)) (fun _ => Moored.pure a) f' := by
        show Moored.bind _ _ f' = _
        unfold Moored.bind Moored.drain
        dsimp only
        generalize Contig.take t f' = r
        rcases r with e | ⟨x, f''⟩ <;> rfl
      rw [e1] at h2
      exact h2

theorem repeatedLoop {m : P β T} {s : Moored T} (hm : Holds m s) : ∀ n, Holds (P.repeatedLoop m n) (Moored.repeated s n)
  | 0 => pure _
  | n + 1 => bind hm fun _ => bind (repeatedLoop hm n) fun _ => pure _

theorem repeated (size : Nat) {m : P β T} {s : Moored T} (hm : Holds m s) (n : Nat) : Holds (P.repeated size m n) (Moored.repeated s n) := by
  intro F hF p f hp
  obtain ⟨b, hb, _⟩ := P.safeCapacityBound_run size p
  unfold P.repeated
  rw [P.bind_nil hb, P.bind_ok (P.alloc_run _ p)]
  exact repeatedLoop hm n F hF p f hp

theorem copied (size : Nat) {m : P β T} {s : Moored T} (hm : Holds m s) (n : Nat) :
    Holds (P.repeated size m n >>= fun v => Pure.pure (Cow.owned v)) (Moored.copied s n) := bind (repeated size hm n) fun _ => pure _

theorem sliceDirect (e : Elem T) (n : Nat) : Holds (P.sliceDirect e n : P β (Option (List T))) (Moored.sliceDirect e n) := by
  intro F hF p f hp
  have hcfg : P.config p = ⟨.ok f.cfg, p, []⟩ := by rw [← hp.rep.cfg]; rfl
  have hsd : P.sliceDirect e n p = (if !f.cfg.endian.isNative then Pure.pure none
      else if n * e.size ≥ usizeLimit then
        P.fail (.custom .invalidRecord "array length in bytes larger than usize::MAX")
      else P.bytesDirect (n * e.size) >>= fun r => match r with
        | none => Pure.pure none
        | some (addr, bs) => if bs = [] ∨ addr % 8 = 0 then Pure.pure (some (e.decodeAll (fromOrder f.cfg.host 64) n bs))
          else Pure.pure none : P β (Option (List T))) p := by
    unfold P.sliceDirect
    rw [P.bind_nil hcfg]
    rfl
  unfold Moored.sliceDirect
  by_cases hn : f.cfg.endian.isNative = true
  · simp only [if_pos hn]
    rw [P.ite_neg (by rw [hn]; decide)] at hsd
    by_cases hl : n * e.size ≥ usizeLimit
    · simp only [if_pos hl]
      rw [P.ite_pos hl] at hsd
      rw [hsd]
      exact ⟨rfl, fun _ => hp⟩
    simp only [if_neg hl]
    rw [P.ite_neg hl] at hsd
    by_cases he : f.s.bytes = []
    · simp only [if_pos he]
      obtain ⟨q, hq, hr, _⟩ := P.chunk_eof LawfulEof.eof_law hp.rep he (by rw [hp.fin]; rfl)
      have ho := hF.stableP.chunk p hp.one
      rw [hq] at ho
      have hbd : P.bytesDirect (n * e.size) p = ⟨.error (.err f.s.fin), q, []⟩ := by
        unfold P.bytesDirect
        rw [P.bind_err hq]
      rw [P.bind_err hbd] at hsd
      rw [hsd, hp.fin]
      exact ⟨rfl, fun _ => ⟨hr, ho, hp.al, hp.fin⟩⟩
    simp only [if_neg he]
    by_cases hle : n * e.size ≤ f.s.bytes.length
    · simp only [if_pos hle]
      obtain ⟨a, q, hq, hal, hat⟩ := (Meets.direct hF (n * e.size) hp he).1 hle
      rw [P.bind_nil hq] at hsd
      have hiff : (f.s.bytes.take (n * e.size) = [] ∨ a % 8 = 0) ↔ (n * e.size = 0 ∨ f.s.al.aligned = true) := by
        rw [hal, beq_iff_eq, List.take_eq_nil_iff]
        simp [he]
      by_cases hk : n * e.size = 0 ∨ f.s.al.aligned = true
      · simp only [if_pos hk]
        dsimp only at hsd
        rw [P.ite_pos (hiff.mpr hk)] at hsd
        rw [hsd]
        exact ⟨rfl, fun _ => hat⟩
      · simp only [if_neg hk]
        dsimp only at hsd
        rw [P.ite_neg (fun x => hk (hiff.mp x))] at hsd
        rw [hsd]
        exact ⟨rfl, fun _ => hat⟩
    · simp only [if_neg hle]
      obtain ⟨q, hq, hat⟩ := (Meets.direct hF (n * e.size) hp he).2 hle
      rw [P.bind_nil hq] at hsd
      rw [hsd]
      exact ⟨rfl, fun _ => hat⟩
  · simp only [if_neg hn]
    rw [P.ite_pos (by cases hx : f.cfg.endian.isNative with | true => exact absurd hx hn | false => rfl)] at hsd
    rw [hsd]
    exact ⟨rfl, fun _ => hp⟩

theorem slice (e : Elem T) (n : Nat) {m : P β T} {s : Moored T} (hm : Holds m s) :
    Holds (ParserM.slice e m n : P β (Cow T)) (ParserM.slice e s n : Moored (Cow T)) := by
  show Holds (P.slice e m n) (Moored.slice e s n)
  refine bind (sliceDirect e n) fun r => ?_
  cases r with
  | some l => exact pure _
  | none => exact copied e.size hm n

theorem cowSplitAt (c : Cow T) (n : Nat) :
    Holds (ParserM.cowSplitAt c n : P β (Cow T × Cow T)) (ParserM.cowSplitAt c n : Moored (Cow T × Cow T)) := by
  show Holds (match c.splitAt n with | some r => Pure.pure r | none => P.fault .panic) (match c.splitAt n with | some r => Pure.pure r | none => Moored.fault .panic)
  cases c.splitAt n with
  | none => exact fault _
  | some r => exact pure _

theorem u8 : Holds (parseU8 : P β U8) (parseU8 : Moored U8) := bind (array 1) fun _ => pure _
theorem u16 : Holds (parseU16 : P β U16) (parseU16 : Moored U16) := bind (array 2) fun _ => bind config fun _ => pure _
theorem u32 : Holds (parseU32 : P β U32) (parseU32 : Moored U32) := bind (array 4) fun _ => bind config fun _ => pure _
theorem u64 : Holds (parseU64 : P β U64) (parseU64 : Moored U64) := bind (array 8) fun _ => bind config fun _ => pure _
theorem parseIf {m : P β α} {s : Moored α} (c : Bool) (hm : Holds m s) : Holds (Perf.parseIf c m) (Perf.parseIf c s) := by
  cases c with
  | true => exact bind hm fun _ => pure _
  | false => exact pure _

/-- One step of a parser. -/
syntax "holds_leaf" : tactic
macro_rules | `(tactic| holds_leaf) => `(tactic| first
  | with_reducible exact Holds.u64 | with_reducible exact Holds.u32 | with_reducible exact Holds.u16 | with_reducible exact Holds.u8
  | with_reducible exact Holds.config
  | (with_reducible refine Holds.parseIf _ ?_; holds_leaf; done)
  | (with_reducible refine Holds.padded _ ?_; holds_leaf; done)
  | (with_reducible refine Holds.slice _ _ ?_; holds_leaf; done)
  | with_reducible exact Holds.array _ | with_reducible exact Holds.bytes _ | with_reducible exact Holds.rest | with_reducible exact Holds.restTrimNul
  | with_reducible exact Holds.cowSplitAt _ _)

/-- Walk through a `do` block on both sides. -/
macro "holds" : tactic => `(tactic| repeat' (first
  | with_reducible exact Holds.fail _
  | with_reducible exact Holds.pure _
  | holds_leaf
  | with_reducible refine Holds.bind (by holds_leaf) (fun _ => ?_)
  | with_reducible refine Holds.ite ?_ ?_))

theorem mmap : Holds (parseMmap : P β (Mmap Cow)) (parseMmap : Moored (Mmap Cow)) := by unfold parseMmap; holds
theorem lost : Holds (parseLost : P β Lost) (parseLost : Moored Lost) := by unfold parseLost; holds
theorem comm : Holds (parseComm : P β (Comm Cow)) (parseComm : Moored (Comm Cow)) := by unfold parseComm; holds
theorem exit : Holds (parseExit : P β Exit) (parseExit : Moored Exit) := by unfold parseExit; holds
theorem throttle : Holds (parseThrottle : P β Throttle) (parseThrottle : Moored Throttle) := by unfold parseThrottle; holds
theorem mmapDetail : Holds (parseMmapDetail : P β MmapDetail) (parseMmapDetail : Moored MmapDetail) := by unfold parseMmapDetail; holds
macro_rules | `(tactic| holds_leaf) => `(tactic| with_reducible exact Holds.mmapDetail)
theorem mmap2 : Holds (parseMmap2 : P β (Mmap2 Cow)) (parseMmap2 : Moored (Mmap2 Cow)) := by unfold parseMmap2; holds
theorem aux : Holds (parseAux : P β Aux) (parseAux : Moored Aux) := by unfold parseAux; holds
theorem itraceStart : Holds (parseITraceStart : P β ITraceStart) (parseITraceStart : Moored ITraceStart) := by unfold parseITraceStart; holds
theorem lostSamples : Holds (parseLostSamples : P β LostSamples) (parseLostSamples : Moored LostSamples) := by unfold parseLostSamples; holds
theorem switchCpuWide : Holds (parseSwitchCpuWide : P β SwitchCpuWide) (parseSwitchCpuWide : Moored SwitchCpuWide) := by
  unfold parseSwitchCpuWide; holds
theorem namespaceEntry : Holds (parseNamespaceEntry : P β NamespaceEntry) (parseNamespaceEntry : Moored NamespaceEntry) := by
  unfold parseNamespaceEntry; holds
macro_rules | `(tactic| holds_leaf) => `(tactic| with_reducible exact Holds.namespaceEntry)
theorem namespaces : Holds (parseNamespaces : P β (Namespaces Cow)) (parseNamespaces : Moored (Namespaces Cow)) := by unfold parseNamespaces; holds
theorem ksymbol : Holds (parseKSymbol : P β (KSymbol Cow)) (parseKSymbol : Moored (KSymbol Cow)) := by unfold parseKSymbol; holds
theorem bpfEvent : Holds (parseBpfEvent : P β BpfEvent) (parseBpfEvent : Moored BpfEvent) := by unfold parseBpfEvent; holds
theorem cgroup : Holds (parseCGroup : P β (CGroup Cow)) (parseCGroup : Moored (CGroup Cow)) := by unfold parseCGroup; holds
theorem textPoke : Holds (parseTextPoke : P β (TextPoke Cow)) (parseTextPoke : Moored (TextPoke Cow)) := by
  unfold parseTextPoke; holds
  exact pure _
theorem auxOutputHwId : Holds (parseAuxOutputHwId : P β AuxOutputHwId) (parseAuxOutputHwId : Moored AuxOutputHwId) := by
  unfold parseAuxOutputHwId; holds
theorem cpu : Holds (parseCpu : P β U32) (parseCpu : Moored U32) := by unfold parseCpu; holds
macro_rules | `(tactic| holds_leaf) => `(tactic| with_reducible exact Holds.cpu)
theorem sampleId : Holds (parseSampleId : P β SampleId) (parseSampleId : Moored SampleId) := by unfold parseSampleId; holds
theorem readValue : Holds (parseReadValue : P β ReadValue) (parseReadValue : Moored ReadValue) := by unfold parseReadValue; holds
macro_rules | `(tactic| holds_leaf) => `(tactic| with_reducible exact Holds.readValue)
theorem readGroup : Holds (parseReadGroup : P β (ReadGroup Cow)) (parseReadGroup : Moored (ReadGroup Cow)) := by unfold parseReadGroup; holds
theorem read : Holds (parseRead : P β Read) (parseRead : Moored Read) := by unfold parseRead; holds
macro_rules | `(tactic| holds_leaf) => `(tactic| with_reducible exact Holds.readGroup)
theorem branchEntry : Holds (parseBranchEntry : P β BranchEntry) (parseBranchEntry : Moored BranchEntry) := by unfold parseBranchEntry; holds
macro_rules | `(tactic| holds_leaf) => `(tactic| with_reducible exact Holds.branchEntry)
theorem registers (mask : U64) : Holds (parseRegisters mask : P β (Registers Cow)) (parseRegisters mask : Moored (Registers Cow)) := by
  unfold parseRegisters; holds
macro_rules | `(tactic| holds_leaf) => `(tactic| with_reducible exact Holds.registers _)
theorem registersUser : Holds (parseRegistersUser : P β (Registers Cow)) (parseRegistersUser : Moored (Registers Cow)) := by
  exact bind config fun _ => registers _
theorem registersIntr : Holds (parseRegistersIntr : P β (Registers Cow)) (parseRegistersIntr : Moored (Registers Cow)) := by
  exact bind config fun _ => registers _
theorem values : Holds (parseValues : P β (ReadGroup Cow)) (parseValues : Moored (ReadGroup Cow)) := by
  unfold parseValues
  refine bind config fun _ => Holds.ite readGroup (bind readValue fun v => ?_)
  exact pure _
theorem callchain : Holds (parseCallchain : P β (Cow U64)) (parseCallchain : Moored (Cow U64)) := by unfold parseCallchain; holds
theorem rawInner : Holds (parseRawInner : P β (Cow Byte)) (parseRawInner : Moored (Cow Byte)) := by unfold parseRawInner; holds
theorem lbr (b : Bool) : Holds (parseLbr b : P β (Cow BranchEntry × Option U64)) (parseLbr b : Moored (Cow BranchEntry × Option U64)) := by unfold parseLbr; holds
theorem dynSize (s : U64) : Holds (parseDynSize s : P β U64) (parseDynSize s : Moored U64) := by unfold parseDynSize; holds
macro_rules | `(tactic| holds_leaf) => `(tactic| with_reducible exact Holds.dynSize _)
theorem stackUser : Holds (parseStackUser : P β (Cow Byte)) (parseStackUser : Moored (Cow Byte)) := by
  unfold parseStackUser
  refine bind u64 fun _ => bind (bytes _) fun _ => bind (dynSize _) fun _ => Holds.ite (fail _) (pure _)
theorem auxData : Holds (parseAuxData : P β (Cow Byte)) (parseAuxData : Moored (Cow Byte)) := by unfold parseAuxData; holds
theorem sample : Holds (parseSample : P β (Sample Cow)) (parseSample : Moored (Sample Cow)) := by
  unfold parseSample
  refine bind config fun cfg => ?_
  iterate 7 refine bind (parseIf _ (by first | exact u64 | exact u32)) fun _ => ?_
  refine bind (parseIf _ u64) fun _ => bind (parseIf _ cpu) fun _ => bind (parseIf _ u64) fun _ => ?_
  refine bind (parseIf _ values) fun _ => bind (parseIf _ callchain) fun _ => ?_
  refine bind (parseIf _ (padded 8 rawInner)) fun _ => bind (parseIf _ (lbr _)) fun _ => ?_
  refine bind (parseIf _ registersUser) fun _ => bind (parseIf _ stackUser) fun _ => ?_
  iterate 3 refine bind (parseIf _ u64) fun _ => ?_
  refine bind (parseIf _ registersIntr) fun _ => ?_
  iterate 4 refine bind (parseIf _ u64) fun _ => ?_
  exact bind (parseIf _ auxData) fun _ => pure _
theorem header : Holds (parseHeader : P β Header) (parseHeader : Moored Header) :=
  bind u32 fun _ => bind u16 fun _ => bind u16 fun _ => pure _

theorem body (ty : U32) : Holds (parseBody ty : P β (Record Cow)) (parseBody ty : Moored (Record Cow)) := by
  unfold parseBody
  split
  · exact bind mmap fun _ => pure _
  · exact bind lost fun _ => pure _
  · exact bind comm fun _ => pure _
  · exact bind exit fun _ => pure _
  · exact bind throttle fun _ => pure _
  · exact bind throttle fun _ => pure _
  · exact bind exit fun _ => pure _
  · exact bind read fun _ => pure _
  · exact bind sample fun _ => pure _
  · exact bind mmap2 fun _ => pure _
  · exact bind aux fun _ => pure _
  · exact bind itraceStart fun _ => pure _
  · exact bind lostSamples fun _ => pure _
  · exact bind switchCpuWide fun _ => pure _
  · exact bind namespaces fun _ => pure _
  · exact bind ksymbol fun _ => pure _
  · exact bind bpfEvent fun _ => pure _
  · exact bind cgroup fun _ => pure _
  · exact bind textPoke fun _ => pure _
  · exact bind auxOutputHwId fun _ => pure _
  · exact bind rest fun _ => pure _


theorem attr : Holds (P.parseAttr : P β Attr) Moored.attr := by
  refine bind u32 fun t => bind u32 fun s => Holds.ite (fail _) ?_
  intro F hF p f hp
  have hk : f.s.fin.kind = .eof := by rw [hp.fin]; rfl
  have hlim : s.toNat - 4 < usizeLimit := by have := s.isLt; unfold usizeLimit; omega
  obtain ⟨hs, _⟩ := P.splitAt_takes hp.rep hlim
  have hone := (Inv.splitAt hF.stableP (s.toNat - 4) p hp.one).1
  rcases Nat.lt_or_ge f.s.bytes.length (s.toNat - 4) with hlt | hle
  · have hle : ¬ s.toNat - 4 ≤ f.s.bytes.length := by omega
    rw [if_neg hle] at hs
    have h2 := Exhausts.splitAt LawfulEof.eof_law (s.toNat - 4) p f hp.rep hk
    unfold Exhausted at h2
    rw [hs] at h2
    rw [P.bind_err (P.run_eq _ hs)]
    simp only [if_neg hle]
    exact ⟨by rw [hp.fin], fun _ => hp.adv h2 hone⟩
  rw [if_pos hle] at hs
  obtain ⟨rp, hres, hso, hrep, _⟩ := hs
  rw [P.bind_ok (P.run_eq _ hres)]
  simp only [if_pos hle]
  have hr := Refines.attrBody t s rp _ (hso.region hle).rep
  rcases hb : (Perf.attrBody t s : Spec Attr) (f.region (s.toNat - 4)) with e | ⟨a, g⟩
  · rw [hb] at hr
    cases e with
    | stuck => exact absurd hb (NoStuck.attrBody t s _)
    | err e =>
      have hr : _ = _ := hr
      rw [P.bind_err (P.onChild_err (P.run_eq _ hr) _)]
      exact ⟨rfl, fun _ => hp.adv hrep hone⟩
  · rw [hb] at hr
    obtain ⟨a', hr1, rfl, _⟩ := hr
    rw [P.bind_ok (P.onChild_ok (P.run_eq _ hr1) _)]
    exact ⟨rfl, fun _ => hp.adv hrep hone⟩

theorem framed_at {F : List Byte → β → Prop} {p q : Parser β} {f : Flat} (h : Header) (hp : At F p f) (ho : OneP F q)
    (hq : RepP q (if h.size.toNat < 8 then f else f.adv (min (h.size.toNat - 8) f.s.bytes.length))) :
    At F q (if h.size.toNat < 8 then f else f.adv (min (h.size.toNat - 8) f.s.bytes.length)) := by
  split at hq
  · rename_i h8
    rw [if_pos h8]
    exact ⟨hq, ho, hp.al, hp.fin⟩
  · rename_i h8
    rw [if_neg h8]
    exact hp.adv hq ho

omit [LawfulEof β] in
/-- The region of a record is one piece again. -/
theorem region_one {F : List Byte → β → Prop} (hF : OneBuf F) (hd : Header) {p : Parser β} (ho : OneP F p) :
    OneP F (P.metadataWithHeader hd p).st ∧ ∀ x, (P.metadataWithHeader hd p).res = .ok x → ∃ d, Cursor.One d x.1.data.buf := by
  obtain ⟨d, hd'⟩ := ho
  have hinv := Inv.regionOf (G := fun c => ∃ d, Cursor.One d c) (I := OneIn F d)
    (fun n q hq => ⟨((hF.splitAt d n) q hq).1, fun x hx => (((hF.splitAt d n) q hq).2 x hx).2.imp fun _ hx => hx.2⟩)
    (fun n q r hq hr => by
      obtain ⟨d', hd'⟩ := hq
      exact ((OneBuf.cursor.splitAt d' n q ⟨d', List.suffix_refl _, hd'⟩).2 r hr).2.imp fun _ hx => hx.2) hd p ⟨d, List.suffix_refl _, hd'⟩
  exact ⟨hinv.1.imp fun _ hx => hx.2, hinv.2⟩

theorem recordWithHeader {O : Type} (v : Visitor Cow O) (h : Header) :
    Holds (P.recordWithHeader v h : P β O) (Moored.framed h (Contig.recordWithHeader v h)) := by
  intro F hF p f hp
  have h1 := Meets.recordWithHeader hF v h p f hp
  have h2 := P.recordWithHeader_drained LawfulEof.eof_law v hp.rep (by rw [hp.fin]; rfl) h
  have h3 : OneP F (P.recordWithHeader v h p).st := by
    rw [(c03_fast_path v h p).2]
    unfold P.recordWithHeaderGeneral
    have h4 := (region_one hF h hp.one).1
    rcases hm : (P.metadataWithHeader h p).res with e | ⟨c, md⟩
    · rw [P.bind_err (P.run_eq _ hm)]; exact h4
    · rw [P.bind_ok (P.run_eq _ hm)]
      show OneP F (P.recordImpl c v md _).st
      rw [P.recordImpl_st]
      exact h4
  unfold Moored.framed
  rcases hs : Contig.recordWithHeader v h f with e | ⟨a, f'⟩ <;> rw [hs] at h1
  · exact ⟨h1, fun _ => framed_at h hp h3 h2⟩
  · exact ⟨h1.1, fun _ => h1.2⟩

theorem record {O : Type} (v : Visitor Cow O) : Holds (P.record v : P β O) (Moored.record v) := bind header fun h => recordWithHeader v h

/-- The metadata comes with a parser of the body. -/
def Opens (m : P β (Parser Cursor × Metadata)) (s : Moored (Flat × Metadata)) : Prop := ∀ F, OneBuf F → ∀ p f, At F p f →
  match s f with
  | (.ok (r, md), f') => (∃ c, (m p).res = .ok (c, md) ∧ At Cursor.One c r) ∧ At F (m p).st f'
  | (.error e, f') => (m p).res = .error e ∧ (∃ x, e = .err x) ∧ At F (m p).st f'

theorem metadataWithHeader (h : Header) : Opens (P.metadataWithHeader h : P β _) (Moored.framed h (Contig.metadataWithHeader h)) := by
  intro F hF p f hp
  have h1 := Refines.metadataWithHeader h p f hp.rep
  have h2 := P.metadataWithHeader_drained LawfulEof.eof_law hp.rep (by rw [hp.fin]; rfl) h
  have hone := region_one hF h hp.one
  obtain ⟨k, hk⟩ := hp.al
  have hc := Meets.metadata_flat h hp.rep.wf hk hp.fin
  unfold Moored.framed
  rcases hs : Spec.metadataWithHeader h f with e | ⟨⟨r, md⟩, f'⟩ <;> rw [hs] at h1 hc
  · cases e with
    | stuck =>
      rcases Spec.metadata_cases h f with ⟨_, a⟩ | ⟨_, _, a⟩ | ⟨_, _, _, a⟩ | ⟨_, _, _, _, a⟩ | ⟨_, _, _, _, sid, i, _, a⟩ <;>
        rw [a] at hs <;> cases hs
    | err e =>
      rw [hc]
      exact ⟨h1, ⟨_, rfl⟩, framed_at h hp hone.1 h2⟩
  · rw [hc]
    obtain ⟨⟨c, md'⟩, h3, h4, h5⟩ := h1
    obtain ⟨h6, h7⟩ := h4
    have h7 : md' = md := h7
    subst h7
    obtain ⟨_, _, hf', n, hr⟩ := Meets.metadata_region hs
    have hr : r = f.region n := hr
    have hf' : f' = f.adv (h.size.toNat - 8) := hf'
    refine ⟨⟨c, h3, h6.rep, hone.2 _ h3, ⟨k, by rw [hr]; exact hk⟩, by rw [hr]; rfl⟩, ?_⟩
    rw [hf'] at h5 ⊢
    exact hp.adv h5 hone.1

theorem metadata : Opens (P.metadata : P β _) Moored.metadata := by
  intro F hF p f hp
  have h1 := header F hF p f hp
  have hm : Moored.metadata f = Moored.bind parseHeader (fun h => Moored.framed h (Contig.metadataWithHeader h)) f := rfl
  rw [hm]
  unfold P.metadata
  rcases hs : (parseHeader : Moored Header) f with ⟨e | h, f'⟩ <;> rw [hs] at h1
  · rw [Moored.bind_err hs]
    have hb := P.bind_err (k := fun h => (P.metadataWithHeader h : P β _)) (P.run_eq _ h1.1)
    have hx : ∃ x, e = .err x := by
      rcases Nat.lt_or_ge f.s.bytes.length 8 with hl | hl
      · have h2 := P.header_short hp.rep hl
        have h1' := h1.1
        rw [h2] at h1'
        cases h1'; exact ⟨_, rfl⟩
      · obtain ⟨q, h2, _⟩ := P.header_run hp.rep hl
        have h1' := h1.1
        rw [h2] at h1'
        cases h1'
    have h2 := h1.2 (fun x hx' => by cases hx'; exact hx)
    have hb' : ((parseHeader : P β Header) >>= fun h => P.metadataWithHeader h) p = _ := hb
    show (_ ∧ _ ∧ At F _ _)
    rw [hb']
    exact ⟨rfl, hx, h2⟩
  · rw [Moored.bind_ok hs]
    have h2 := h1.2 (fun x hx => by cases hx)
    have hb := P.bind_ok (k := fun h => (P.metadataWithHeader h : P β _)) (P.run_eq _ h1.1)
    have h3 := metadataWithHeader h F hF _ f' h2
    rw [hb]
    rcases ht : Moored.framed h (Contig.metadataWithHeader h) f' with ⟨e | ⟨r, md⟩, g⟩ <;> rw [ht] at h3
    · exact h3
    · exact h3

theorem attempt {m : P β α} {s : Moored α} (h : Holds m s) : Holds (P.attempt m) (Moored.attempt s) := by
  intro F hF p f hp
  have h1 := h F hF p f hp
  unfold Moored.attempt P.attempt
  rcases hs : s f with ⟨e | a, f'⟩ <;> rw [hs] at h1
  · rw [h1.1]
    cases e with
    | err e => exact ⟨rfl, fun _ => h1.2 fun x hx => ⟨e, by cases hx; rfl⟩⟩
    | _ => exact ⟨rfl, fun ht => by obtain ⟨x, hx⟩ := ht _ rfl; cases hx⟩
  · rw [h1.1]
    exact ⟨rfl, fun _ => h1.2 fun x hx => by cases hx⟩

theorem attemptOn {δ : Type} [ParseBuf δ] [LawfulEof δ] {G : List Byte → δ → Prop} (hG : OneBuf G) {m : P δ α} {s : Moored α} (h : Holds m s)
    {c : Parser δ} {r : Flat} (hc : At G c r) : Holds (P.attemptOn c m : P β (Except ParseError α)) (Moored.attemptOn r s) := by
  intro F hF p f hp
  have h1 := h G hG c r hc
  unfold Moored.attemptOn P.attemptOn
  rcases hs : s r with ⟨e | a, r'⟩ <;> rw [hs] at h1
  · rw [h1.1]
    cases e with
    | err e => exact ⟨rfl, fun _ => hp⟩
    | _ => exact ⟨rfl, fun ht => by obtain ⟨x, hx⟩ := ht _ rfl; cases hx⟩
  · rw [h1.1]
    exact ⟨rfl, fun _ => hp⟩

/-- What is done with the body, and then with the rest. -/
theorem opened {m : P β (Parser Cursor × Metadata)} {s : Moored (Flat × Metadata)} (h : Opens m s) {b : P Cursor T} {b' : Moored T}
    (hb : Holds b b') {k : Metadata → Except ParseError T → P β α} {k' : Metadata → Except ParseError T → Moored α}
    (hk : ∀ md r, Holds (k md r) (k' md r)) :
    Holds (m >>= fun x => P.attemptOn x.1 b >>= fun r => k x.2 r) (s.bind fun x => (Moored.attemptOn x.1 b').bind fun r => k' x.2 r) := by
  intro F hF p f hp
  have h1 := h F hF p f hp
  rcases hs : s f with ⟨e | ⟨r, md⟩, f'⟩ <;> rw [hs] at h1
  · rw [P.bind_err (P.run_eq _ h1.1), Moored.bind_err hs]
    exact ⟨rfl, fun _ => h1.2.2⟩
  · obtain ⟨⟨c, h2, h3⟩, h5⟩ := h1
    rw [P.bind_ok (P.run_eq _ h2), Moored.bind_ok hs]
    exact bind (attemptOn OneBuf.cursor hb h3) (fun r => hk md r) F hF _ f' h5

theorem call (c : Call T) : Holds (c.run β) c.moored := by
  cases c with
  | array n => exact array n
  | direct n => exact sliceDirect U64.elem n
  | entries n => exact bind (slice _ n namespaceEntry) fun _ => pure _
  | branches n => exact bind (slice _ n branchEntry) fun _ => pure _
  | header => exact header
  | attr => exact attr
  | entry => exact namespaceEntry
  | branch => exact branchEntry
  | mmapDetail => exact mmapDetail
  | sampleId => exact sampleId
  | readValue => exact readValue
  | readGroup => exact bind readGroup fun _ => pure _
  | body ty => exact bind (body ty) fun _ => pure _
  | visit => exact bind (record _) fun _ => pure _
  | visitWith h => exact bind (recordWithHeader _ h) fun _ => pure _

theorem prog (prog : Prog α) : ∀ (β : Type) [ParseBuf β] [LawfulEof β], Holds (prog.run β) prog.moored := by
  have e1 : ∀ {α A : Type} {β : Type} [ParseBuf β] [LawfulEof β] {m : P β A} {s : Moored A} {k : A → Prog α}, Holds m s →
      (∀ x, Holds ((k x).run β) (k x).moored) → Holds (m >>= fun x => (k x).run β) (s.bind fun x => (k x).moored) :=
    fun h hk => bind h hk
  have e2 : ∀ {α A : Type} {β : Type} [ParseBuf β] [LawfulEof β] {m : P β (Cow A)} {s : Moored (Cow A)} {k : List A → Prog α}, Holds m s →
      (∀ x, Holds ((k x).run β) (k x).moored) → Holds (m >>= fun c => (k c.data).run β) (s.bind fun c => (k c.data).moored) :=
    fun h hk => bind h fun c => hk c.data
  induction prog with
  | done a => exact fun β _ _ => pure a
  | fail e => exact fun β _ _ => fail e
  | config k ih => exact fun β _ _ => e1 config fun x => ih x β
  | u8 k ih => exact fun β _ _ => e1 u8 fun x => ih x β
  | u16 k ih => exact fun β _ _ => e1 u16 fun x => ih x β
  | u32 k ih => exact fun β _ _ => e1 u32 fun x => ih x β
  | u64 k ih => exact fun β _ _ => e1 u64 fun x => ih x β
  | bytes n k ih => exact fun β _ _ => e2 (bytes n) fun x => ih x β
  | rest k ih => exact fun β _ _ => e2 rest fun x => ih x β
  | restTrimNul k ih => exact fun β _ _ => e2 restTrimNul fun x => ih x β
  | words n k ih => exact fun β _ _ => e2 (slice U64.elem n u64) fun x => ih x β
  | repeated size item n k ihi ih => exact fun β _ _ => e1 (repeated size (ihi β) n) fun x => ih x β
  | metadata body k ihb ih => exact fun β _ _ => opened metadata (ihb Cursor) fun md r => ih md r β
  | metadataWith hd body k ihb ih => exact fun β _ _ => opened (metadataWithHeader hd) (ihb Cursor) fun md r => ih md r β
  | call c k ih => exact fun β _ _ => e1 (call c) fun x => ih x β
  | record k ih => exact fun β _ _ => bind (record _) fun x => ih x.view β
  | attempt m k ihm ih => exact fun β _ _ => e1 (attempt (ihm β)) fun x => ih x β

end Holds

end Perf
