import Verif.Spec.Drip
import Verif.Proof.Piped
import Verif.Proof.FlowProg
import Verif.Props.Piped
import Verif.Props.User
/-!
# Programs over data that arrives in temporary portions

`Drips m s`: on a lawful buffer that hands out temporary chunks only and keeps reporting its end, the code `m` does exactly what `s` says
of the mere bytes, and stands where `s` says, after errors too.
-/
namespace Perf
variable {β : Type} [ParseBuf β] [LawfulEof β] {α α' T : Type}

/-- Not a panic. -/
def Tame (r : Except Fault α) : Prop := ∀ e, r = .error e → ∃ x, e = .err x

/-- The result and the state of a run are those of `r`. -/
def Drops (o : Out β α) (r : Except Fault α × Flat) : Prop :=
  o.res = r.1 ∧ (Tame r.1 → Fed o.st r.2 ∧ r.2.s.fin.kind = .eof)

/-- The code does what the parser over the bytes says. -/
def Drips (m : P β α) (s : Drip α) : Prop := ∀ p f, Fed p f → f.s.fin.kind = .eof → Drops (m p) (s f)

theorem Drip.bind_err {m : Drip α} {k : α → Drip α'} {f f' : Flat} {e : Fault} (h : m f = (.error e, f')) :
    m.bind k f = (.error e, f') := by
  unfold Drip.bind
  rw [h]

theorem Drip.bind_ok {m : Drip α} {k : α → Drip α'} {f f' : Flat} {a : α} (h : m f = (.ok a, f')) : m.bind k f = k a f' := by
  unfold Drip.bind
  rw [h]

namespace Drips

theorem pure (a : α) : Drips (Pure.pure a : P β α) (Pure.pure a : Drip α) := fun _ _ hp hk => ⟨rfl, fun _ => ⟨hp, hk⟩⟩
theorem fault (e : Fault) : Drips (P.fault e : P β α) (Drip.fault e : Drip α) := fun _ _ hp hk => ⟨rfl, fun _ => ⟨hp, hk⟩⟩
theorem fail (e : ParseError) : Drips (ParserM.fail e : P β α) (ParserM.fail e : Drip α) := fun _ _ hp hk => ⟨rfl, fun _ => ⟨hp, hk⟩⟩
theorem config : Drips (ParserM.config : P β ParseConfig) (ParserM.config : Drip ParseConfig) := fun p _ hp hk => by
  refine ⟨?_, fun _ => ⟨hp, hk⟩⟩
  show Except.ok p.config = _
  rw [hp.rep.cfg]
  rfl

theorem bind {m : P β α} {s : Drip α} {k : α → P β α'} {k' : α → Drip α'} (h : Drips m s)
    (hk : ∀ a, Drips (k a) (k' a)) : Drips (m >>= k) (s >>= k') := by
  intro p f hp hf
  have h1 := h p f hp hf
  have hb : (s >>= k') f = match s f with
    | (.error e, f') => (.error e, f')
    | (.ok a, f') => k' a f' := rfl
  rw [hb]
  rcases hs : s f with ⟨e | a, f'⟩ <;> rw [hs] at h1
  · rw [P.bind_err (P.run_eq _ h1.1)]
    exact ⟨rfl, fun ht => h1.2 fun x hx => ht x (by cases hx; rfl)⟩
  · rw [P.bind_ok (P.run_eq _ h1.1)]
    have h2 := h1.2 (fun x hx => by cases hx)
    exact hk a _ _ h2.1 h2.2

theorem ite {c : Prop} [Decidable c] {m n : P β α} {s t : Drip α} (h1 : Drips m s) (h2 : Drips n t) :
    Drips (if c then m else n) (if c then s else t) := by
  split
  · exact h1
  · exact h2

/-- The end of the input stays what it is. -/
def Keeps (s : Piped α) : Prop := ∀ f a f', s f = .ok (a, f') → f'.s.fin = f.s.fin

theorem drain {m : P β α} {s : Piped α} (h : Pours m s) (hx : Exhausts m) (hs : Keeps s) : Drips m (Drip.drain s) := by
  intro p f hp hk
  have h1 := h p f hp
  have h2 := hx p f hp.rep hk
  unfold Drip.drain
  rcases hr : s f with e | ⟨a, f'⟩ <;> rw [hr] at h1
  · refine ⟨h1, fun ht => ?_⟩
    obtain ⟨x, rfl⟩ := ht e rfl
    have h1 : (m p).res = .error (.err x) := h1
    unfold Exhausted at h2
    rw [h1] at h2
    exact ⟨hp.adv h2, hk⟩
  · exact ⟨h1.1, fun _ => ⟨h1.2, by rw [hs f a f' hr]; exact hk⟩⟩

theorem keeps_take (n : Nat) : Keeps (Piped.take n) := by
  intro f a f' h
  unfold Piped.take at h
  split at h
  · cases h; rfl
  · cases h
theorem keeps_array (n : Nat) : Keeps (Piped.array n) := by
  intro f a f' h
  unfold Piped.array at h
  split at h
  · cases h
  · exact keeps_take n f a f' h
theorem keeps_bytes (n : Nat) : Keeps (Piped.bytes n) := by
  intro f a f' h
  have hb : Piped.bytes n f = match Piped.array n f with
    | .error e => .error e
    | .ok (a, f') => .ok (Cow.owned a, f') := by
    show Piped.bind (Piped.array n) (fun bs => Piped.pure (Cow.owned bs)) f = _
    unfold Piped.bind
    rcases Piped.array n f with e | ⟨a, f'⟩ <;> rfl
  rw [hb] at h
  rcases ha : Piped.array n f with e | ⟨b, g⟩ <;> rw [ha] at h
  · cases h
  · cases h; exact keeps_array n f b _ ha
theorem keeps_rest : Keeps Piped.rest := by
  intro f a f' h
  unfold Piped.rest at h
  split at h
  · cases h
  · split at h
    · cases h; rfl
    · cases h

theorem array (n : Nat) : Drips (ParserM.array n : P β (List Byte)) (ParserM.array n : Drip (List Byte)) :=
  drain (Pours.array n) (Exhausts.array LawfulEof.eof_law n) (keeps_array n)
theorem bytes (n : Nat) : Drips (ParserM.bytes n : P β (Cow Byte)) (ParserM.bytes n : Drip (Cow Byte)) :=
  drain (Pours.bytes n) (Exhausts.bytes LawfulEof.eof_law n) (keeps_bytes n)
theorem rest : Drips (ParserM.rest : P β (Cow Byte)) (ParserM.rest : Drip (Cow Byte)) :=
  drain Pours.rest (Exhausts.rest LawfulEof.eof_law) keeps_rest
theorem restTrimNul : Drips (ParserM.restTrimNul : P β (Cow Byte)) (ParserM.restTrimNul : Drip (Cow Byte)) :=
  bind rest fun _ => pure _

theorem ignored (n : Nat) : Drips (P.bytesIgnored n : P β Unit) (Drip.drain fun f => (Piped.take n f).map fun r => ((), r.2)) := by
  refine drain (fun p f hp => ?_) (Exhausts.bytesIgnored LawfulEof.eof_law n) fun f a f' h => ?_
  · have h1 := Pours.ignored n hp
    rcases ht : Piped.take n f with e | ⟨x, f'⟩ <;> rw [ht] at h1
    · exact h1
    · exact h1
  · rcases ht : Piped.take n f with e | ⟨x, g⟩ <;> rw [ht] at h
    · cases h
    · cases h; exact keeps_take n f x _ ht

theorem padded (n : Nat) {m : P β α} {s : Drip α} (hm : Drips m s) :
    Drips (ParserM.padded n m : P β α) (ParserM.padded n s : Drip α) := by
  intro p f hp hk
  show Drops (P.padded n m p) (Drip.padded n s f)
  unfold Drip.padded P.padded
  by_cases h0 : n = 0
  · simp only [if_pos h0]
    exact ⟨rfl, fun ht => by obtain ⟨x, hx⟩ := ht _ rfl; cases hx⟩
  simp only [if_neg h0]
  rw [P.bind_nil (P.offset_run p)]
  have h1 := hm p f hp hk
  rcases hs : s f with ⟨e | a, f'⟩ <;> rw [hs] at h1
  · rw [P.bind_err (P.run_eq _ h1.1)]
    exact ⟨rfl, fun ht => h1.2 fun x hx => ht x (by cases hx; rfl)⟩
  · have h3 := h1.2 (fun x hx => by cases hx)
    rw [P.bind_ok (P.run_eq _ h1.1), P.bind_nil (P.offset_run _), hp.rep.off, h3.1.rep.off]
    dsimp only
    by_cases hz : (f'.off - f.off) % n = 0
    · simp only [if_pos hz]
      exact ⟨rfl, fun _ => h3⟩
    · simp only [if_neg hz]
      generalize n - (f'.off - f.off) % n = t
      have h2 := bind (ignored (β := β) t) (fun _ => pure a) (m p).st f' h3.1 h3.2
      unfold Drops at h2 ⊢
      have e1 : ((Drip.drain fun g => (Piped.take t g).map fun r => ((), r.2) : Drip Unit) >>= fun _ => Pure.pure a) f' =
          Drip.bind (Drip.drain (Piped.take t)) (fun _ => Drip.pure a) f' := by
        show Drip.bind _ _ f' = _
        unfold Drip.bind Drip.drain
        dsimp only
        generalize Piped.take t f' = r
        rcases r with e | ⟨x, f''⟩ <;> rfl
      rw [e1] at h2
      exact h2

theorem repeatedLoop {m : P β T} {s : Drip T} (hm : Drips m s) : ∀ n, Drips (P.repeatedLoop m n) (Drip.repeated s n)
  | 0 => pure _
  | n + 1 => bind hm fun _ => bind (repeatedLoop hm n) fun _ => pure _

theorem repeated (size : Nat) {m : P β T} {s : Drip T} (hm : Drips m s) (n : Nat) : Drips (P.repeated size m n) (Drip.repeated s n) := by
  intro p f hp hk
  obtain ⟨b, hb, _⟩ := P.safeCapacityBound_run size p
  unfold P.repeated
  rw [P.bind_nil hb, P.bind_ok (P.alloc_run _ p)]
  exact repeatedLoop hm n p f hp hk

theorem copied (size : Nat) {m : P β T} {s : Drip T} (hm : Drips m s) (n : Nat) :
    Drips (P.repeated size m n >>= fun v => Pure.pure (Cow.owned v)) (Drip.copied s n) := bind (repeated size hm n) fun _ => pure _

theorem sliceDirect (e : Elem T) (n : Nat) : Drips (P.sliceDirect e n : P β (Option (List T))) (Drip.sliceDirect e.size n) := by
  intro p f hp hk
  have hcfg : P.config p = ⟨.ok f.cfg, p, []⟩ := by rw [← hp.rep.cfg]; rfl
  have hsd : P.sliceDirect e n p = (if !f.cfg.endian.isNative then Pure.pure none
      else if n * e.size ≥ usizeLimit then
        P.fail (.custom .invalidRecord "array length in bytes larger than usize::MAX")
      else P.bytesDirect (n * e.size) >>= fun r => match r with
        | none => Pure.pure none
        | some (addr, bs) => if bs = [] ∨ addr % 8 = 0 then Pure.pure (some (e.decodeAll (fromOrder f.cfg.host 64) n bs))
          else Pure.pure none : P β (Option (List T))) p := by
    unfold P.sliceDirect
    rw [P.bind_nil hcfg]
    rfl
  unfold Drip.sliceDirect
  by_cases hn : f.cfg.endian.isNative = true
  · rw [P.ite_neg (by rw [hn]; decide)] at hsd
    by_cases hl : n * e.size ≥ usizeLimit
    · rw [P.ite_pos hl] at hsd
      rw [if_pos ⟨hn, hl⟩, hsd]
      exact ⟨rfl, fun _ => ⟨hp, hk⟩⟩
    rw [if_neg (fun h => hl h.2)]
    rw [P.ite_neg hl] at hsd
    by_cases he : f.s.bytes = []
    · rw [if_pos ⟨hn, he⟩]
      obtain ⟨q, hq, hr, _⟩ := P.chunk_eof LawfulEof.eof_law hp.rep he hk
      have hbd : P.bytesDirect (n * e.size) p = ⟨.error (.err f.s.fin), q, []⟩ := by
        unfold P.bytesDirect
        rw [P.bind_err hq]
      rw [P.bind_err hbd] at hsd
      rw [hsd]
      exact ⟨rfl, fun _ => ⟨⟨hr, hp.al⟩, hk⟩⟩
    rw [if_neg (fun h => he h.2)]
    obtain ⟨q, hq, hat⟩ := hp.direct he (n * e.size)
    rw [P.bind_nil hq] at hsd
    rw [hsd]
    exact ⟨rfl, fun _ => ⟨hat, hk⟩⟩
  · rw [P.ite_pos (by cases hx : f.cfg.endian.isNative with | true => exact absurd hx hn | false => rfl)] at hsd
    rw [if_neg (fun h => hn h.1), if_neg (fun h => hn h.1), hsd]
    exact ⟨rfl, fun _ => ⟨hp, hk⟩⟩

theorem slice (e : Elem T) (n : Nat) {m : P β T} {s : Drip T} (hm : Drips m s) :
    Drips (ParserM.slice e m n : P β (Cow T)) (ParserM.slice e s n : Drip (Cow T)) := by
  intro p f hp hk
  have hd := sliceDirect e n p f hp hk
  show Drops (P.slice e m n p) (Drip.slice e s n f)
  unfold Drip.sliceDirect at hd
  unfold Drip.slice P.slice
  by_cases h1 : f.cfg.endian.isNative ∧ n * e.size ≥ usizeLimit
  · simp only [if_pos h1] at hd ⊢
    rw [P.bind_err (P.run_eq _ hd.1)]
    exact ⟨rfl, fun _ => hd.2 fun x hx => ⟨_, by cases hx; rfl⟩⟩
  simp only [if_neg h1] at hd ⊢
  by_cases h2 : f.cfg.endian.isNative ∧ f.s.bytes = []
  · simp only [if_pos h2] at hd ⊢
    rw [P.bind_err (P.run_eq _ hd.1)]
    exact ⟨rfl, fun _ => hd.2 fun x hx => ⟨_, by cases hx; rfl⟩⟩
  simp only [if_neg h2] at hd ⊢
  rw [P.bind_ok (P.run_eq _ hd.1)]
  have h3 := hd.2 (fun x hx => by cases hx)
  exact copied e.size hm n _ f h3.1 hk

theorem cowSplitAt (c : Cow T) (n : Nat) :
    Drips (ParserM.cowSplitAt c n : P β (Cow T × Cow T)) (ParserM.cowSplitAt c n : Drip (Cow T × Cow T)) := by
  show Drips (match c.splitAt n with | some r => Pure.pure r | none => P.fault .panic) (match c.splitAt n with | some r => Pure.pure r | none => Drip.fault .panic)
  cases c.splitAt n with
  | none => exact fault _
  | some r => exact pure _

theorem u8 : Drips (parseU8 : P β U8) (parseU8 : Drip U8) := bind (array 1) fun _ => pure _
theorem u16 : Drips (parseU16 : P β U16) (parseU16 : Drip U16) := bind (array 2) fun _ => bind config fun _ => pure _
theorem u32 : Drips (parseU32 : P β U32) (parseU32 : Drip U32) := bind (array 4) fun _ => bind config fun _ => pure _
theorem u64 : Drips (parseU64 : P β U64) (parseU64 : Drip U64) := bind (array 8) fun _ => bind config fun _ => pure _
theorem parseIf {m : P β α} {s : Drip α} (c : Bool) (hm : Drips m s) : Drips (Perf.parseIf c m) (Perf.parseIf c s) := by
  cases c with
  | true => exact bind hm fun _ => pure _
  | false => exact pure _

/-- One step of a parser. -/
syntax "drips_leaf" : tactic
macro_rules | `(tactic| drips_leaf) => `(tactic| first
  | with_reducible exact Drips.u64 | with_reducible exact Drips.u32 | with_reducible exact Drips.u16 | with_reducible exact Drips.u8
  | with_reducible exact Drips.config
  | (with_reducible refine Drips.parseIf _ ?_; drips_leaf; done)
  | (with_reducible refine Drips.padded _ ?_; drips_leaf; done)
  | (with_reducible refine Drips.slice _ _ ?_; drips_leaf; done)
  | with_reducible exact Drips.array _ | with_reducible exact Drips.bytes _ | with_reducible exact Drips.rest | with_reducible exact Drips.restTrimNul
  | with_reducible exact Drips.cowSplitAt _ _)

/-- Walk through a `do` block on both sides. -/
macro "drips" : tactic => `(tactic| repeat' (first
  | with_reducible exact Drips.fail _
  | with_reducible exact Drips.pure _
  | drips_leaf
  | with_reducible refine Drips.bind (by drips_leaf) (fun _ => ?_)
  | with_reducible refine Drips.ite ?_ ?_))

theorem mmap : Drips (parseMmap : P β (Mmap Cow)) (parseMmap : Drip (Mmap Cow)) := by unfold parseMmap; drips
theorem lost : Drips (parseLost : P β Lost) (parseLost : Drip Lost) := by unfold parseLost; drips
theorem comm : Drips (parseComm : P β (Comm Cow)) (parseComm : Drip (Comm Cow)) := by unfold parseComm; drips
theorem exit : Drips (parseExit : P β Exit) (parseExit : Drip Exit) := by unfold parseExit; drips
theorem throttle : Drips (parseThrottle : P β Throttle) (parseThrottle : Drip Throttle) := by unfold parseThrottle; drips
theorem mmapDetail : Drips (parseMmapDetail : P β MmapDetail) (parseMmapDetail : Drip MmapDetail) := by unfold parseMmapDetail; drips
macro_rules | `(tactic| drips_leaf) => `(tactic| with_reducible exact Drips.mmapDetail)
theorem mmap2 : Drips (parseMmap2 : P β (Mmap2 Cow)) (parseMmap2 : Drip (Mmap2 Cow)) := by unfold parseMmap2; drips
theorem aux : Drips (parseAux : P β Aux) (parseAux : Drip Aux) := by unfold parseAux; drips
theorem itraceStart : Drips (parseITraceStart : P β ITraceStart) (parseITraceStart : Drip ITraceStart) := by unfold parseITraceStart; drips
theorem lostSamples : Drips (parseLostSamples : P β LostSamples) (parseLostSamples : Drip LostSamples) := by unfold parseLostSamples; drips
theorem switchCpuWide : Drips (parseSwitchCpuWide : P β SwitchCpuWide) (parseSwitchCpuWide : Drip SwitchCpuWide) := by
  unfold parseSwitchCpuWide; drips
theorem namespaceEntry : Drips (parseNamespaceEntry : P β NamespaceEntry) (parseNamespaceEntry : Drip NamespaceEntry) := by
  unfold parseNamespaceEntry; drips
macro_rules | `(tactic| drips_leaf) => `(tactic| with_reducible exact Drips.namespaceEntry)
theorem namespaces : Drips (parseNamespaces : P β (Namespaces Cow)) (parseNamespaces : Drip (Namespaces Cow)) := by unfold parseNamespaces; drips
theorem ksymbol : Drips (parseKSymbol : P β (KSymbol Cow)) (parseKSymbol : Drip (KSymbol Cow)) := by unfold parseKSymbol; drips
theorem bpfEvent : Drips (parseBpfEvent : P β BpfEvent) (parseBpfEvent : Drip BpfEvent) := by unfold parseBpfEvent; drips
theorem cgroup : Drips (parseCGroup : P β (CGroup Cow)) (parseCGroup : Drip (CGroup Cow)) := by unfold parseCGroup; drips
theorem textPoke : Drips (parseTextPoke : P β (TextPoke Cow)) (parseTextPoke : Drip (TextPoke Cow)) := by
  unfold parseTextPoke; drips
  exact pure _
theorem auxOutputHwId : Drips (parseAuxOutputHwId : P β AuxOutputHwId) (parseAuxOutputHwId : Drip AuxOutputHwId) := by
  unfold parseAuxOutputHwId; drips
theorem cpu : Drips (parseCpu : P β U32) (parseCpu : Drip U32) := by unfold parseCpu; drips
macro_rules | `(tactic| drips_leaf) => `(tactic| with_reducible exact Drips.cpu)
theorem sampleId : Drips (parseSampleId : P β SampleId) (parseSampleId : Drip SampleId) := by unfold parseSampleId; drips
theorem readValue : Drips (parseReadValue : P β ReadValue) (parseReadValue : Drip ReadValue) := by unfold parseReadValue; drips
macro_rules | `(tactic| drips_leaf) => `(tactic| with_reducible exact Drips.readValue)
theorem readGroup : Drips (parseReadGroup : P β (ReadGroup Cow)) (parseReadGroup : Drip (ReadGroup Cow)) := by unfold parseReadGroup; drips
theorem read : Drips (parseRead : P β Read) (parseRead : Drip Read) := by unfold parseRead; drips
macro_rules | `(tactic| drips_leaf) => `(tactic| with_reducible exact Drips.readGroup)
theorem branchEntry : Drips (parseBranchEntry : P β BranchEntry) (parseBranchEntry : Drip BranchEntry) := by unfold parseBranchEntry; drips
macro_rules | `(tactic| drips_leaf) => `(tactic| with_reducible exact Drips.branchEntry)
theorem registers (mask : U64) : Drips (parseRegisters mask : P β (Registers Cow)) (parseRegisters mask : Drip (Registers Cow)) := by
  unfold parseRegisters; drips
macro_rules | `(tactic| drips_leaf) => `(tactic| with_reducible exact Drips.registers _)
theorem registersUser : Drips (parseRegistersUser : P β (Registers Cow)) (parseRegistersUser : Drip (Registers Cow)) := by
  exact bind config fun _ => registers _
theorem registersIntr : Drips (parseRegistersIntr : P β (Registers Cow)) (parseRegistersIntr : Drip (Registers Cow)) := by
  exact bind config fun _ => registers _
theorem values : Drips (parseValues : P β (ReadGroup Cow)) (parseValues : Drip (ReadGroup Cow)) := by
  unfold parseValues
  refine bind config fun _ => Drips.ite readGroup (bind readValue fun v => ?_)
  exact pure _
theorem callchain : Drips (parseCallchain : P β (Cow U64)) (parseCallchain : Drip (Cow U64)) := by unfold parseCallchain; drips
theorem rawInner : Drips (parseRawInner : P β (Cow Byte)) (parseRawInner : Drip (Cow Byte)) := by unfold parseRawInner; drips
theorem lbr (b : Bool) : Drips (parseLbr b : P β (Cow BranchEntry × Option U64)) (parseLbr b : Drip (Cow BranchEntry × Option U64)) := by unfold parseLbr; drips
theorem dynSize (s : U64) : Drips (parseDynSize s : P β U64) (parseDynSize s : Drip U64) := by unfold parseDynSize; drips
macro_rules | `(tactic| drips_leaf) => `(tactic| with_reducible exact Drips.dynSize _)
theorem stackUser : Drips (parseStackUser : P β (Cow Byte)) (parseStackUser : Drip (Cow Byte)) := by
  unfold parseStackUser
  refine bind u64 fun _ => bind (bytes _) fun _ => bind (dynSize _) fun _ => Drips.ite (fail _) (pure _)
theorem auxData : Drips (parseAuxData : P β (Cow Byte)) (parseAuxData : Drip (Cow Byte)) := by unfold parseAuxData; drips
theorem sample : Drips (parseSample : P β (Sample Cow)) (parseSample : Drip (Sample Cow)) := by
  unfold parseSample
  refine bind config fun cfg => ?_
  iterate 7 refine bind (parseIf _ (by first | exact u64 | exact u32)) fun _ => ?_
  refine bind (parseIf _ u64) fun _ => bind (parseIf _ cpu) fun _ => bind (parseIf _ u64) fun _ => ?_
  refine bind (parseIf _ values) fun _ => bind (parseIf _ callchain) fun _ => ?_
  refine bind (parseIf _ (padded 8 rawInner)) fun _ => bind (parseIf _ (lbr _)) fun _ => ?_
  refine bind (parseIf _ registersUser) fun _ => bind (parseIf _ stackUser) fun _ => ?_
  iterate 3 refine bind (parseIf _ u64) fun _ => ?_
  refine bind (parseIf _ registersIntr) fun _ => ?_
  iterate 4 refine bind (parseIf _ u64) fun _ => ?_
  exact bind (parseIf _ auxData) fun _ => pure _
theorem header : Drips (parseHeader : P β Header) (parseHeader : Drip Header) :=
  bind u32 fun _ => bind u16 fun _ => bind u16 fun _ => pure _

theorem body (ty : U32) : Drips (parseBody ty : P β (Record Cow)) (parseBody ty : Drip (Record Cow)) := by
  unfold parseBody
  split
  · exact bind mmap fun _ => pure _
  · exact bind lost fun _ => pure _
  · exact bind comm fun _ => pure _
  · exact bind exit fun _ => pure _
  · exact bind throttle fun _ => pure _
  · exact bind throttle fun _ => pure _
  · exact bind exit fun _ => pure _
  · exact bind read fun _ => pure _
  · exact bind sample fun _ => pure _
  · exact bind mmap2 fun _ => pure _
  · exact bind aux fun _ => pure _
  · exact bind itraceStart fun _ => pure _
  · exact bind lostSamples fun _ => pure _
  · exact bind switchCpuWide fun _ => pure _
  · exact bind namespaces fun _ => pure _
  · exact bind ksymbol fun _ => pure _
  · exact bind bpfEvent fun _ => pure _
  · exact bind cgroup fun _ => pure _
  · exact bind textPoke fun _ => pure _
  · exact bind auxOutputHwId fun _ => pure _
  · exact bind rest fun _ => pure _


theorem attr : Drips (P.parseAttr : P β Attr) Drip.attr := by
  refine bind u32 fun t => bind u32 fun s => Drips.ite (fail _) ?_
  intro p f hp hk
  have hlim : s.toNat - 4 < usizeLimit := by have := s.isLt; unfold usizeLimit; omega
  obtain ⟨hs, _⟩ := P.splitAt_takes hp.rep hlim
  rcases Nat.lt_or_ge f.s.bytes.length (s.toNat - 4) with hlt | hle
  · have hle : ¬ s.toNat - 4 ≤ f.s.bytes.length := by omega
    rw [if_neg hle] at hs
    have h2 := Exhausts.splitAt LawfulEof.eof_law (s.toNat - 4) p f hp.rep hk
    unfold Exhausted at h2
    rw [hs] at h2
    rw [P.bind_err (P.run_eq _ hs)]
    simp only [if_neg hle]
    exact ⟨rfl, fun _ => ⟨hp.adv h2, hk⟩⟩
  rw [if_pos hle] at hs
  obtain ⟨rp, hres, hso, hrep, _⟩ := hs
  rw [P.bind_ok (P.run_eq _ hres)]
  simp only [if_pos hle]
  have hr := Refines.attrBody t s rp _ (hso.region hle).rep
  rcases hb : (Perf.attrBody t s : Spec Attr) (f.region (s.toNat - 4)) with e | ⟨a, g⟩
  · rw [hb] at hr
    cases e with
    | stuck => exact absurd hb (NoStuck.attrBody t s _)
    | err e =>
      have hr : _ = _ := hr
      rw [P.bind_err (P.onChild_err (P.run_eq _ hr) _)]
      exact ⟨rfl, fun _ => ⟨hp.adv hrep, hk⟩⟩
  · rw [hb] at hr
    obtain ⟨a', hr1, rfl, _⟩ := hr
    rw [P.bind_ok (P.onChild_ok (P.run_eq _ hr1) _)]
    exact ⟨rfl, fun _ => ⟨hp.adv hrep, hk⟩⟩

theorem framed_fed {q : Parser β} {f : Flat} (h : Header) (ht : f.s.al = .temp)
    (hq : RepP q (if h.size.toNat < 8 then f else f.adv (min (h.size.toNat - 8) f.s.bytes.length))) :
    Fed q (if h.size.toNat < 8 then f else f.adv (min (h.size.toNat - 8) f.s.bytes.length)) := by
  refine ⟨hq, ?_⟩
  split
  · exact ht
  · rw [Flat.adv_al, ht]; rfl

theorem framed_fin {f : Flat} (h : Header) (hk : f.s.fin.kind = .eof) :
    (if h.size.toNat < 8 then f else f.adv (min (h.size.toNat - 8) f.s.bytes.length)).s.fin.kind = .eof := by
  split <;> exact hk

theorem recordWithHeader {O : Type} (v : Visitor Cow O) (h : Header) :
    Drips (P.recordWithHeader v h : P β O) (Drip.framed h (Piped.recordWithHeader v h)) := by
  intro p f hp hk
  have h1 := Pours.recordWithHeader v h p f hp
  have h2 := P.recordWithHeader_drained LawfulEof.eof_law v hp.rep hk h
  unfold Drip.framed
  rcases hs : Piped.recordWithHeader v h f with e | ⟨a, f'⟩ <;> rw [hs] at h1
  · exact ⟨h1, fun _ => ⟨framed_fed h hp.al h2, framed_fin h hk⟩⟩
  · refine ⟨h1.1, fun _ => ⟨h1.2, ?_⟩⟩
    unfold Piped.recordWithHeader at hs
    rcases hm : Spec.metadataWithHeader h f with e | ⟨⟨r, md⟩, g⟩ <;> rw [hm] at hs
    · cases e <;> cases hs
    · obtain ⟨rfl, _, _⟩ := Spec.metadata_state hm
      dsimp only at hs
      split at hs
      · cases hs
      · rename_i x _ _
        rcases hv : v.apply x md with e | o <;> rw [hv] at hs
        · cases hs
        · cases hs; exact hk

theorem record {O : Type} (v : Visitor Cow O) : Drips (P.record v : P β O) (Drip.record v) := bind header fun h => recordWithHeader v h

/-- The metadata comes with a parser of the body. -/
def Opens (m : P β (Parser Cursor × Metadata)) (s : Drip (Flat × Metadata)) : Prop := ∀ p f, Fed p f → f.s.fin.kind = .eof →
  match s f with
  | (.ok (r, md), f') => (∃ c, (m p).res = .ok (c, md) ∧ Fed c r ∧ r.s.fin.kind = .eof) ∧ Fed (m p).st f' ∧ f'.s.fin.kind = .eof
  | (.error e, f') => (m p).res = .error e ∧ (∃ x, e = .err x) ∧ Fed (m p).st f' ∧ f'.s.fin.kind = .eof

theorem metadataWithHeader (h : Header) : Opens (P.metadataWithHeader h : P β _) (Drip.framed h (Drip.frame h)) := by
  intro p f hp hk
  have h1 := Refines.metadataWithHeader h p f hp.rep
  have h2 := P.metadataWithHeader_drained LawfulEof.eof_law hp.rep hk h
  unfold Drip.framed Drip.frame
  rcases hs : Spec.metadataWithHeader h f with e | ⟨⟨r, md⟩, f'⟩ <;> rw [hs] at h1
  · cases e with
    | stuck =>
      rcases Spec.metadata_cases h f with ⟨_, a⟩ | ⟨_, _, a⟩ | ⟨_, _, _, a⟩ | ⟨_, _, _, _, a⟩ | ⟨_, _, _, _, sid, i, _, a⟩ <;>
        rw [a] at hs <;> cases hs
    | err e => exact ⟨h1, ⟨_, rfl⟩, framed_fed h hp.al h2, framed_fin h hk⟩
  · obtain ⟨⟨c, md'⟩, h3, h4, h5⟩ := h1
    obtain ⟨h6, h7⟩ := h4
    have h7 : md' = md := h7
    subst h7
    obtain ⟨_, _, hf', n, hr⟩ := Meets.metadata_region hs
    have hr : r = f.region n := hr
    refine ⟨⟨c, h3, ⟨h6.rep, by rw [hr]; exact hp.al⟩, by rw [hr]; rfl⟩, ?_, ?_⟩
    · have hf' : f' = f.adv (h.size.toNat - 8) := hf'
      rw [hf'] at h5 ⊢
      exact hp.adv h5
    · have hf' : f' = f.adv (h.size.toNat - 8) := hf'
      rw [hf']; exact hk

theorem metadata : Opens (P.metadata : P β _) Drip.metadata := by
  intro p f hp hk
  have h1 := header p f hp hk
  have hm : Drip.metadata f = Drip.bind parseHeader (fun h => Drip.framed h (Drip.frame h)) f := rfl
  rw [hm]
  unfold P.metadata
  rcases hs : (parseHeader : Drip Header) f with ⟨e | h, f'⟩ <;> rw [hs] at h1
  · rw [Drip.bind_err hs]
    have hb := P.bind_err (k := fun h => (P.metadataWithHeader h : P β _)) (P.run_eq _ h1.1)
    have hx : ∃ x, e = .err x := by
      rcases Nat.lt_or_ge f.s.bytes.length 8 with hl | hl
      · have h2 := P.header_short hp.rep hl
        have h1' := h1.1
        rw [h2] at h1'
        cases h1'; exact ⟨_, rfl⟩
      · obtain ⟨q, h2, _⟩ := P.header_run hp.rep hl
        have h1' := h1.1
        rw [h2] at h1'
        cases h1'
    have h2 := h1.2 (fun x hx' => by cases hx'; exact hx)
    have hb' : ((parseHeader : P β Header) >>= fun h => P.metadataWithHeader h) p = _ := hb
    show (_ ∧ _ ∧ Fed _ _ ∧ _)
    rw [hb']
    exact ⟨rfl, hx, h2⟩
  · rw [Drip.bind_ok hs]
    have h2 := h1.2 (fun x hx => by cases hx)
    have hb := P.bind_ok (k := fun h => (P.metadataWithHeader h : P β _)) (P.run_eq _ h1.1)
    have h3 := metadataWithHeader h _ f' h2.1 h2.2
    rw [hb]
    rcases ht : Drip.framed h (Drip.frame h) f' with ⟨e | ⟨r, md⟩, g⟩ <;> rw [ht] at h3
    · exact h3
    · exact h3

theorem attempt {m : P β α} {s : Drip α} (h : Drips m s) : Drips (P.attempt m) (Drip.attempt s) := by
  intro p f hp hk
  have h1 := h p f hp hk
  unfold Drip.attempt P.attempt
  rcases hs : s f with ⟨e | a, f'⟩ <;> rw [hs] at h1
  · rw [h1.1]
    cases e with
    | err e => exact ⟨rfl, fun _ => h1.2 fun x hx => ⟨e, by cases hx; rfl⟩⟩
    | _ => exact ⟨rfl, fun ht => by obtain ⟨x, hx⟩ := ht _ rfl; cases hx⟩
  · rw [h1.1]
    exact ⟨rfl, fun _ => h1.2 fun x hx => by cases hx⟩

theorem attemptOn {δ : Type} [ParseBuf δ] [LawfulEof δ] {m : P δ α} {s : Drip α} (h : Drips m s) {c : Parser δ} {r : Flat}
    (hc : Fed c r) (hr : r.s.fin.kind = .eof) : Drips (P.attemptOn c m : P β (Except ParseError α)) (Drip.attemptOn r s) := by
  intro p f hp hk
  have h1 := h c r hc hr
  unfold Drip.attemptOn P.attemptOn
  rcases hs : s r with ⟨e | a, r'⟩ <;> rw [hs] at h1
  · rw [h1.1]
    cases e with
    | err e => exact ⟨rfl, fun _ => ⟨hp, hk⟩⟩
    | _ => exact ⟨rfl, fun ht => by obtain ⟨x, hx⟩ := ht _ rfl; cases hx⟩
  · rw [h1.1]
    exact ⟨rfl, fun _ => ⟨hp, hk⟩⟩

/-- What is done with the body, and then with the rest. -/
theorem opened {m : P β (Parser Cursor × Metadata)} {s : Drip (Flat × Metadata)} (h : Opens m s) {b : P Cursor T} {b' : Drip T}
    (hb : Drips b b') {k : Metadata → Except ParseError T → P β α} {k' : Metadata → Except ParseError T → Drip α}
    (hk : ∀ md r, Drips (k md r) (k' md r)) :
    Drips (m >>= fun x => P.attemptOn x.1 b >>= fun r => k x.2 r) (s.bind fun x => (Drip.attemptOn x.1 b').bind fun r => k' x.2 r) := by
  intro p f hp hf
  have h1 := h p f hp hf
  rcases hs : s f with ⟨e | ⟨r, md⟩, f'⟩ <;> rw [hs] at h1
  · rw [P.bind_err (P.run_eq _ h1.1), Drip.bind_err hs]
    exact ⟨rfl, fun _ => h1.2.2⟩
  · obtain ⟨⟨c, h2, h3, h4⟩, h5, h6⟩ := h1
    rw [P.bind_ok (P.run_eq _ h2), Drip.bind_ok hs]
    exact bind (attemptOn hb h3 h4) (fun r => hk md r) _ f' h5 h6

theorem call (c : Call T) : Drips (c.run β) c.drip := by
  cases c with
  | array n => exact array n
  | direct n => exact sliceDirect U64.elem n
  | entries n => exact bind (slice _ n namespaceEntry) fun _ => pure _
  | branches n => exact bind (slice _ n branchEntry) fun _ => pure _
  | header => exact header
  | attr => exact attr
  | entry => exact namespaceEntry
  | branch => exact branchEntry
  | mmapDetail => exact mmapDetail
  | sampleId => exact sampleId
  | readValue => exact readValue
  | readGroup => exact bind readGroup fun _ => pure _
  | body ty => exact bind (body ty) fun _ => pure _
  | visit => exact bind (record _) fun _ => pure _
  | visitWith h => exact bind (recordWithHeader _ h) fun _ => pure _

theorem prog (prog : Prog α) : ∀ (β : Type) [ParseBuf β] [LawfulEof β], Drips (prog.run β) prog.drip := by
  have e1 : ∀ {α A : Type} {β : Type} [ParseBuf β] [LawfulEof β] {m : P β A} {s : Drip A} {k : A → Prog α}, Drips m s →
      (∀ x, Drips ((k x).run β) (k x).drip) → Drips (m >>= fun x => (k x).run β) (s.bind fun x => (k x).drip) :=
    fun h hk => bind h hk
  have e2 : ∀ {α A : Type} {β : Type} [ParseBuf β] [LawfulEof β] {m : P β (Cow A)} {s : Drip (Cow A)} {k : List A → Prog α}, Drips m s →
      (∀ x, Drips ((k x).run β) (k x).drip) → Drips (m >>= fun c => (k c.data).run β) (s.bind fun c => (k c.data).drip) :=
    fun h hk => bind h fun c => hk c.data
  induction prog with
  | done a => exact fun β _ _ => pure a
  | fail e => exact fun β _ _ => fail e
  | config k ih => exact fun β _ _ => e1 config fun x => ih x β
  | u8 k ih => exact fun β _ _ => e1 u8 fun x => ih x β
  | u16 k ih => exact fun β _ _ => e1 u16 fun x => ih x β
  | u32 k ih => exact fun β _ _ => e1 u32 fun x => ih x β
  | u64 k ih => exact fun β _ _ => e1 u64 fun x => ih x β
  | bytes n k ih => exact fun β _ _ => e2 (bytes n) fun x => ih x β
  | rest k ih => exact fun β _ _ => e2 rest fun x => ih x β
  | restTrimNul k ih => exact fun β _ _ => e2 restTrimNul fun x => ih x β
  | words n k ih => exact fun β _ _ => e2 (slice U64.elem n u64) fun x => ih x β
  | repeated size item n k ihi ih => exact fun β _ _ => e1 (repeated size (ihi β) n) fun x => ih x β
  | metadata body k ihb ih => exact fun β _ _ => opened metadata (ihb Cursor) fun md r => ih md r β
  | metadataWith hd body k ihb ih => exact fun β _ _ => opened (metadataWithHeader hd) (ihb Cursor) fun md r => ih md r β
  | call c k ih => exact fun β _ _ => e1 (call c) fun x => ih x β
  | record k ih => exact fun β _ _ => bind (record _) fun x => ih x.view β
  | attempt m k ihm ih => exact fun β _ _ => e1 (attempt (ihm β)) fun x => ih x β

end Drips

/-! ## Programs that stop at the first error -/
namespace Pours
variable {β : Type} [ParseBuf β] [Lawful β]

theorem Piped.bind_err {m : Piped α} {k : α → Piped α'} {f : Flat} {e : Fault} (h : m f = .error e) : m.bind k f = .error e := by
  unfold Piped.bind
  rw [h]

theorem Piped.bind_ok {m : Piped α} {k : α → Piped α'} {f f' : Flat} {a : α} (h : m f = .ok (a, f')) : m.bind k f = k a f' := by
  unfold Piped.bind
  rw [h]

theorem sliceDirect (e : Elem T) (n : Nat) : Pours (P.sliceDirect e n : P β (Option (List T))) (Piped.sliceDirect e.size n) := by
  intro p f hp
  have hcfg : P.config p = ⟨.ok f.cfg, p, []⟩ := by rw [← hp.rep.cfg]; rfl
  have hsd : P.sliceDirect e n p = (if !f.cfg.endian.isNative then Pure.pure none
      else if n * e.size ≥ usizeLimit then
        P.fail (.custom .invalidRecord "array length in bytes larger than usize::MAX")
      else P.bytesDirect (n * e.size) >>= fun r => match r with
        | none => Pure.pure none
        | some (addr, bs) => if bs = [] ∨ addr % 8 = 0 then Pure.pure (some (e.decodeAll (fromOrder f.cfg.host 64) n bs))
          else Pure.pure none : P β (Option (List T))) p := by
    unfold P.sliceDirect
    rw [P.bind_nil hcfg]
    rfl
  unfold Piped.sliceDirect
  by_cases hn : f.cfg.endian.isNative = true
  · rw [P.ite_neg (by rw [hn]; decide)] at hsd
    by_cases hl : n * e.size ≥ usizeLimit
    · rw [P.ite_pos hl] at hsd
      rw [if_pos ⟨hn, hl⟩, hsd]
      rfl
    rw [if_neg (fun h => hl h.2)]
    rw [P.ite_neg hl] at hsd
    by_cases he : f.s.bytes = []
    · rw [if_pos ⟨hn, he⟩]
      obtain ⟨q, hq⟩ := P.chunk_none hp.rep he
      have hbd : P.bytesDirect (n * e.size) p = ⟨.error (.err f.s.fin), q, []⟩ := by
        unfold P.bytesDirect
        rw [P.bind_err hq]
      rw [P.bind_err hbd] at hsd
      rw [hsd]
      rfl
    rw [if_neg (fun h => he h.2)]
    obtain ⟨q, hq, hat⟩ := hp.direct he (n * e.size)
    rw [P.bind_nil hq] at hsd
    rw [hsd]
    exact ⟨rfl, hat⟩
  · rw [P.ite_pos (by cases hx : f.cfg.endian.isNative with | true => exact absurd hx hn | false => rfl)] at hsd
    rw [if_neg (fun h => hn h.1), if_neg (fun h => hn h.1), hsd]
    exact ⟨rfl, hp⟩

theorem attr : Pours (P.parseAttr : P β Attr) Piped.attr := by
  refine bind u32 fun t => bind u32 fun s => Pours.ite (fail _) ?_
  intro p f hp
  have hlim : s.toNat - 4 < usizeLimit := by have := s.isLt; unfold usizeLimit; omega
  obtain ⟨hs, _⟩ := P.splitAt_takes hp.rep hlim
  rcases Nat.lt_or_ge f.s.bytes.length (s.toNat - 4) with hlt | hle
  · have hle : ¬ s.toNat - 4 ≤ f.s.bytes.length := by omega
    rw [if_neg hle] at hs
    rw [P.bind_err (P.run_eq _ hs)]
    simp only [if_neg hle]
    rfl
  rw [if_pos hle] at hs
  obtain ⟨rp, hres, hso, hrep, _⟩ := hs
  rw [P.bind_ok (P.run_eq _ hres)]
  simp only [if_pos hle]
  have hr := Refines.attrBody t s rp _ (hso.region hle).rep
  rcases hb : (Perf.attrBody t s : Spec Attr) (f.region (s.toNat - 4)) with e | ⟨a, g⟩
  · rw [hb] at hr
    cases e with
    | stuck => exact absurd hb (NoStuck.attrBody t s _)
    | err e =>
      have hr : _ = _ := hr
      rw [P.bind_err (P.onChild_err (P.run_eq _ hr) _)]
      rfl
  · rw [hb] at hr
    obtain ⟨a', hr1, rfl, _⟩ := hr
    rw [P.bind_ok (P.onChild_ok (P.run_eq _ hr1) _)]
    exact ⟨rfl, hp.adv hrep⟩

theorem attemptOn {δ : Type} [ParseBuf δ] [LawfulEof δ] {m : P δ α} {s : Drip α} (h : Drips m s) {c : Parser δ} {r : Flat}
    (hc : Fed c r) (hr : r.s.fin.kind = .eof) : Pours (P.attemptOn c m : P β (Except ParseError α)) (Piped.attemptOn r s) := by
  intro p f hp
  have h1 := h c r hc hr
  unfold Piped.attemptOn P.attemptOn
  rcases hs : s r with ⟨e | a, r'⟩ <;> rw [hs] at h1
  · rw [h1.1]
    cases e with
    | err e => exact ⟨rfl, hp⟩
    | _ => rfl
  · rw [h1.1]
    exact ⟨rfl, hp⟩

/-- What is done with the body, and then with the rest. -/
theorem opened (h : Header) {b : P Cursor T} {b' : Drip T}
    (hb : Drips b b') {k : Metadata → Except ParseError T → P β α} {k' : Metadata → Except ParseError T → Piped α}
    (hk : ∀ md r, Pours (k md r) (k' md r)) :
    Pours (P.metadataWithHeader h >>= fun x => P.attemptOn x.1 b >>= fun r => k x.2 r)
      ((Drip.frame h).bind fun x => (Piped.attemptOn x.1 b').bind fun r => k' x.2 r) := by
  intro p f hp
  have h1 := Refines.metadataWithHeader h p f hp.rep
  rcases hs : Spec.metadataWithHeader h f with e | ⟨⟨r, md⟩, f'⟩ <;> rw [hs] at h1
  · cases e with
    | stuck =>
      rcases Spec.metadata_cases h f with ⟨_, a⟩ | ⟨_, _, a⟩ | ⟨_, _, _, a⟩ | ⟨_, _, _, _, a⟩ | ⟨_, _, _, _, sid, i, _, a⟩ <;>
        rw [a] at hs <;> cases hs
    | err e =>
      rw [P.bind_err (P.run_eq _ h1), Piped.bind_err (e := .err e) (by unfold Drip.frame; rw [hs])]
      rfl
  · obtain ⟨⟨c, md'⟩, h3, h4, h5⟩ := h1
    obtain ⟨h6, h7⟩ := h4
    have h7 : md' = md := h7
    subst h7
    obtain ⟨_, _, hf', n, hr⟩ := Meets.metadata_region hs
    have hr : r = f.region n := hr
    have hf' : f' = f.adv (h.size.toNat - 8) := hf'
    have hfed : Fed (P.metadataWithHeader h p).st f' := by rw [hf'] at h5 ⊢; exact hp.adv h5
    rw [P.bind_ok (P.run_eq _ h3), Piped.bind_ok (a := (r, md')) (f' := f') (by unfold Drip.frame; rw [hs])]
    have h8 := bind (attemptOn (β := β) hb (c := c) (r := r) ⟨h6.rep, by rw [hr]; exact hp.al⟩ (by rw [hr]; rfl)) (fun x => hk md' x) _ f' hfed
    exact h8

theorem bodyFixed {ty : U32} (h : ty.toNat ∈ [2, 4, 5, 6, 7, 8, 9, 11, 12, 13, 15, 16, 18, 20, 21]) :
    Pours (parseBody ty : P β (Record Cow)) (parseBody ty : Piped (Record Cow)) := by
  unfold parseBody
  generalize ty.toNat = n at h
  simp only [List.mem_cons, List.not_mem_nil, or_false] at h
  rcases h with h | h | h | h | h | h | h | h | h | h | h | h | h | h | h <;> subst h
  · exact bind lost fun _ => pure _
  · exact bind exit fun _ => pure _
  · exact bind throttle fun _ => pure _
  · exact bind throttle fun _ => pure _
  · exact bind exit fun _ => pure _
  · exact bind read fun _ => pure _
  · exact bind sample fun _ => pure _
  · exact bind aux fun _ => pure _
  · exact bind itraceStart fun _ => pure _
  · exact bind lostSamples fun _ => pure _
  · exact bind switchCpuWide fun _ => pure _
  · exact bind namespaces fun _ => pure _
  · exact bind bpfEvent fun _ => pure _
  · exact bind textPoke fun _ => pure _
  · exact bind auxOutputHwId fun _ => pure _

theorem call (c : Call T) (hc : c.NoRest) : Pours (c.run β) c.pipe := by
  cases c with
  | array n => exact array n
  | direct n => exact sliceDirect U64.elem n
  | entries n => exact bind (slice _ n namespaceEntry) fun _ => pure _
  | branches n => exact bind (slice _ n branchEntry) fun _ => pure _
  | header => exact header
  | attr => exact attr
  | entry => exact namespaceEntry
  | branch => exact branchEntry
  | mmapDetail => exact mmapDetail
  | sampleId => exact sampleId
  | readValue => exact readValue
  | readGroup => exact bind readGroup fun _ => pure _
  | body ty => exact bind (bodyFixed hc) fun _ => pure _
  | visit => exact bind (record _) fun _ => pure _
  | visitWith h => exact bind (recordWithHeader _ h) fun _ => pure _

theorem prog (prog : Prog α) : prog.Straight → ∀ (β : Type) [ParseBuf β] [Lawful β], Pours (prog.run β) prog.pipe := by
  have e1 : ∀ {α A : Type} {β : Type} [ParseBuf β] [Lawful β] {m : P β A} {s : Piped A} {k : A → Prog α}, Pours m s →
      (∀ x, Pours ((k x).run β) (k x).pipe) → Pours (m >>= fun x => (k x).run β) (s.bind fun x => (k x).pipe) :=
    fun h hk => bind h hk
  have e2 : ∀ {α A : Type} {β : Type} [ParseBuf β] [Lawful β] {m : P β (Cow A)} {s : Piped (Cow A)} {k : List A → Prog α}, Pours m s →
      (∀ x, Pours ((k x).run β) (k x).pipe) → Pours (m >>= fun c => (k c.data).run β) (s.bind fun c => (k c.data).pipe) :=
    fun h hk => bind h fun c => hk c.data
  induction prog with
  | done a => exact fun _ β _ _ => pure a
  | fail e => exact fun _ β _ _ => fail e
  | config k ih => exact fun h β _ _ => e1 config fun x => ih x (h x) β
  | u8 k ih => exact fun h β _ _ => e1 u8 fun x => ih x (h x) β
  | u16 k ih => exact fun h β _ _ => e1 u16 fun x => ih x (h x) β
  | u32 k ih => exact fun h β _ _ => e1 u32 fun x => ih x (h x) β
  | u64 k ih => exact fun h β _ _ => e1 u64 fun x => ih x (h x) β
  | bytes n k ih => exact fun h β _ _ => e2 (bytes n) fun x => ih x (h x) β
  | rest k ih => exact fun h => h.elim
  | restTrimNul k ih => exact fun h => h.elim
  | words n k ih => exact fun h β _ _ => e2 (slice U64.elem n u64) fun x => ih x (h x) β
  | repeated size item n k ihi ih =>
    intro h β _ _
    refine e1 (fun p f hp => ?_) fun x => ih x (h.2 x) β
    obtain ⟨b, hb, _⟩ := P.safeCapacityBound_run size p
    unfold P.repeated
    rw [P.bind_nil hb, P.bind_ok (P.alloc_run _ p)]
    exact repeatedLoop (ihi h.1 β) n p f hp
  | metadata body k ihb ih =>
    intro h β _ _
    have h1 := bind (header (β := β)) fun hd => opened hd (Drips.prog body Cursor) fun md r => ih md r (h md r) β
    intro p f hp
    have h2 := h1 p f hp
    have e : ((Prog.metadata body k).run β) p = ((parseHeader : P β Header) >>= fun hd => P.metadataWithHeader hd >>= fun x =>
        P.attemptOn x.1 (body.run Cursor) >>= fun r => (k x.2 r).run β) p := P.bind_assoc_run _ _ _ p
    rw [e]
    exact h2
  | metadataWith hd body k ihb ih => exact fun h β _ _ => opened hd (Drips.prog body Cursor) fun md r => ih md r (h md r) β
  | call c k ih => exact fun h β _ _ => e1 (call c h.1) fun x => ih x (h.2 x) β
  | record k ih => 
    intro h β _ _
    exact bind (record _) fun x => ih x.view (h x.view) β
  | attempt m k ihm ih => exact fun h => h.elim

end Pours
end Perf
