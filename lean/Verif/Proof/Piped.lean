import Verif.Spec.Piped
import Verif.Proof.Hand
import Verif.Proof.Dispatch
/-!
# The parser on data that arrives in temporary portions

`Pours m s`: on a lawful buffer that hands out temporary chunks only, the code `m` does exactly what the parser `s` over the mere
bytes says, including faults and whether values are copies.
-/
namespace Perf
variable {β : Type} [ParseBuf β] [Lawful β] {α α' T : Type}

/-- The parser stands for the state `f`, and its buffer hands out temporary chunks only. -/
structure Fed {β : Type} [ParseBuf β] [Lawful β] (p : Parser β) (f : Flat) : Prop where
  rep : RepP p f
  al : f.s.al = .temp

/-- The result of a run is `r`. -/
def Draws {β : Type} [ParseBuf β] [Lawful β] (o : Out β α) : Except Fault (α × Flat) → Prop
  | .error e => o.res = .error e
  | .ok (a, f') => o.res = .ok a ∧ Fed o.st f'

/-- The code does what the parser over the bytes says. -/
def Pours {β : Type} [ParseBuf β] [Lawful β] (m : P β α) (s : Piped α) : Prop := ∀ p f, Fed p f → Draws (m p) (s f)

theorem Fed.adv {β : Type} [ParseBuf β] [Lawful β] {p q : Parser β} {f : Flat} (h : Fed p f) {n : Nat} (hq : RepP q (f.adv n)) : Fed q (f.adv n) :=
  ⟨hq, by rw [Flat.adv_al, h.al]; rfl⟩

/-- Nothing can be borrowed. -/
theorem Fed.direct {β : Type} [ParseBuf β] [Lawful β] {p : Parser β} {f : Flat} (hp : Fed p f) (he : f.s.bytes ≠ []) (n : Nat) :
    ∃ q, P.bytesDirect n p = ⟨.ok none, q, []⟩ ∧ Fed q f := by
  obtain ⟨c, q, hq, -, -, hal, hrep, -⟩ := P.chunk_some hp.rep he
  refine ⟨q, ?_, hrep, hp.al⟩
  unfold P.bytesDirect
  rw [P.bind_nil hq]
  rcases c with ⟨l, d⟩
  cases l with
  | temporary => rfl
  | external a =>
    rw [hp.al] at hal
    exact hal.elim

/-- The rest, collected behind what is a copy already, is a copy. -/
theorem P.restLoop_owned {β : Type} [ParseBuf β] : ∀ (fuel : Nat) (acc : Cow Byte) (p : Parser β) (c : Cow Byte),
    (∃ d, acc = .owned d) → (P.restLoop fuel acc p).res = .ok c → ∃ d, c = .owned d := by
  intro fuel
  induction fuel with
  | zero => intro acc p c _ h; cases h
  | succ fuel ih =>
    intro acc p c ha h
    unfold P.restLoop at h
    rcases hc : (P.chunkResult p : Out β _) with ⟨r, q, l⟩
    cases r with
    | error e => rw [P.bind_err hc] at h; cases h
    | ok r =>
      rw [P.bind_ok hc] at h
      cases r with
      | ok x =>
        dsimp only at h
        rcases hx : (P.advance x.data.length q : Out β _) with ⟨r, q', l'⟩
        cases r with
        | error e => rw [P.bind_err hx] at h; cases h
        | ok u =>
          rw [P.bind_ok hx] at h
          exact ih _ _ _ ⟨_, rfl⟩ h
      | error e =>
        dsimp only at h
        split at h
        · cases h; exact ha
        · cases h

namespace Pours

theorem pure {β : Type} [ParseBuf β] [Lawful β] (a : α) : Pours (Pure.pure a : P β α) (Pure.pure a : Piped α) := fun _ _ hp => ⟨rfl, hp⟩
theorem fault (e : Fault) : Pours (P.fault e : P β α) (Piped.fault e : Piped α) := fun _ _ _ => rfl
theorem fail (e : ParseError) : Pours (ParserM.fail e : P β α) (ParserM.fail e : Piped α) := fun _ _ _ => rfl
theorem config {β : Type} [ParseBuf β] [Lawful β] : Pours (ParserM.config : P β ParseConfig) (ParserM.config : Piped ParseConfig) := fun p _ hp => by
  refine ⟨?_, hp⟩
  show Except.ok p.config = _
  rw [hp.rep.cfg]

theorem bind {β : Type} [ParseBuf β] [Lawful β] {m : P β α} {s : Piped α} {k : α → P β α'} {k' : α → Piped α'} (h : Pours m s)
    (hk : ∀ a, Pours (k a) (k' a)) : Pours (m >>= k) (s >>= k') := by
  intro p f hp
  have h1 := h p f hp
  have hb : (s >>= k') f = match s f with
    | .error e => .error e
    | .ok (a, f') => k' a f' := rfl
  rw [hb]
  rcases hs : s f with e | ⟨a, f'⟩ <;> rw [hs] at h1
  · rw [P.bind_err (P.run_eq _ h1)]; rfl
  · rw [P.bind_ok (P.run_eq _ h1.1)]
    exact hk a _ _ h1.2

theorem ite {c : Prop} [Decidable c] {m n : P β α} {s t : Piped α} (h1 : Pours m s) (h2 : Pours n t) :
    Pours (if c then m else n) (if c then s else t) := by
  split
  · exact h1
  · exact h2

theorem array {β : Type} [ParseBuf β] [Lawful β] (n : Nat) :
    Pours (ParserM.array n : P β (List Byte)) (ParserM.array n : Piped (List Byte)) := by
  intro p f hp
  have h1 := (P.array_takes hp.rep n).1
  show Draws (P.array n p) (Piped.array n f)
  unfold Piped.array Piped.take
  unfold TakesNe at h1
  by_cases he : f.s.bytes = []
  · rw [if_pos he] at h1
    simp only [if_pos he]
    exact h1
  · rw [if_neg he] at h1
    simp only [if_neg he]
    obtain ⟨a, rfl, h1⟩ := h1
    unfold Takes at h1
    by_cases hl : n ≤ f.s.bytes.length
    · rw [if_pos hl] at h1
      simp only [if_pos hl]
      exact ⟨h1.1, hp.adv h1.2.1⟩
    · rw [if_neg hl] at h1
      simp only [if_neg hl]
      exact h1

theorem ignored (n : Nat) {p : Parser β} {f : Flat} (hp : Fed p f) : match Piped.take n f with
    | .error e => (P.bytesIgnored n p).res = .error e
    | .ok (_, f') => (P.bytesIgnored n p).res = .ok () ∧ Fed (P.bytesIgnored n p).st f' := by
  have h1 := (P.bytesIgnored_takes hp.rep n).1
  unfold Piped.take
  unfold Takes at h1
  by_cases hl : n ≤ f.s.bytes.length
  · rw [if_pos hl] at h1
    simp only [if_pos hl]
    exact ⟨h1.1, hp.adv h1.2.1⟩
  · rw [if_neg hl] at h1
    simp only [if_neg hl]
    exact h1

theorem bytes_owned {n : Nat} {p : Parser β} {f : Flat} (hp : Fed p f) {c : Cow Byte} (h : (P.bytes n p).res = .ok c) :
    ∃ d, c = .owned d := by
  unfold P.bytes at h
  by_cases he : f.s.bytes = []
  · obtain ⟨q, hq⟩ := P.chunk_none hp.rep he
    have : P.bytesDirect n p = ⟨.error (.err f.s.fin), q, []⟩ := by
      unfold P.bytesDirect
      rw [P.bind_err hq]
    rw [P.bind_err this] at h
    cases h
  · obtain ⟨q, hq, -⟩ := hp.direct he n
    rw [P.bind_nil hq] at h
    dsimp only at h
    rw [P.bind_nil (P.hint_run q)] at h
    split at h
    · rcases hm : (P.alloc n >>= fun _ => P.toSlice n : P β _) q with ⟨r, q', l⟩
      rw [P.bind_ok (P.alloc_run n q)] at h
      rcases hx : (P.toSlice n q : Out β _) with ⟨r, q', l⟩
      cases r with
      | error e => rw [P.bind_err hx] at h; cases h
      | ok d => rw [P.bind_ok hx] at h; cases h; exact ⟨_, rfl⟩
    · rcases hx : (P.bytesSlow n q : Out β _) with ⟨r, q', l⟩
      cases r with
      | error e => rw [P.bind_err hx] at h; cases h
      | ok d => rw [P.bind_ok hx] at h; cases h; exact ⟨_, rfl⟩

theorem bytes (n : Nat) : Pours (ParserM.bytes n : P β (Cow Byte)) (ParserM.bytes n : Piped (Cow Byte)) := by
  intro p f hp
  show Draws (P.bytes n p) (Piped.bytes n f)
  have hb : Piped.bytes n f = (Piped.array n f).map fun r => (Cow.owned r.1, r.2) := by
    show Piped.bind (Piped.array n) (fun bs => Piped.pure (Cow.owned bs)) f = _
    unfold Piped.bind
    rcases Piped.array n f with e | ⟨a, f'⟩ <;> rfl
  rw [hb]
  unfold Piped.array Piped.take
  have h1 := (P.bytes_takes hp.rep n).1
  unfold TakesNe at h1
  by_cases he : f.s.bytes = []
  · rw [if_pos he] at h1
    simp only [if_pos he]
    exact h1
  · rw [if_neg he] at h1
    simp only [if_neg he]
    obtain ⟨a, ha, h1⟩ := h1
    unfold Takes at h1
    by_cases hl : n ≤ f.s.bytes.length
    · rw [if_pos hl] at h1
      simp only [if_pos hl]
      obtain ⟨d, rfl⟩ := bytes_owned hp h1.1
      have ha : d = f.s.bytes.take n := ha
      exact ⟨ha ▸ h1.1, hp.adv h1.2.1⟩
    · rw [if_neg hl] at h1
      simp only [if_neg hl]
      exact h1

theorem rest {β : Type} [ParseBuf β] [LawfulEof β] : Pours (ParserM.rest : P β (Cow Byte)) (ParserM.rest : Piped (Cow Byte)) := by
  intro p f hp
  show Draws (P.rest p) (Piped.rest f)
  unfold Piped.rest
  have h1 := (P.rest_takes hp.rep).1
  by_cases he : f.s.bytes = []
  · rw [if_pos he] at h1
    simp only [if_pos he]
    exact h1
  · rw [if_neg he] at h1
    simp only [if_neg he]
    unfold TakesRest at h1
    by_cases hk : f.s.fin.kind = .eof
    · rw [if_pos hk] at h1
      simp only [if_pos hk]
      obtain ⟨c, h2, h3, h4⟩ := h1
      have ho : ∃ d, c = .owned d := by
        obtain ⟨x, q, hq, -, -, hal, hrep, -, -, hadv⟩ := P.chunk_some hp.rep he
        rcases x with ⟨l, d⟩
        cases l with
        | external a => rw [hp.al] at hal; exact hal.elim
        | temporary =>
          unfold P.rest at h2
          obtain ⟨q', hq', -⟩ := hadv d.length (Nat.le_refl _)
          rw [P.bind_nil hq, P.bind_ok (show P.toCow ⟨.temporary, d⟩ q = ⟨.ok (.owned d), q, [d.length]⟩ from rfl)] at h2
          dsimp only at h2
          rw [P.bind_nil (show P.advance (Cow.owned d).data.length q = ⟨.ok (), q', []⟩ from hq'), P.bind_nil (P.fuel_run q')] at h2
          exact P.restLoop_owned _ _ _ _ ⟨d, rfl⟩ h2
      obtain ⟨d, rfl⟩ := ho
      have h3 : d = f.s.bytes := h3
      exact ⟨h3 ▸ h2, hp.adv (h4 LawfulEof.eof_law).1⟩
    · rw [if_neg hk] at h1
      simp only [if_neg hk]
      exact h1

theorem restTrimNul {β : Type} [ParseBuf β] [LawfulEof β] : Pours (ParserM.restTrimNul : P β (Cow Byte)) (ParserM.restTrimNul : Piped (Cow Byte)) :=
  bind rest fun _ => pure _

theorem padded (n : Nat) {m : P β α} {s : Piped α} (hm : Pours m s) :
    Pours (ParserM.padded n m : P β α) (ParserM.padded n s : Piped α) := by
  intro p f hp
  show Draws (P.padded n m p) (Piped.padded n s f)
  unfold Piped.padded P.padded
  by_cases h0 : n = 0
  · simp only [if_pos h0]
    rfl
  simp only [if_neg h0]
  rw [P.bind_nil (P.offset_run p)]
  have h1 := hm p f hp
  rcases hs : s f with e | ⟨a, f'⟩ <;> rw [hs] at h1
  · rw [P.bind_err (P.run_eq _ h1)]; rfl
  · rw [P.bind_ok (P.run_eq _ h1.1), P.bind_nil (P.offset_run _), hp.rep.off, h1.2.rep.off]
    dsimp only
    by_cases hz : (f'.off - f.off) % n = 0
    · simp only [if_pos hz]
      exact ⟨rfl, h1.2⟩
    · simp only [if_neg hz]
      have h2 := ignored (n - (f'.off - f.off) % n) h1.2
      rcases ht : Piped.take (n - (f'.off - f.off) % n) f' with e | ⟨x, f''⟩ <;> rw [ht] at h2
      · rw [P.bind_err (P.run_eq _ h2)]; rfl
      · rw [P.bind_ok (P.run_eq _ h2.1)]
        exact ⟨rfl, h2.2⟩

theorem repeatedLoop {m : P β T} {s : Piped T} (hm : Pours m s) : ∀ n, Pours (P.repeatedLoop m n) (Piped.repeated s n)
  | 0 => pure _
  | n + 1 => bind hm fun _ => bind (repeatedLoop hm n) fun _ => pure _

theorem copied (size : Nat) {m : P β T} {s : Piped T} (hm : Pours m s) (n : Nat) :
    Pours (P.repeated size m n >>= fun v => Pure.pure (Cow.owned v)) (Piped.copied s n) := by
  refine bind ?_ fun _ => pure _
  intro p f hp
  have hb : ∃ b, (P.safeCapacityBound size : P β Nat) p = ⟨.ok b, p, []⟩ := by
    unfold P.safeCapacityBound
    split
    · exact ⟨_, rfl⟩
    · exact ⟨_, rfl⟩
  obtain ⟨b, hb⟩ := hb
  unfold P.repeated
  rw [P.bind_nil hb, P.bind_ok (P.alloc_run _ p)]
  exact repeatedLoop hm n p f hp

theorem slice (e : Elem T) (n : Nat) {m : P β T} {s : Piped T} (hm : Pours m s) :
    Pours (ParserM.slice e m n : P β (Cow T)) (ParserM.slice e s n : Piped (Cow T)) := by
  intro p f hp
  have hc := copied e.size hm n
  show Draws (P.slice e m n p) (Piped.slice e s n f)
  have hdir : ∀ q, P.sliceDirect e n p = ⟨.ok none, q, []⟩ → Fed q f → Draws (P.slice e m n p) (Piped.copied s n f) := by
    intro q hq hat
    unfold P.slice
    rw [P.bind_nil hq]
    exact hc q f hat
  have hcfg : P.config p = ⟨.ok f.cfg, p, []⟩ := by rw [← hp.rep.cfg]; rfl
  have hsd : P.sliceDirect e n p = (if !f.cfg.endian.isNative then Pure.pure none
      else if n * e.size ≥ usizeLimit then
        P.fail (.custom .invalidRecord "array length in bytes larger than usize::MAX")
      else P.bytesDirect (n * e.size) >>= fun r => match r with
        | none => Pure.pure none
        | some (addr, bs) => if bs = [] ∨ addr % 8 = 0 then Pure.pure (some (e.decodeAll (fromOrder f.cfg.host 64) n bs))
          else Pure.pure none : P β (Option (List T))) p := by
    unfold P.sliceDirect
    rw [P.bind_nil hcfg]
    rfl
  unfold Piped.slice
  by_cases hn : f.cfg.endian.isNative = true
  · rw [P.ite_neg (by rw [hn]; decide)] at hsd
    by_cases hl : n * e.size ≥ usizeLimit
    · rw [if_pos ⟨hn, hl⟩]
      rw [P.ite_pos hl] at hsd
      unfold P.slice
      rw [P.bind_err (e := .err (.custom .invalidRecord "array length in bytes larger than usize::MAX")) (q := p) (l := []) (by rw [hsd]; rfl)]
      rfl
    rw [if_neg (fun h => hl h.2)]
    rw [P.ite_neg hl] at hsd
    by_cases he : f.s.bytes = []
    · rw [if_pos ⟨hn, he⟩]
      have hbd : ∃ q, P.bytesDirect (n * e.size) p = ⟨.error (.err f.s.fin), q, []⟩ := by
        obtain ⟨q, hq⟩ := P.chunk_none hp.rep he
        unfold P.bytesDirect
        rw [P.bind_err hq]
        exact ⟨q, rfl⟩
      obtain ⟨q, hq⟩ := hbd
      rw [P.bind_err hq] at hsd
      unfold P.slice
      rw [P.bind_err hsd]
      rfl
    rw [if_neg (fun h => he h.2)]
    obtain ⟨q, hq, hat⟩ := hp.direct he (n * e.size)
    rw [P.bind_nil hq] at hsd
    exact hdir _ hsd hat
  · rw [P.ite_pos (by cases hx : f.cfg.endian.isNative with | true => exact absurd hx hn | false => rfl)] at hsd
    rw [if_neg (fun h => hn h.1), if_neg (fun h => hn h.1)]
    exact hdir _ hsd hp

theorem cowSplitAt (c : Cow T) (n : Nat) :
    Pours (ParserM.cowSplitAt c n : P β (Cow T × Cow T)) (ParserM.cowSplitAt c n : Piped (Cow T × Cow T)) := by
  show Pours (match c.splitAt n with | some r => Pure.pure r | none => P.fault .panic) (match c.splitAt n with | some r => Pure.pure r | none => Piped.fault .panic)
  cases c.splitAt n with
  | none => exact fault _
  | some r => exact pure _

theorem u8 : Pours (parseU8 : P β U8) (parseU8 : Piped U8) := bind (array 1) fun _ => pure _
theorem u16 {β : Type} [ParseBuf β] [Lawful β] : Pours (parseU16 : P β U16) (parseU16 : Piped U16) := bind (array 2) fun _ => bind config fun _ => pure _
theorem u32 {β : Type} [ParseBuf β] [Lawful β] : Pours (parseU32 : P β U32) (parseU32 : Piped U32) := bind (array 4) fun _ => bind config fun _ => pure _
theorem u64 {β : Type} [ParseBuf β] [Lawful β] : Pours (parseU64 : P β U64) (parseU64 : Piped U64) := bind (array 8) fun _ => bind config fun _ => pure _
theorem parseIf {m : P β α} {s : Piped α} (c : Bool) (hm : Pours m s) : Pours (Perf.parseIf c m) (Perf.parseIf c s) := by
  cases c with
  | true => exact bind hm fun _ => pure _
  | false => exact pure _

/-- One step of a parser. -/
syntax "pours_leaf" : tactic
macro_rules | `(tactic| pours_leaf) => `(tactic| first
  | with_reducible exact Pours.u64 | with_reducible exact Pours.u32 | with_reducible exact Pours.u16 | with_reducible exact Pours.u8
  | with_reducible exact Pours.config
  | (with_reducible refine Pours.parseIf _ ?_; pours_leaf; done)
  | (with_reducible refine Pours.padded _ ?_; pours_leaf; done)
  | (with_reducible refine Pours.slice _ _ ?_; pours_leaf; done)
  | with_reducible exact Pours.array _ | with_reducible exact Pours.bytes _ | with_reducible exact Pours.rest | with_reducible exact Pours.restTrimNul
  | with_reducible exact Pours.cowSplitAt _ _)

/-- Walk through a `do` block on both sides. -/
macro "pours" : tactic => `(tactic| repeat' (first
  | with_reducible exact Pours.fail _
  | with_reducible exact Pours.pure _
  | pours_leaf
  | with_reducible refine Pours.bind (by pours_leaf) (fun _ => ?_)
  | with_reducible refine Pours.ite ?_ ?_))

theorem mmap {β : Type} [ParseBuf β] [LawfulEof β] : Pours (parseMmap : P β (Mmap Cow)) (parseMmap : Piped (Mmap Cow)) := by unfold parseMmap; pours
theorem lost : Pours (parseLost : P β Lost) (parseLost : Piped Lost) := by unfold parseLost; pours
theorem comm {β : Type} [ParseBuf β] [LawfulEof β] : Pours (parseComm : P β (Comm Cow)) (parseComm : Piped (Comm Cow)) := by unfold parseComm; pours
theorem exit : Pours (parseExit : P β Exit) (parseExit : Piped Exit) := by unfold parseExit; pours
theorem throttle : Pours (parseThrottle : P β Throttle) (parseThrottle : Piped Throttle) := by unfold parseThrottle; pours
theorem mmapDetail : Pours (parseMmapDetail : P β MmapDetail) (parseMmapDetail : Piped MmapDetail) := by unfold parseMmapDetail; pours
macro_rules | `(tactic| pours_leaf) => `(tactic| with_reducible exact Pours.mmapDetail)
theorem mmap2 {β : Type} [ParseBuf β] [LawfulEof β] : Pours (parseMmap2 : P β (Mmap2 Cow)) (parseMmap2 : Piped (Mmap2 Cow)) := by unfold parseMmap2; pours
theorem aux : Pours (parseAux : P β Aux) (parseAux : Piped Aux) := by unfold parseAux; pours
theorem itraceStart : Pours (parseITraceStart : P β ITraceStart) (parseITraceStart : Piped ITraceStart) := by unfold parseITraceStart; pours
theorem lostSamples : Pours (parseLostSamples : P β LostSamples) (parseLostSamples : Piped LostSamples) := by unfold parseLostSamples; pours
theorem switchCpuWide : Pours (parseSwitchCpuWide : P β SwitchCpuWide) (parseSwitchCpuWide : Piped SwitchCpuWide) := by
  unfold parseSwitchCpuWide; pours
theorem namespaceEntry : Pours (parseNamespaceEntry : P β NamespaceEntry) (parseNamespaceEntry : Piped NamespaceEntry) := by
  unfold parseNamespaceEntry; pours
macro_rules | `(tactic| pours_leaf) => `(tactic| with_reducible exact Pours.namespaceEntry)
theorem namespaces : Pours (parseNamespaces : P β (Namespaces Cow)) (parseNamespaces : Piped (Namespaces Cow)) := by unfold parseNamespaces; pours
theorem ksymbol {β : Type} [ParseBuf β] [LawfulEof β] : Pours (parseKSymbol : P β (KSymbol Cow)) (parseKSymbol : Piped (KSymbol Cow)) := by unfold parseKSymbol; pours
theorem bpfEvent : Pours (parseBpfEvent : P β BpfEvent) (parseBpfEvent : Piped BpfEvent) := by unfold parseBpfEvent; pours
theorem cgroup {β : Type} [ParseBuf β] [LawfulEof β] : Pours (parseCGroup : P β (CGroup Cow)) (parseCGroup : Piped (CGroup Cow)) := by unfold parseCGroup; pours
theorem textPoke : Pours (parseTextPoke : P β (TextPoke Cow)) (parseTextPoke : Piped (TextPoke Cow)) := by
  unfold parseTextPoke; pours
  exact pure _
theorem auxOutputHwId : Pours (parseAuxOutputHwId : P β AuxOutputHwId) (parseAuxOutputHwId : Piped AuxOutputHwId) := by
  unfold parseAuxOutputHwId; pours
theorem cpu : Pours (parseCpu : P β U32) (parseCpu : Piped U32) := by unfold parseCpu; pours
macro_rules | `(tactic| pours_leaf) => `(tactic| with_reducible exact Pours.cpu)
theorem sampleId : Pours (parseSampleId : P β SampleId) (parseSampleId : Piped SampleId) := by unfold parseSampleId; pours
theorem readValue : Pours (parseReadValue : P β ReadValue) (parseReadValue : Piped ReadValue) := by unfold parseReadValue; pours
macro_rules | `(tactic| pours_leaf) => `(tactic| with_reducible exact Pours.readValue)
theorem readGroup : Pours (parseReadGroup : P β (ReadGroup Cow)) (parseReadGroup : Piped (ReadGroup Cow)) := by unfold parseReadGroup; pours
theorem read : Pours (parseRead : P β Read) (parseRead : Piped Read) := by unfold parseRead; pours
macro_rules | `(tactic| pours_leaf) => `(tactic| with_reducible exact Pours.readGroup)
theorem branchEntry : Pours (parseBranchEntry : P β BranchEntry) (parseBranchEntry : Piped BranchEntry) := by unfold parseBranchEntry; pours
macro_rules | `(tactic| pours_leaf) => `(tactic| with_reducible exact Pours.branchEntry)
theorem registers (mask : U64) : Pours (parseRegisters mask : P β (Registers Cow)) (parseRegisters mask : Piped (Registers Cow)) := by
  unfold parseRegisters; pours
macro_rules | `(tactic| pours_leaf) => `(tactic| with_reducible exact Pours.registers _)
theorem registersUser : Pours (parseRegistersUser : P β (Registers Cow)) (parseRegistersUser : Piped (Registers Cow)) := by
  exact bind config fun _ => registers _
theorem registersIntr : Pours (parseRegistersIntr : P β (Registers Cow)) (parseRegistersIntr : Piped (Registers Cow)) := by
  exact bind config fun _ => registers _
theorem values : Pours (parseValues : P β (ReadGroup Cow)) (parseValues : Piped (ReadGroup Cow)) := by
  unfold parseValues
  refine bind config fun _ => Pours.ite readGroup (bind readValue fun v => ?_)
  exact pure _
theorem callchain : Pours (parseCallchain : P β (Cow U64)) (parseCallchain : Piped (Cow U64)) := by unfold parseCallchain; pours
theorem rawInner : Pours (parseRawInner : P β (Cow Byte)) (parseRawInner : Piped (Cow Byte)) := by unfold parseRawInner; pours
theorem lbr (b : Bool) : Pours (parseLbr b : P β (Cow BranchEntry × Option U64)) (parseLbr b : Piped (Cow BranchEntry × Option U64)) := by unfold parseLbr; pours
theorem dynSize (s : U64) : Pours (parseDynSize s : P β U64) (parseDynSize s : Piped U64) := by unfold parseDynSize; pours
macro_rules | `(tactic| pours_leaf) => `(tactic| with_reducible exact Pours.dynSize _)
theorem stackUser : Pours (parseStackUser : P β (Cow Byte)) (parseStackUser : Piped (Cow Byte)) := by
  unfold parseStackUser
  refine bind u64 fun _ => bind (bytes _) fun _ => bind (dynSize _) fun _ => Pours.ite (fail _) (pure _)
theorem auxData : Pours (parseAuxData : P β (Cow Byte)) (parseAuxData : Piped (Cow Byte)) := by unfold parseAuxData; pours
theorem sample : Pours (parseSample : P β (Sample Cow)) (parseSample : Piped (Sample Cow)) := by
  unfold parseSample
  refine bind config fun cfg => ?_
  iterate 7 refine bind (parseIf _ (by first | exact u64 | exact u32)) fun _ => ?_
  refine bind (parseIf _ u64) fun _ => bind (parseIf _ cpu) fun _ => bind (parseIf _ u64) fun _ => ?_
  refine bind (parseIf _ values) fun _ => bind (parseIf _ callchain) fun _ => ?_
  refine bind (parseIf _ (padded 8 rawInner)) fun _ => bind (parseIf _ (lbr _)) fun _ => ?_
  refine bind (parseIf _ registersUser) fun _ => bind (parseIf _ stackUser) fun _ => ?_
  iterate 3 refine bind (parseIf _ u64) fun _ => ?_
  refine bind (parseIf _ registersIntr) fun _ => ?_
  iterate 4 refine bind (parseIf _ u64) fun _ => ?_
  exact bind (parseIf _ auxData) fun _ => pure _
theorem header {β : Type} [ParseBuf β] [Lawful β] : Pours (parseHeader : P β Header) (parseHeader : Piped Header) :=
  bind u32 fun _ => bind u16 fun _ => bind u16 fun _ => pure _

theorem body {β : Type} [ParseBuf β] [LawfulEof β] (ty : U32) : Pours (parseBody ty : P β (Record Cow)) (parseBody ty : Piped (Record Cow)) := by
  unfold parseBody
  split
  · exact bind mmap fun _ => pure _
  · exact bind lost fun _ => pure _
  · exact bind comm fun _ => pure _
  · exact bind exit fun _ => pure _
  · exact bind throttle fun _ => pure _
  · exact bind throttle fun _ => pure _
  · exact bind exit fun _ => pure _
  · exact bind read fun _ => pure _
  · exact bind sample fun _ => pure _
  · exact bind mmap2 fun _ => pure _
  · exact bind aux fun _ => pure _
  · exact bind itraceStart fun _ => pure _
  · exact bind lostSamples fun _ => pure _
  · exact bind switchCpuWide fun _ => pure _
  · exact bind namespaces fun _ => pure _
  · exact bind ksymbol fun _ => pure _
  · exact bind bpfEvent fun _ => pure _
  · exact bind cgroup fun _ => pure _
  · exact bind textPoke fun _ => pure _
  · exact bind auxOutputHwId fun _ => pure _
  · exact bind rest fun _ => pure _

end Pours
end Perf
