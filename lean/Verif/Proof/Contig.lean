import Verif.Spec.Contig
import Verif.Proof.Hand
import Verif.Proof.Dispatch
/-!
# The parser on one contiguous piece of borrowed memory

`Meets F m s`: on a buffer that hands out everything as one borrowed chunk (`OneBuf F`), the code `m` does exactly what the
contiguous parser `s` says, including faults and whether values are borrowed.
-/
namespace Perf
variable {β : Type} [ParseBuf β] [LawfulEof β] {F : List Byte → β → Prop} {α α' T : Type}

/-- The buffer hands out everything as one chunk. -/
def OneP (F : List Byte → β → Prop) (p : Parser β) : Prop := ∃ d, F d p.data.buf

/-- The parser stands for the state `f` and has one borrowed chunk at a known address. -/
structure At (F : List Byte → β → Prop) (p : Parser β) (f : Flat) : Prop where
  rep : RepP p f
  one : OneP F p
  al : ∃ k, f.s.al = .at k
  fin : f.s.fin = .eof

/-- The result of a run is `r`. -/
def Gives (F : List Byte → β → Prop) (o : Out β α) : Except Fault (α × Flat) → Prop
  | .error e => o.res = .error e
  | .ok (a, f') => o.res = .ok a ∧ At F o.st f'

/-- The code does what the contiguous parser says. -/
def Meets (F : List Byte → β → Prop) (m : P β α) (s : Contig α) : Prop := ∀ p f, At F p f → Gives F (m p) (s f)

omit [LawfulEof β] in
theorem OneBuf.stableP (h : OneBuf F) : Stable (OneP F) where
  chunk p := fun ⟨d, hp⟩ => ⟨d, h.chunk d _ hp⟩
  advance p n := fun ⟨d, hp⟩ => by
    unfold P.advance
    split
    · rename_i b hb
      exact ⟨_, h.tracking.advance d p.data n b hp hb⟩
    · exact ⟨d, hp⟩

theorem At.adv {p q : Parser β} {f : Flat} (h : At F p f) {n : Nat} (hq : RepP q (f.adv n)) (ho : OneP F q) : At F q (f.adv n) := by
  obtain ⟨k, hk⟩ := h.al
  exact ⟨hq, ho, ⟨k + n, by rw [Flat.adv_al, hk]; rfl⟩, h.fin⟩

/-- The chunk is everything. -/
theorem At.chunk (h : OneBuf F) {p : Parser β} {f : Flat} (hp : At F p f) (hne : f.s.bytes ≠ []) :
    ∃ a q, P.chunk p = ⟨.ok ⟨.external a, f.s.bytes⟩, q, []⟩ ∧ f.s.al.aligned = (a % 8 == 0) ∧ At F q f ∧
      ∀ k, k ≤ f.s.bytes.length → ∃ q', P.advance k q = ⟨.ok (), q', []⟩ ∧ At F q' (f.adv k) := by
  obtain ⟨c, q, hq, hcne, hpre, hal, hrep, hst, hm, hadv⟩ := P.chunk_some hp.rep hne
  obtain ⟨d, hd⟩ := hp.one
  obtain ⟨hdn, hcd, ⟨a, ha⟩, hd'⟩ := h.pchunk hd (c := c) (by rw [hq])
  have hqs : (P.chunk p).st = q := by rw [hq]
  rw [hqs] at hd'
  have hall : c.data = f.s.bytes := by
    obtain ⟨q', hq', hrep', -, -⟩ := hadv c.data.length (Nat.le_refl _)
    have h2 := h.padvance hd' (n := c.data.length) (u := ()) (by rw [hq'])
    rw [hq', hcd, List.drop_length] at h2
    have h3 : (P.chunk q').res = .error (.err .eof) := h.eof _ h2
    by_cases he : (f.adv c.data.length).s.bytes = []
    · rw [Flat.adv_bytes] at he
      have := List.drop_eq_nil_iff.mp he
      exact hpre.eq_of_length_le this
    · obtain ⟨c2, q2, hq2, -⟩ := P.chunk_some hrep' he
      rw [hq2] at h3
      cases h3
  obtain ⟨k, hk⟩ := hp.al
  rcases c with ⟨l, x⟩
  dsimp only at hall ha
  subst hall ha
  refine ⟨a, q, hq, ?_, ⟨hrep, ⟨d, hd'⟩, hp.al, hp.fin⟩, fun n hn => ?_⟩
  · rw [hk] at hal ⊢
    have : a % 8 = k % 8 := hal
    show (k % 8 == 0) = _
    rw [this]
  · obtain ⟨q', hq', hrep', -⟩ := hadv n hn
    refine ⟨q', hq', hp.adv hrep' ?_⟩
    have := h.stableP.advance q n ⟨d, hd'⟩
    rw [hq'] at this
    exact this

namespace Meets

theorem pure (a : α) : Meets F (Pure.pure a : P β α) (Pure.pure a : Contig α) := fun _ _ hp => ⟨rfl, hp⟩
theorem fault (e : Fault) : Meets F (P.fault e : P β α) (Contig.fault e : Contig α) := fun _ _ _ => rfl
theorem fail (e : ParseError) : Meets F (ParserM.fail e : P β α) (ParserM.fail e : Contig α) := fun _ _ _ => rfl
theorem config : Meets F (ParserM.config : P β ParseConfig) (ParserM.config : Contig ParseConfig) := fun p _ hp => by
  refine ⟨?_, hp⟩
  show Except.ok p.config = _
  rw [hp.rep.cfg]

theorem bind {m : P β α} {s : Contig α} {k : α → P β α'} {k' : α → Contig α'} (h : Meets F m s)
    (hk : ∀ a, Meets F (k a) (k' a)) : Meets F (m >>= k) (s >>= k') := by
  intro p f hp
  have h1 := h p f hp
  have hb : (s >>= k') f = match s f with
    | .error e => .error e
    | .ok (a, f') => k' a f' := rfl
  rw [hb]
  rcases hs : s f with e | ⟨a, f'⟩ <;> rw [hs] at h1
  · rw [P.bind_err (P.run_eq _ h1)]; rfl
  · rw [P.bind_ok (P.run_eq _ h1.1)]
    exact hk a _ _ h1.2

theorem ite {c : Prop} [Decidable c] {m n : P β α} {s t : Contig α} (h1 : Meets F m s) (h2 : Meets F n t) :
    Meets F (if c then m else n) (if c then s else t) := by
  split
  · exact h1
  · exact h2

variable (h : OneBuf F)
include h

theorem array (n : Nat) : Meets F (ParserM.array n : P β (List Byte)) (ParserM.array n : Contig (List Byte)) := by
  intro p f hp
  have h1 := (P.array_takes hp.rep n).1
  have h2 := (Inv.array h.stableP n p hp.one).1
  show Gives F (P.array n p) (Contig.array n f)
  unfold Contig.array Contig.take
  unfold TakesNe at h1
  by_cases he : f.s.bytes = []
  · rw [if_pos he] at h1
    simp only [if_pos he]
    show _ = _; rw [h1, hp.fin]
  · rw [if_neg he] at h1
    simp only [if_neg he]
    obtain ⟨a, rfl, h1⟩ := h1
    unfold Takes at h1
    by_cases hl : n ≤ f.s.bytes.length
    · rw [if_pos hl] at h1
      simp only [if_pos hl]
      exact ⟨h1.1, hp.adv h1.2.1 h2⟩
    · rw [if_neg hl] at h1
      simp only [if_neg hl]
      show _ = _; rw [h1, hp.fin]

theorem ignored (n : Nat) {p : Parser β} {f : Flat} (hp : At F p f) : match Contig.take n f with
    | .error e => (P.bytesIgnored n p).res = .error e
    | .ok (_, f') => (P.bytesIgnored n p).res = .ok () ∧ At F (P.bytesIgnored n p).st f' := by
  have h1 := (P.bytesIgnored_takes hp.rep n).1
  have h2 := (Inv.bytesIgnored h.stableP n p hp.one).1
  unfold Contig.take
  unfold Takes at h1
  by_cases hl : n ≤ f.s.bytes.length
  · rw [if_pos hl] at h1
    simp only [if_pos hl]
    exact ⟨h1.1, hp.adv h1.2.1 h2⟩
  · rw [if_neg hl] at h1
    simp only [if_neg hl]
    show _ = _; rw [h1, hp.fin]

/-- What `parse_bytes_direct` does. -/
theorem direct (n : Nat) {p : Parser β} {f : Flat} (hp : At F p f) (he : f.s.bytes ≠ []) :
    (n ≤ f.s.bytes.length → ∃ a q, P.bytesDirect n p = ⟨.ok (some (a, f.s.bytes.take n)), q, []⟩ ∧
      f.s.al.aligned = (a % 8 == 0) ∧ At F q (f.adv n)) ∧
    (¬ n ≤ f.s.bytes.length → ∃ q, P.bytesDirect n p = ⟨.ok none, q, []⟩ ∧ At F q f) := by
  obtain ⟨a, q, hq, hal, hq1, hadv⟩ := hp.chunk h he
  unfold P.bytesDirect
  rw [P.bind_nil hq]
  constructor <;> intro hl
  · obtain ⟨q', hq', hq2⟩ := hadv n hl
    refine ⟨a, q', ?_, hal, hq2⟩
    show (if f.s.bytes.length < n then Pure.pure none else P.advance n >>= fun _ => Pure.pure (some (a, f.s.bytes.take n)) : P β _) q = _
    rw [P.ite_neg (by omega), P.bind_nil hq']
    rfl
  · refine ⟨q, ?_, hq1⟩
    show (if f.s.bytes.length < n then Pure.pure none else P.advance n >>= fun _ => Pure.pure (some (a, f.s.bytes.take n)) : P β _) q = _
    rw [P.ite_pos (by omega)]
    rfl

theorem bytes (n : Nat) : Meets F (ParserM.bytes n : P β (Cow Byte)) (ParserM.bytes n : Contig (Cow Byte)) := by
  intro p f hp
  show Gives F (P.bytes n p) (Contig.bytes n f)
  have hb : Contig.bytes n f = (Contig.array n f).map fun r => (Cow.borrowed r.1, r.2) := by
    show Contig.bind (Contig.array n) (fun bs => Contig.pure (Cow.borrowed bs)) f = _
    unfold Contig.bind
    rcases Contig.array n f with e | ⟨a, f'⟩ <;> rfl
  rw [hb]
  unfold Contig.array Contig.take
  have h1 := (P.bytes_takes hp.rep n).1
  unfold TakesNe at h1
  by_cases he : f.s.bytes = []
  · rw [if_pos he] at h1
    simp only [if_pos he]
    show _ = _; rw [h1, hp.fin]
  · rw [if_neg he] at h1
    simp only [if_neg he]
    by_cases hl : n ≤ f.s.bytes.length
    · simp only [if_pos hl]
      obtain ⟨a, q, hq, -, hq1⟩ := (direct h n hp he).1 hl
      unfold P.bytes
      rw [P.bind_nil hq]
      exact ⟨rfl, hq1⟩
    · obtain ⟨a, -, h1⟩ := h1
      unfold Takes at h1
      rw [if_neg hl] at h1
      simp only [if_neg hl]
      show _ = _; rw [h1, hp.fin]

theorem rest : Meets F (ParserM.rest : P β (Cow Byte)) (ParserM.rest : Contig (Cow Byte)) := by
  intro p f hp
  show Gives F (P.rest p) (Contig.rest f)
  unfold Contig.rest
  by_cases he : f.s.bytes = []
  · obtain ⟨q, hq⟩ := P.chunk_none hp.rep he
    simp only [if_pos he]
    unfold P.rest
    rw [P.bind_err hq, hp.fin]
    rfl
  · simp only [if_neg he]
    obtain ⟨a, q, hq, -, -, hadv⟩ := hp.chunk h he
    obtain ⟨q', hq', hq2⟩ := hadv _ (Nat.le_refl _)
    obtain ⟨q3, hq3, hr3, -⟩ := P.chunk_eof LawfulEof.eof_law hq2.rep (by simp) (by rw [hq2.fin]; rfl)
    have ho := h.stableP.chunk q' hq2.one
    rw [hq3] at ho
    unfold P.rest
    rw [P.bind_nil hq, P.bind_nil (show P.toCow ⟨.external a, f.s.bytes⟩ q = ⟨.ok (.borrowed f.s.bytes), q, []⟩ from rfl),
      P.bind_nil (show P.advance (Cow.borrowed f.s.bytes).data.length q = ⟨.ok (), q', []⟩ from hq'), P.bind_nil (P.fuel_run q')]
    unfold P.restLoop
    rw [P.bind_nil (P.chunkResult_err hq3)]
    dsimp only
    rw [P.ite_pos (by rw [hq2.fin]; rfl)]
    exact ⟨rfl, hr3, ho, hq2.al, hq2.fin⟩

theorem restTrimNul : Meets F (ParserM.restTrimNul : P β (Cow Byte)) (ParserM.restTrimNul : Contig (Cow Byte)) :=
  bind (rest h) fun _ => pure _

theorem padded (n : Nat) {m : P β α} {s : Contig α} (hm : Meets F m s) :
    Meets F (ParserM.padded n m : P β α) (ParserM.padded n s : Contig α) := by
  intro p f hp
  show Gives F (P.padded n m p) (Contig.padded n s f)
  unfold Contig.padded P.padded
  by_cases h0 : n = 0
  · simp only [if_pos h0]
    rfl
  simp only [if_neg h0]
  rw [P.bind_nil (P.offset_run p)]
  have h1 := hm p f hp
  rcases hs : s f with e | ⟨a, f'⟩ <;> rw [hs] at h1
  · rw [P.bind_err (P.run_eq _ h1)]; rfl
  · rw [P.bind_ok (P.run_eq _ h1.1), P.bind_nil (P.offset_run _), hp.rep.off, h1.2.rep.off]
    dsimp only
    by_cases hz : (f'.off - f.off) % n = 0
    · simp only [if_pos hz]
      exact ⟨rfl, h1.2⟩
    · simp only [if_neg hz]
      have h2 := ignored h (n - (f'.off - f.off) % n) h1.2
      rcases ht : Contig.take (n - (f'.off - f.off) % n) f' with e | ⟨x, f''⟩ <;> rw [ht] at h2
      · rw [P.bind_err (P.run_eq _ h2)]; rfl
      · rw [P.bind_ok (P.run_eq _ h2.1)]
        exact ⟨rfl, h2.2⟩

omit h in
theorem repeatedLoop {m : P β T} {s : Contig T} (hm : Meets F m s) : ∀ n, Meets F (P.repeatedLoop m n) (Contig.repeated s n)
  | 0 => pure _
  | n + 1 => bind hm fun _ => bind (repeatedLoop hm n) fun _ => pure _

omit h in
theorem copied (size : Nat) {m : P β T} {s : Contig T} (hm : Meets F m s) (n : Nat) :
    Meets F (P.repeated size m n >>= fun v => Pure.pure (Cow.owned v)) (Contig.copied s n) := by
  refine bind ?_ fun _ => pure _
  intro p f hp
  have hb : ∃ b, (P.safeCapacityBound size : P β Nat) p = ⟨.ok b, p, []⟩ := by
    unfold P.safeCapacityBound
    split
    · exact ⟨_, rfl⟩
    · exact ⟨_, rfl⟩
  obtain ⟨b, hb⟩ := hb
  unfold P.repeated
  rw [P.bind_nil hb, P.bind_ok (P.alloc_run _ p)]
  exact repeatedLoop hm n p f hp

theorem slice (e : Elem T) (n : Nat) {m : P β T} {s : Contig T} (hm : Meets F m s) :
    Meets F (ParserM.slice e m n : P β (Cow T)) (ParserM.slice e s n : Contig (Cow T)) := by
  intro p f hp
  have hc := copied e.size hm n
  show Gives F (P.slice e m n p) (Contig.slice e s n f)
  have hdir : ∀ q f', P.sliceDirect e n p = ⟨.ok none, q, []⟩ → At F q f' → Gives F (P.slice e m n p) (Contig.copied s n f') := by
    intro q f' hq hat
    unfold P.slice
    rw [P.bind_nil hq]
    exact hc q f' hat
  have hcfg : P.config p = ⟨.ok f.cfg, p, []⟩ := by rw [← hp.rep.cfg]; rfl
  have hsd : P.sliceDirect e n p = (if !f.cfg.endian.isNative then Pure.pure none
      else if n * e.size ≥ usizeLimit then
        P.fail (.custom .invalidRecord "array length in bytes larger than usize::MAX")
      else P.bytesDirect (n * e.size) >>= fun r => match r with
        | none => Pure.pure none
        | some (addr, bs) => if bs = [] ∨ addr % 8 = 0 then Pure.pure (some (e.decodeAll (fromOrder f.cfg.host 64) n bs))
          else Pure.pure none : P β (Option (List T))) p := by
    unfold P.sliceDirect
    rw [P.bind_nil hcfg]
    rfl
  unfold Contig.slice
  by_cases hn : f.cfg.endian.isNative = true
  · simp only [if_pos hn]
    rw [P.ite_neg (by rw [hn]; decide)] at hsd
    by_cases hl : n * e.size ≥ usizeLimit
    · simp only [if_pos hl]
      rw [P.ite_pos hl] at hsd
      unfold P.slice
      rw [P.bind_err (e := .err (.custom .invalidRecord "array length in bytes larger than usize::MAX")) (q := p) (l := []) (by rw [hsd]; rfl)]
      rfl
    simp only [if_neg hl]
    rw [P.ite_neg hl] at hsd
    by_cases he : f.s.bytes = []
    · simp only [if_pos he]
      have hbd : ∃ q, P.bytesDirect (n * e.size) p = ⟨.error (.err .eof), q, []⟩ := by
        obtain ⟨q, hq⟩ := P.chunk_none hp.rep he
        unfold P.bytesDirect
        rw [P.bind_err hq, hp.fin]
        exact ⟨q, rfl⟩
      obtain ⟨q, hq⟩ := hbd
      rw [P.bind_err hq] at hsd
      unfold P.slice
      rw [P.bind_err hsd]
      rfl
    simp only [if_neg he]
    by_cases hle : n * e.size ≤ f.s.bytes.length
    · simp only [if_pos hle]
      obtain ⟨a, q, hq, hal, hat⟩ := (direct h (n * e.size) hp he).1 hle
      rw [P.bind_nil hq] at hsd
      have hiff : (f.s.bytes.take (n * e.size) = [] ∨ a % 8 = 0) ↔ (n * e.size = 0 ∨ f.s.al.aligned = true) := by
        rw [hal, beq_iff_eq, List.take_eq_nil_iff]
        simp [he]
      by_cases hk : n * e.size = 0 ∨ f.s.al.aligned = true
      · simp only [if_pos hk]
        dsimp only at hsd
        rw [P.ite_pos (hiff.mpr hk)] at hsd
        unfold P.slice
        rw [P.bind_nil hsd]
        exact ⟨rfl, hat⟩
      · simp only [if_neg hk]
        dsimp only at hsd
        rw [P.ite_neg (fun x => hk (hiff.mp x))] at hsd
        exact hdir _ _ hsd hat
    · simp only [if_neg hle]
      obtain ⟨q, hq, hat⟩ := (direct h (n * e.size) hp he).2 hle
      rw [P.bind_nil hq] at hsd
      exact hdir _ _ hsd hat
  · simp only [if_neg hn]
    rw [P.ite_pos (by cases hx : f.cfg.endian.isNative with | true => exact absurd hx hn | false => rfl)] at hsd
    exact hdir _ _ hsd hp

omit h in
theorem cowSplitAt (c : Cow T) (n : Nat) :
    Meets F (ParserM.cowSplitAt c n : P β (Cow T × Cow T)) (ParserM.cowSplitAt c n : Contig (Cow T × Cow T)) := by
  show Meets F (match c.splitAt n with | some r => Pure.pure r | none => P.fault .panic) (match c.splitAt n with | some r => Pure.pure r | none => Contig.fault .panic)
  cases c.splitAt n with
  | none => exact fault _
  | some r => exact pure _

theorem u8 : Meets F (parseU8 : P β U8) (parseU8 : Contig U8) := bind ((array h) 1) fun _ => pure _
theorem u16 : Meets F (parseU16 : P β U16) (parseU16 : Contig U16) := bind ((array h) 2) fun _ => bind config fun _ => pure _
theorem u32 : Meets F (parseU32 : P β U32) (parseU32 : Contig U32) := bind ((array h) 4) fun _ => bind config fun _ => pure _
theorem u64 : Meets F (parseU64 : P β U64) (parseU64 : Contig U64) := bind ((array h) 8) fun _ => bind config fun _ => pure _
omit h in
theorem parseIf {m : P β α} {s : Contig α} (c : Bool) (hm : Meets F m s) : Meets F (Perf.parseIf c m) (Perf.parseIf c s) := by
  cases c with
  | true => exact bind hm fun _ => pure _
  | false => exact pure _

/-- One step of a parser. -/
syntax "meets_leaf" term : tactic
macro_rules | `(tactic| meets_leaf $h) => `(tactic| first
  | exact Meets.u64 $h | exact Meets.u32 $h | exact Meets.u16 $h | exact Meets.u8 $h
  | exact Meets.config
  | (with_reducible refine Meets.parseIf _ ?_; meets_leaf $h; done)
  | (with_reducible refine Meets.padded $h _ ?_; meets_leaf $h; done)
  | (refine Meets.slice $h _ _ ?_; meets_leaf $h; done)
  | exact Meets.array $h _ | exact Meets.bytes $h _ | exact Meets.rest $h | exact Meets.restTrimNul $h
  | exact Meets.cowSplitAt _ _)

/-- Walk through a `do` block on both sides. -/
macro "meets" h:term : tactic => `(tactic| repeat' (first
  | exact Meets.fail _
  | exact Meets.pure _
  | meets_leaf $h
  | refine Meets.bind (by meets_leaf $h) (fun _ => ?_)
  | refine Meets.ite ?_ ?_))

theorem mmap : Meets F (parseMmap : P β (Mmap Cow)) (parseMmap : Contig (Mmap Cow)) := by unfold parseMmap; meets h
theorem lost : Meets F (parseLost : P β Lost) (parseLost : Contig Lost) := by unfold parseLost; meets h
theorem comm : Meets F (parseComm : P β (Comm Cow)) (parseComm : Contig (Comm Cow)) := by unfold parseComm; meets h
theorem exit : Meets F (parseExit : P β Exit) (parseExit : Contig Exit) := by unfold parseExit; meets h
theorem throttle : Meets F (parseThrottle : P β Throttle) (parseThrottle : Contig Throttle) := by unfold parseThrottle; meets h
theorem mmapDetail : Meets F (parseMmapDetail : P β MmapDetail) (parseMmapDetail : Contig MmapDetail) := by unfold parseMmapDetail; meets h
macro_rules | `(tactic| meets_leaf $h) => `(tactic| exact Meets.mmapDetail $h)
theorem mmap2 : Meets F (parseMmap2 : P β (Mmap2 Cow)) (parseMmap2 : Contig (Mmap2 Cow)) := by unfold parseMmap2; meets h
theorem aux : Meets F (parseAux : P β Aux) (parseAux : Contig Aux) := by unfold parseAux; meets h
theorem itraceStart : Meets F (parseITraceStart : P β ITraceStart) (parseITraceStart : Contig ITraceStart) := by unfold parseITraceStart; meets h
theorem lostSamples : Meets F (parseLostSamples : P β LostSamples) (parseLostSamples : Contig LostSamples) := by unfold parseLostSamples; meets h
theorem switchCpuWide : Meets F (parseSwitchCpuWide : P β SwitchCpuWide) (parseSwitchCpuWide : Contig SwitchCpuWide) := by
  unfold parseSwitchCpuWide; meets h
theorem namespaceEntry : Meets F (parseNamespaceEntry : P β NamespaceEntry) (parseNamespaceEntry : Contig NamespaceEntry) := by
  unfold parseNamespaceEntry; meets h
macro_rules | `(tactic| meets_leaf $h) => `(tactic| exact Meets.namespaceEntry $h)
theorem namespaces : Meets F (parseNamespaces : P β (Namespaces Cow)) (parseNamespaces : Contig (Namespaces Cow)) := by unfold parseNamespaces; meets h
theorem ksymbol : Meets F (parseKSymbol : P β (KSymbol Cow)) (parseKSymbol : Contig (KSymbol Cow)) := by unfold parseKSymbol; meets h
theorem bpfEvent : Meets F (parseBpfEvent : P β BpfEvent) (parseBpfEvent : Contig BpfEvent) := by unfold parseBpfEvent; meets h
theorem cgroup : Meets F (parseCGroup : P β (CGroup Cow)) (parseCGroup : Contig (CGroup Cow)) := by unfold parseCGroup; meets h
theorem textPoke : Meets F (parseTextPoke : P β (TextPoke Cow)) (parseTextPoke : Contig (TextPoke Cow)) := by unfold parseTextPoke; meets h
theorem auxOutputHwId : Meets F (parseAuxOutputHwId : P β AuxOutputHwId) (parseAuxOutputHwId : Contig AuxOutputHwId) := by
  unfold parseAuxOutputHwId; meets h
theorem cpu : Meets F (parseCpu : P β U32) (parseCpu : Contig U32) := by unfold parseCpu; meets h
macro_rules | `(tactic| meets_leaf $h) => `(tactic| exact Meets.cpu $h)
theorem sampleId : Meets F (parseSampleId : P β SampleId) (parseSampleId : Contig SampleId) := by unfold parseSampleId; meets h
theorem readValue : Meets F (parseReadValue : P β ReadValue) (parseReadValue : Contig ReadValue) := by unfold parseReadValue; meets h
macro_rules | `(tactic| meets_leaf $h) => `(tactic| exact Meets.readValue $h)
theorem readGroup : Meets F (parseReadGroup : P β (ReadGroup Cow)) (parseReadGroup : Contig (ReadGroup Cow)) := by unfold parseReadGroup; meets h
theorem read : Meets F (parseRead : P β Read) (parseRead : Contig Read) := by unfold parseRead; meets h
macro_rules | `(tactic| meets_leaf $h) => `(tactic| exact Meets.readGroup $h)
theorem branchEntry : Meets F (parseBranchEntry : P β BranchEntry) (parseBranchEntry : Contig BranchEntry) := by unfold parseBranchEntry; meets h
macro_rules | `(tactic| meets_leaf $h) => `(tactic| exact Meets.branchEntry $h)
theorem registers (mask : U64) : Meets F (parseRegisters mask : P β (Registers Cow)) (parseRegisters mask : Contig (Registers Cow)) := by
  unfold parseRegisters; meets h
macro_rules | `(tactic| meets_leaf $h) => `(tactic| exact Meets.registers $h _)
theorem registersUser : Meets F (parseRegistersUser : P β (Registers Cow)) (parseRegistersUser : Contig (Registers Cow)) := by
  exact bind config fun _ => (registers h) _
theorem registersIntr : Meets F (parseRegistersIntr : P β (Registers Cow)) (parseRegistersIntr : Contig (Registers Cow)) := by
  exact bind config fun _ => (registers h) _
theorem values : Meets F (parseValues : P β (ReadGroup Cow)) (parseValues : Contig (ReadGroup Cow)) := by
  unfold parseValues
  refine bind config fun _ => Meets.ite (readGroup h) (bind (readValue h) fun v => ?_)
  exact pure _
theorem callchain : Meets F (parseCallchain : P β (Cow U64)) (parseCallchain : Contig (Cow U64)) := by unfold parseCallchain; meets h
theorem rawInner : Meets F (parseRawInner : P β (Cow Byte)) (parseRawInner : Contig (Cow Byte)) := by unfold parseRawInner; meets h
theorem lbr (b : Bool) : Meets F (parseLbr b : P β (Cow BranchEntry × Option U64)) (parseLbr b : Contig (Cow BranchEntry × Option U64)) := by unfold parseLbr; meets h
theorem dynSize (s : U64) : Meets F (parseDynSize s : P β U64) (parseDynSize s : Contig U64) := by unfold parseDynSize; meets h
macro_rules | `(tactic| meets_leaf $h) => `(tactic| exact Meets.dynSize $h _)
theorem stackUser : Meets F (parseStackUser : P β (Cow Byte)) (parseStackUser : Contig (Cow Byte)) := by
  unfold parseStackUser
  refine bind (u64 h) fun _ => bind ((bytes h) _) fun _ => bind ((dynSize h) _) fun _ => Meets.ite (fail _) (pure _)
theorem auxData : Meets F (parseAuxData : P β (Cow Byte)) (parseAuxData : Contig (Cow Byte)) := by unfold parseAuxData; meets h
theorem sample : Meets F (parseSample : P β (Sample Cow)) (parseSample : Contig (Sample Cow)) := by
  unfold parseSample
  refine bind config fun cfg => ?_
  iterate 7 refine bind (parseIf _ (by first | exact (u64 h) | exact (u32 h))) fun _ => ?_
  refine bind (parseIf _ (u64 h)) fun _ => bind (parseIf _ (cpu h)) fun _ => bind (parseIf _ (u64 h)) fun _ => ?_
  refine bind (parseIf _ (values h)) fun _ => bind (parseIf _ (callchain h)) fun _ => ?_
  refine bind (parseIf _ ((padded h) 8 (rawInner h))) fun _ => bind (parseIf _ ((lbr h) _)) fun _ => ?_
  refine bind (parseIf _ (registersUser h)) fun _ => bind (parseIf _ (stackUser h)) fun _ => ?_
  iterate 3 refine bind (parseIf _ (u64 h)) fun _ => ?_
  refine bind (parseIf _ (registersIntr h)) fun _ => ?_
  iterate 4 refine bind (parseIf _ (u64 h)) fun _ => ?_
  exact bind (parseIf _ (auxData h)) fun _ => pure _
theorem header : Meets F (parseHeader : P β Header) (parseHeader : Contig Header) := by unfold parseHeader; meets h

theorem body (ty : U32) : Meets F (parseBody ty : P β (Record Cow)) (parseBody ty : Contig (Record Cow)) := by
  unfold parseBody
  split
  · exact bind (mmap h) fun _ => pure _
  · exact bind (lost h) fun _ => pure _
  · exact bind (comm h) fun _ => pure _
  · exact bind (exit h) fun _ => pure _
  · exact bind (throttle h) fun _ => pure _
  · exact bind (throttle h) fun _ => pure _
  · exact bind (exit h) fun _ => pure _
  · exact bind (read h) fun _ => pure _
  · exact bind (sample h) fun _ => pure _
  · exact bind (mmap2 h) fun _ => pure _
  · exact bind (aux h) fun _ => pure _
  · exact bind (itraceStart h) fun _ => pure _
  · exact bind (lostSamples h) fun _ => pure _
  · exact bind (switchCpuWide h) fun _ => pure _
  · exact bind (namespaces h) fun _ => pure _
  · exact bind (ksymbol h) fun _ => pure _
  · exact bind (bpfEvent h) fun _ => pure _
  · exact bind (cgroup h) fun _ => pure _
  · exact bind (textPoke h) fun _ => pure _
  · exact bind (auxOutputHwId h) fun _ => pure _
  · exact bind (rest h) fun _ => pure _

end Meets
end Perf
