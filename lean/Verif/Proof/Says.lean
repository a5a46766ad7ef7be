import Verif.Proof.Kept
import Verif.Proof.Post
/-!
# Which errors a parser can return, for any buffer whatsoever

`Source I E`: a buffer in a state of `I` stays in `I` and reports only errors of `E`. Nothing else is assumed of it.
`Says I cfg E m`: run with the configuration `cfg` on a buffer in `I`, the parser `m` returns only errors of `E`, and
leaves the configuration alone and the buffer in `I`.
-/
namespace Perf

/-- The states `I` of a buffer are kept by its operations, and its errors are in `E`. -/
structure Source (β : Type) [ParseBuf β] (I : β → Prop) (E : ParseError → Prop) : Prop where
  err : ∀ b e, I b → (ParseBuf.chunk b).1 = .error (.err e) → E e
  chunk : ∀ b, I b → I (ParseBuf.chunk b).2
  advance : ∀ b b' n, I b → ParseBuf.advance b n = some b' → I b'

variable {β : Type} [ParseBuf β] {α α' : Type} {I : β → Prop} {cfg : ParseConfig} {E : ParseError → Prop}

/-- Errors returned by `m` are in `E`. -/
def Says (I : β → Prop) (cfg : ParseConfig) (E : ParseError → Prop) (m : P β α) : Prop :=
  ∀ p, I p.data.buf → p.config = cfg →
    I (m p).st.data.buf ∧ (m p).st.config = cfg ∧ ∀ e, (m p).res = .error (.err e) → E e

namespace Says

omit [ParseBuf β] in
theorem mono {F : ParseError → Prop} {m : P β α} (h : Says I cfg E m) (hf : ∀ e, E e → F e) : Says I cfg F m :=
  fun p hi hc => ⟨(h p hi hc).1, (h p hi hc).2.1, fun e he => hf e ((h p hi hc).2.2 e he)⟩

omit [ParseBuf β] in
theorem pure (a : α) : Says I cfg E (Pure.pure a : P β α) := fun _ hi hc => ⟨hi, hc, nofun⟩

omit [ParseBuf β] in
theorem fault {x : Fault} (h : ∀ e, x = .err e → E e) : Says I cfg E (P.fault x : P β α) :=
  fun _ hi hc => ⟨hi, hc, fun e he => h e (by cases he; rfl)⟩

omit [ParseBuf β] in
theorem fail {e : ParseError} (h : E e) : Says I cfg E (P.fail e : P β α) := fault fun _ h' => by cases h'; exact h

omit [ParseBuf β] in
theorem ofExcept {r : Except Fault α} (h : ∀ e, r = .error (.err e) → E e) : Says I cfg E (P.ofExcept r : P β α) :=
  fun _ hi hc => ⟨hi, hc, h⟩

omit [ParseBuf β] in
theorem bind {m : P β α} {k : α → P β α'} (h : Says I cfg E m) (hk : ∀ a, Says I cfg E (k a)) :
    Says I cfg E (m >>= k) := by
  intro p hi hc
  obtain ⟨h1, h2, h3⟩ := h p hi hc
  rcases hm : (m p).res with x | a
  · have hr : (m >>= k) p = _ := P.bind_err (P.run_eq _ hm)
    rw [hr]
    refine ⟨h1, h2, fun e he => h3 e ?_⟩
    rw [hm]; cases he; rfl
  · have hr : (m >>= k) p = _ := P.bind_ok (P.run_eq _ hm)
    rw [hr]
    exact hk a _ h1 h2

omit [ParseBuf β] in
/-- With what is known of the value of the first step, under this configuration. -/
theorem bindY {Q : α → Prop} {m : P β α} {k : α → P β α'} (h : Says I cfg E m)
    (hq : ∀ p a, I p.data.buf → p.config = cfg → (m p).res = .ok a → Q a) (hk : ∀ a, Q a → Says I cfg E (k a)) :
    Says I cfg E (m >>= k) := by
  intro p hi hc
  obtain ⟨h1, h2, h3⟩ := h p hi hc
  rcases hm : (m p).res with x | a
  · have hr : (m >>= k) p = _ := P.bind_err (P.run_eq _ hm)
    rw [hr]
    refine ⟨h1, h2, fun e he => h3 e ?_⟩
    rw [hm]; cases he; rfl
  · have hr : (m >>= k) p = _ := P.bind_ok (P.run_eq _ hm)
    rw [hr]
    exact hk a (hq p a hi hc hm) _ h1 h2

omit [ParseBuf β] in
theorem bindQ {Q : α → Prop} {m : P β α} {k : α → P β α'} (h : Says I cfg E m) (hq : Post Q m)
    (hk : ∀ a, Q a → Says I cfg E (k a)) : Says I cfg E (m >>= k) := bindY h (fun p a _ _ => hq p a) hk

omit [ParseBuf β] in
theorem config : Says I cfg E (P.config : P β ParseConfig) := fun _ hi hc => ⟨hi, hc, nofun⟩

omit [ParseBuf β] in
/-- The configuration is the one in use. -/
theorem withConfig {k : ParseConfig → P β α} (hk : Says I cfg E (k cfg)) : Says I cfg E (P.config >>= k) := by
  intro p hi hc
  have hr : (P.config >>= k) p = k p.config p := rfl
  rw [hr, hc]
  exact hk p hi hc

omit [ParseBuf β] in
theorem ite {c : Prop} [Decidable c] {a b : P β α} (h1 : c → Says I cfg E a) (h2 : ¬ c → Says I cfg E b) :
    Says I cfg E (if c then a else b) := by
  by_cases h : c
  · rw [if_pos h]; exact h1 h
  · rw [if_neg h]; exact h2 h

omit [ParseBuf β] in
theorem offset : Says I cfg E (P.offset : P β Nat) := fun _ hi hc => ⟨hi, hc, nofun⟩
omit [ParseBuf β] in
theorem alloc (n : Nat) : Says I cfg E (P.alloc n : P β Unit) := fun _ hi hc => ⟨hi, hc, nofun⟩
theorem hint : Says I cfg E (P.hint : P β (Option Nat)) := fun _ hi hc => ⟨hi, hc, nofun⟩
theorem fuel : Says I cfg E (P.fuel : P β Nat) := fun _ hi hc => ⟨hi, hc, nofun⟩
omit [ParseBuf β] in
theorem onChild {δ : Type} (c : Parser δ) {m : P δ α} (h : ∀ e, (m c).res = .error (.err e) → E e) :
    Says I cfg E (P.onChild c m : P β (α × Parser δ)) := by
  intro p hi hc
  unfold P.onChild
  rcases hm : (m c).res with x | a
  · simp only [hm]
    exact ⟨hi, hc, fun e he => h e (by rw [hm]; cases he; rfl)⟩
  · simp only [hm]
    exact ⟨hi, hc, nofun⟩

variable (hs : Source β I E)
include hs

theorem chunk : Says I cfg E (P.chunk : P β Chunk) :=
  fun p hi hc => ⟨hs.chunk p.data.buf hi, hc, fun e he => hs.err p.data.buf e hi he⟩

theorem chunkResult {k : Except ParseError Chunk → P β α} (h1 : ∀ c, Says I cfg E (k (.ok c)))
    (h2 : ∀ e, E e → Says I cfg E (k (.error e))) : Says I cfg E (P.chunkResult >>= k) := by
  intro p hi hc
  have hi' := hs.chunk p.data.buf hi
  rcases hm : (ParseBuf.chunk p.data).1 with x | c
  · cases x with
    | err e =>
      have he : E e := hs.err p.data.buf e hi hm
      have hr : (P.chunkResult : P β _) p = ⟨.ok (.error e), { p with data := (ParseBuf.chunk p.data).2 }, []⟩ := by
        simp only [P.chunkResult, hm]
      rw [P.bind_nil hr]
      exact h2 e he _ hi' hc
    | panic =>
      have hr : (P.chunkResult : P β _) p = ⟨.error .panic, { p with data := (ParseBuf.chunk p.data).2 }, []⟩ := by
        simp only [P.chunkResult, hm]
      rw [P.bind_err hr]
      exact ⟨hi', hc, nofun⟩
    | diverge =>
      have hr : (P.chunkResult : P β _) p = ⟨.error .diverge, { p with data := (ParseBuf.chunk p.data).2 }, []⟩ := by
        simp only [P.chunkResult, hm]
      rw [P.bind_err hr]
      exact ⟨hi', hc, nofun⟩
  · have hr : (P.chunkResult : P β _) p = ⟨.ok (.ok c), { p with data := (ParseBuf.chunk p.data).2 }, []⟩ := by
      simp only [P.chunkResult, hm]
    rw [P.bind_nil hr]
    exact h1 c _ hi' hc

theorem advance (n : Nat) : Says I cfg E (P.advance n : P β Unit) := by
  intro p hi hc
  unfold P.advance
  rcases hm : ParseBuf.advance p.data n with _ | d
  · exact ⟨hi, hc, nofun⟩
  · refine ⟨?_, hc, nofun⟩
    have h0 : (ParseBuf.advance p.data.buf n).map (fun b => (⟨b, p.data.offset + n⟩ : Tracking β)) = some d := hm
    rcases hb : ParseBuf.advance p.data.buf n with _ | b
    · rw [hb] at h0; cases h0
    · rw [hb] at h0
      simp only [Option.map_some, Option.some.injEq] at h0
      subst h0
      exact hs.advance _ _ _ hi hb

omit [ParseBuf β] hs in
theorem toCow (c : Chunk) : Says I cfg E (P.toCow c : P β (Cow Byte)) := by
  unfold P.toCow
  split
  · exact (alloc _).bind fun _ => pure _
  · exact pure _

omit [ParseBuf β] hs in
theorem pushChunk (c : Chunk) (cs : List Chunk) : Says I cfg E (P.pushChunk c cs : P β (List Chunk)) := by
  unfold P.pushChunk
  exact ite (fun _ => (toCow c).bind fun _ => pure _) fun _ => pure _

theorem cursorLoop (fuel len : Nat) (cs : List Chunk) : Says I cfg E (P.cursorLoop fuel len cs : P β (List Chunk)) := by
  induction fuel generalizing len cs with
  | zero => exact fault nofun
  | succ n ih =>
    unfold P.cursorLoop
    refine ite (fun _ => pure _) fun _ => (chunk hs).bind fun c => (pushChunk _ _).bind fun _ => ?_
    exact (advance hs _).bind fun _ => ih _ _

theorem newCursor (len : Nat) : Says I cfg E (P.newCursor len : P β Cursor) :=
  fuel.bind fun _ => (cursorLoop hs _ _ _).bind fun _ => pure _

theorem splitAt (n : Nat) : Says I cfg E (P.splitAt n : P β (Parser Cursor)) :=
  (newCursor hs _).bind fun _ => config.bind fun _ => pure _

omit [ParseBuf β] hs in
theorem safeCapacityBound [ParseBuf β] (size : Nat) : Says I cfg E (P.safeCapacityBound size : P β Nat) := by
  unfold P.safeCapacityBound
  exact ite (fun _ => pure _) fun _ => hint.bind fun _ => pure _

theorem bytesDirect (len : Nat) : Says I cfg E (P.bytesDirect len : P β (Option (Nat × List Byte))) := by
  unfold P.bytesDirect
  refine (chunk hs).bind fun c => ?_
  cases c.loc with
  | temporary => exact pure _
  | external a => exact ite (fun _ => pure _) fun _ => (advance hs _).bind fun _ => pure _

theorem bytesSlowLoop (fuel len : Nat) (bs : List Byte) :
    Says I cfg E (P.bytesSlowLoop fuel len bs : P β (List Byte)) := by
  induction fuel generalizing len bs with
  | zero => exact fault nofun
  | succ n ih =>
    unfold P.bytesSlowLoop
    exact ite (fun _ => pure _) fun _ => (chunk hs).bind fun c => (advance hs _).bind fun _ => ih _ _

theorem bytesSlow (len : Nat) : Says I cfg E (P.bytesSlow len : P β (List Byte)) :=
  (safeCapacityBound _).bind fun _ => (alloc _).bind fun _ => fuel.bind fun _ => bytesSlowLoop hs _ _ _

theorem toSliceLoop (fuel len : Nat) (bs : List Byte) :
    Says I cfg E (P.toSliceLoop fuel len bs : P β (List Byte)) := by
  induction fuel generalizing len bs with
  | zero => exact fault nofun
  | succ n ih =>
    unfold P.toSliceLoop
    exact ite (fun _ => pure _) fun _ => (chunk hs).bind fun c => (advance hs _).bind fun _ => ih _ _

theorem toSlice (len : Nat) : Says I cfg E (P.toSlice len : P β (List Byte)) :=
  fuel.bind fun _ => toSliceLoop hs _ _ _

theorem bytes (len : Nat) : Says I cfg E (P.bytes len : P β (Cow Byte)) := by
  unfold P.bytes
  refine (bytesDirect hs _).bind fun r => ?_
  rcases r with _ | ⟨a, bs⟩
  · refine hint.bind fun h => ite (fun _ => ?_) fun _ => ?_
    · exact (alloc _).bind fun _ => (toSlice hs _).bind fun _ => pure _
    · exact (bytesSlow hs _).bind fun _ => pure _
  · exact pure _

theorem ignoredLoop (fuel len : Nat) : Says I cfg E (P.ignoredLoop fuel len : P β Unit) := by
  induction fuel generalizing len with
  | zero => exact fault nofun
  | succ n ih =>
    unfold P.ignoredLoop
    exact ite (fun _ => pure _) fun _ => (chunk hs).bind fun c => (advance hs _).bind fun _ => ih _

theorem bytesIgnored (len : Nat) : Says I cfg E (P.bytesIgnored len : P β Unit) :=
  fuel.bind fun _ => ignoredLoop hs _ _

theorem array (n : Nat) : Says I cfg E (P.array n : P β (List Byte)) := by
  unfold P.array
  exact (chunk hs).bind fun c => ite (fun _ => toSlice hs _) fun _ => (advance hs _).bind fun _ => pure _

theorem padded (n : Nat) {m : P β α} (h : Says I cfg E m) : Says I cfg E (P.padded n m) := by
  unfold P.padded
  refine ite (fun _ => fault nofun) fun _ => offset.bind fun _ => h.bind fun _ => offset.bind fun _ => ?_
  exact ite (fun _ => pure _) fun _ => (bytesIgnored hs _).bind fun _ => pure _

theorem restLoop (fuel : Nat) (bs : Cow Byte) : Says I cfg E (P.restLoop fuel bs : P β (Cow Byte)) := by
  induction fuel generalizing bs with
  | zero => exact fault nofun
  | succ n ih =>
    unfold P.restLoop
    refine chunkResult hs (fun c => ?_) fun e he => ?_
    · exact (advance hs _).bind fun _ => ih _
    · exact ite (fun _ => pure _) fun _ => fail he

theorem rest : Says I cfg E (P.rest : P β (Cow Byte)) := by
  unfold P.rest
  refine (chunk hs).bind fun c => (toCow c).bind fun _ => (advance hs _).bind fun _ => fuel.bind fun _ => ?_
  exact restLoop hs _ _

theorem restTrimNul : Says I cfg E (P.restTrimNul : P β (Cow Byte)) := (rest hs).bind fun _ => pure _

omit hs [ParseBuf β] in
theorem repeatedLoop {T : Type} {m : P β T} (h : Says I cfg E m) (n : Nat) : Says I cfg E (P.repeatedLoop m n) := by
  induction n with
  | zero => exact pure _
  | succ n ih =>
    unfold P.repeatedLoop
    exact h.bind fun _ => ih.bind fun _ => pure _

omit hs in
theorem repeated {T : Type} {m : P β T} (size : Nat) (h : Says I cfg E m) (n : Nat) :
    Says I cfg E (P.repeated size m n) :=
  (safeCapacityBound _).bind fun _ => (alloc _).bind fun _ => repeatedLoop h n

/-- The message about the size of an array comes only when the byte order is the host's and the array is too large. -/
theorem slice {T : Type} {m : P β T} (el : Elem T) (n : Nat) (h : Says I cfg E m)
    (hl : cfg.endian.isNative = true → usizeLimit ≤ n * el.size →
      E (.custom .invalidRecord "array length in bytes larger than usize::MAX")) :
    Says I cfg E (P.slice el m n) := by
  unfold P.slice
  have hd : Says I cfg E (P.sliceDirect el n : P β (Option (List T))) := by
    unfold P.sliceDirect
    refine withConfig (ite (fun _ => pure _) fun hn => ite (fun hb => fail (hl (by simpa using hn) hb)) fun _ => ?_)
    refine (bytesDirect hs _).bind fun r => ?_
    rcases r with _ | ⟨a, bs⟩
    · exact pure _
    · exact ite (fun _ => pure _) fun _ => pure _
  refine hd.bind fun r => ?_
  rcases r with _ | s
  · exact (repeated _ h _).bind fun _ => pure _
  · exact pure _

theorem u8 : Says I cfg E (parseU8 : P β U8) := (array hs 1).bind fun _ => pure _
theorem u16 : Says I cfg E (parseU16 : P β U16) := (array hs 2).bind fun _ => config.bind fun _ => pure _
theorem u32 : Says I cfg E (parseU32 : P β U32) := (array hs 4).bind fun _ => config.bind fun _ => pure _
theorem u64 : Says I cfg E (parseU64 : P β U64) := (array hs 8).bind fun _ => config.bind fun _ => pure _

omit hs in
theorem parseIf {m : P β α} (c : Bool) (h : c = true → Says I cfg E m) : Says I cfg E (Perf.parseIf c m) := by
  cases c with
  | true => exact (h rfl).bind fun _ => pure _
  | false => exact pure _

/-- One step of a parser that cannot fail by itself. -/
syntax "says_leaf" term : tactic
macro_rules | `(tactic| says_leaf $h) => `(tactic| first
  | exact Says.u64 $h | exact Says.u32 $h | exact Says.u16 $h | exact Says.u8 $h
  | exact Says.config
  | (with_reducible refine Says.parseIf _ (fun _ => ?_); says_leaf $h; done)
  | exact Says.array $h _ | exact Says.bytes $h _ | exact Says.rest $h | exact Says.restTrimNul $h)

/-- Walk through a `do` block. -/
macro "says" h:term : tactic => `(tactic| repeat' (first
  | exact Says.pure _
  | says_leaf $h
  | refine Says.bind (by says_leaf $h) (fun _ => ?_)
  | refine Says.ite (fun _ => ?_) (fun _ => ?_)))

theorem header : Says I cfg E (parseHeader : P β Header) := by unfold parseHeader; says hs
theorem mmap : Says I cfg E (parseMmap : P β (Mmap Cow)) := by unfold parseMmap; says hs
theorem lost : Says I cfg E (parseLost : P β Lost) := by unfold parseLost; says hs
theorem comm : Says I cfg E (parseComm : P β (Comm Cow)) := by unfold parseComm; says hs
theorem exit : Says I cfg E (parseExit : P β Exit) := by unfold parseExit; says hs
theorem throttle : Says I cfg E (parseThrottle : P β Throttle) := by unfold parseThrottle; says hs
theorem aux : Says I cfg E (parseAux : P β Aux) := by unfold parseAux; says hs
theorem itraceStart : Says I cfg E (parseITraceStart : P β ITraceStart) := by unfold parseITraceStart; says hs
theorem lostSamples : Says I cfg E (parseLostSamples : P β LostSamples) := by unfold parseLostSamples; says hs
theorem switchCpuWide : Says I cfg E (parseSwitchCpuWide : P β SwitchCpuWide) := by unfold parseSwitchCpuWide; says hs
theorem namespaceEntry : Says I cfg E (parseNamespaceEntry : P β NamespaceEntry) := by unfold parseNamespaceEntry; says hs
theorem ksymbol : Says I cfg E (parseKSymbol : P β (KSymbol Cow)) := by unfold parseKSymbol; says hs
theorem bpfEvent : Says I cfg E (parseBpfEvent : P β BpfEvent) := by unfold parseBpfEvent; says hs
theorem cgroup : Says I cfg E (parseCGroup : P β (CGroup Cow)) := by unfold parseCGroup; says hs
theorem auxOutputHwId : Says I cfg E (parseAuxOutputHwId : P β AuxOutputHwId) := by unfold parseAuxOutputHwId; says hs
theorem cpu : Says I cfg E (parseCpu : P β U32) := by unfold parseCpu; says hs
macro_rules | `(tactic| says_leaf $h) => `(tactic| exact Says.cpu $h)
theorem sampleId : Says I cfg E (parseSampleId : P β SampleId) := by unfold parseSampleId; says hs
theorem rawInner : Says I cfg E (parseRawInner : P β (Cow Byte)) := by unfold parseRawInner; says hs
theorem auxData : Says I cfg E (parseAuxData : P β (Cow Byte)) := by unfold parseAuxData; says hs
theorem dynSize (s : U64) : Says I cfg E (parseDynSize s : P β U64) := by unfold parseDynSize; says hs
theorem branchEntry : Says I cfg E (parseBranchEntry : P β BranchEntry) := by unfold parseBranchEntry; says hs
theorem textPoke : Says I cfg E (parseTextPoke : P β (TextPoke Cow)) := by
  unfold parseTextPoke
  refine (u64 hs).bind fun _ => (u16 hs).bind fun _ => (u16 hs).bind fun _ => (bytes hs _).bind fun d => ?_
  refine bind ?_ fun _ => pure _
  rename_i ol _
  rcases hd : d.splitAt ol.toNat with _ | r
  · simp only [ParserM.cowSplitAt, hd]; exact fault nofun
  · simp only [ParserM.cowSplitAt, hd]; exact pure _

end Says
end Perf
