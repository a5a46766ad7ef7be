import Verif.Proof.Flow
/-!
# Where the record parsers leave the input, also after an error
-/
namespace Perf
variable {β : Type} [ParseBuf β] [LawfulEof β] {α γ α' γ' T : Type}

theorem Flow.erase_seq (m : Flow α) (k : α → Flow γ) : Flow.erase (m >>= k) = Flow.erase m >>= fun a => Flow.erase (k a) := by
  funext f
  show Flow.erase (Flow.bind m k) f = Spec.bind (Flow.erase m) (fun a => Flow.erase (k a)) f
  unfold Spec.bind
  unfold Flow.erase Flow.bind
  rcases m f with _ | ⟨e | a, f'⟩ <;> rfl

theorem Flow.erase_ret (a : α) : Flow.erase (Pure.pure a : Flow α) = Pure.pure a := rfl

theorem Flow.erase_drain (s : Spec α) : Flow.erase (Flow.drain s) = s := by
  funext f
  unfold Flow.erase Flow.drain
  rcases s f with (_ | e) | ⟨a, f'⟩ <;> rfl

theorem Flow.erase_u64 : Flow.erase (parseU64 : Flow U64) = parseU64 := by
  unfold parseU64
  rw [Flow.erase_seq]
  show Flow.erase (Flow.drain (Spec.bytes 8)) >>= _ = _
  rw [Flow.erase_drain]
  rfl

/-! ## Steps -/

theorem Flows.seq {R : α → γ → Prop} {R' : α' → γ' → Prop} {m : P β α} {s : Flow γ} {k : α → P β α'} {k' : γ → Flow γ'}
    (h : Flows R m s) (hk : ∀ a c, R a c → Flows R' (k a) (k' c)) : Flows R' (m >>= k) (s >>= k') := Flows.bind h hk
theorem Flows.ret {R : α → γ → Prop} {a : α} {c : γ} (h : R a c) : Flows R (Pure.pure a : P β α) (Pure.pure c) := Flows.pure h
theorem Flows.ite {R : α → γ → Prop} {c : Prop} [Decidable c] {m m' : P β α} {s s' : Flow γ} (h : c → Flows R m s)
    (h' : ¬ c → Flows R m' s') : Flows R (if c then m else m') (if c then s else s') := by
  by_cases hc : c
  · rw [if_pos hc, if_pos hc]; exact h hc
  · rw [if_neg hc, if_neg hc]; exact h' hc

theorem Flows.project {R : α → γ → Prop} {m : P β α} {s : Flow γ} {g : α → γ} (h : Flows R m s) (hg : ∀ a c, R a c → g a = c) :
    Flows Eq (m >>= fun a => Pure.pure (g a)) s := by
  intro p f hp hk
  have h1 := h p f hp hk
  rcases hs : s f with _ | ⟨e | c, f'⟩
  · trivial
  · rw [hs] at h1
    obtain ⟨h2, h3⟩ := h1
    rw [P.bind_err (P.run_eq _ h2)]
    exact ⟨rfl, h3⟩
  · rw [hs] at h1
    obtain ⟨⟨a, h2, h5⟩, h3⟩ := h1
    rw [P.bind_ok (P.run_eq _ h2)]
    exact ⟨⟨_, rfl, hg a c h5⟩, h3⟩

theorem Flows.array (n : Nat) : Flows Eq (ParserM.array n : P β (List Byte)) (ParserM.array n : Flow (List Byte)) :=
  Flows.drain (Refines.array n) (Exhausts.array LawfulEof.eof_law n) (KeepsFin.bytes n)
theorem Flows.bytes (n : Nat) : Flows HasData (ParserM.bytes n : P β (Cow Byte)) (ParserM.bytes n : Flow (List Byte)) :=
  Flows.drain (Refines.bytes n) (Exhausts.bytes LawfulEof.eof_law n) (KeepsFin.bytes n)
theorem Flows.rest : Flows HasData (ParserM.rest : P β (Cow Byte)) (ParserM.rest : Flow (List Byte)) :=
  Flows.drain Refines.rest (Exhausts.rest LawfulEof.eof_law) KeepsFin.rest
theorem Flows.restTrimNul : Flows HasData (ParserM.restTrimNul : P β (Cow Byte)) (ParserM.restTrimNul : Flow (List Byte)) :=
  Flows.drain Refines.restTrimNul (Exhausts.bind (Exhausts.rest LawfulEof.eof_law) fun _ => Exhausts.pure _)
    (KeepsFin.bind KeepsFin.rest fun _ => KeepsFin.pure _)
theorem Flows.u8 : Flows Eq (parseU8 : P β U8) parseU8 := Flows.seq (Flows.array 1) fun _ _ h => Flows.ret (by rw [h])
theorem Flows.u16 : Flows Eq (parseU16 : P β U16) parseU16 :=
  Flows.seq (Flows.array 2) fun _ _ h => Flows.seq Flows.config fun _ _ h' => Flows.ret (by rw [h, h'])
theorem Flows.u32 : Flows Eq (parseU32 : P β U32) parseU32 :=
  Flows.seq (Flows.array 4) fun _ _ h => Flows.seq Flows.config fun _ _ h' => Flows.ret (by rw [h, h'])
theorem Flows.u64 : Flows Eq (parseU64 : P β U64) parseU64 :=
  Flows.seq (Flows.array 8) fun _ _ h => Flows.seq Flows.config fun _ _ h' => Flows.ret (by rw [h, h'])

theorem Flows.parseIf_eq {m : P β α} {s : Flow α} (c : Bool) (h : Flows Eq m s) : Flows Eq (parseIf c m) (parseIf c s) := by
  cases c with
  | true => exact Flows.seq h fun _ _ h => Flows.ret (by rw [h])
  | false => exact Flows.ret rfl

theorem Flows.parseIf_via {g : α → γ} {m : P β α} {s : Flow γ} (c : Bool) (h : Flows (Via g) m s) :
    Flows (Via (Option.map g)) (parseIf c m) (parseIf c s) := by
  cases c with
  | true => exact Flows.seq h fun _ _ h => Flows.ret (by rw [← h]; rfl)
  | false => exact Flows.ret rfl

theorem Flows.padded {R : α → γ → Prop} {m : P β α} {s : Flow γ} (n : Nat) (h : Flows R m s) :
    Flows R (P.padded n m) (Flow.padded n s) := by
  intro p f hp hk
  unfold P.padded Flow.padded
  by_cases hn : n = 0
  · simp only [if_pos hn]
  · simp only [if_neg hn]
    rw [P.bind_nil (P.offset_run p)]
    have h1 := h p f hp hk
    rcases hs : s f with _ | ⟨e | c, f'⟩
    · trivial
    · rw [hs] at h1
      obtain ⟨h2, h3⟩ := h1
      rw [P.bind_err (P.run_eq _ h2)]
      exact ⟨rfl, h3⟩
    · rw [hs] at h1
      obtain ⟨⟨a, h2, h3⟩, h4, h5⟩ := h1
      rw [P.bind_ok (P.run_eq _ h2), P.bind_nil (P.offset_run _)]
      simp only [hp.off, h4.off]
      by_cases hz : (f'.off - f.off) % n = 0
      · simp only [if_pos hz]
        exact ⟨⟨a, rfl, h3⟩, h4, h5⟩
      · simp only [if_neg hz]
        have hi : Refines (fun _ _ => True) (P.bytesIgnored (n - (f'.off - f.off) % n) : P β Unit) (Spec.take (n - (f'.off - f.off) % n)) := by
          intro q g hq
          have h6 := (P.bytesIgnored_takes hq (n - (f'.off - f.off) % n)).1
          unfold Takes at h6
          unfold Spec.take
          by_cases hle : n - (f'.off - f.off) % n ≤ g.s.bytes.length
          · rw [if_pos hle] at h6 ⊢; exact ⟨(), h6.1, trivial, h6.2.1⟩
          · rw [if_neg hle] at h6 ⊢; exact h6
        have h7 : KeepsFin (Spec.take (n - (f'.off - f.off) % n)) := fun g x g' hg => by
          unfold Spec.take at hg
          by_cases hle : n - (f'.off - f.off) % n ≤ g.s.bytes.length
          · rw [if_pos hle] at hg; cases hg; rfl
          · rw [if_neg hle] at hg; cases hg
        have h8 := Flows.bind (Flows.drain hi (Exhausts.bytesIgnored LawfulEof.eof_law _) h7) (fun _ _ _ => Flows.pure (R := R) h3) _ _ h4 h5
        exact h8

theorem Flows.splitAt {c : Cow T} {l : List T} (h : HasData c l) (n : Nat) :
    Flows (fun a b => HasData a.1 b.1 ∧ HasData a.2 b.2) (ParserM.cowSplitAt c n : P β (Cow T × Cow T))
      (ParserM.cowSplitAt l n : Flow (List T × List T)) := by
  show Flows _ _ (Flow.splitAt l n)
  intro p f hp hk
  have h1 := Refines.splitAt h n p f hp
  unfold Spec.splitAt at h1
  unfold Flow.splitAt
  by_cases hs : l ≠ [] ∧ (n = 0 ∨ n ≥ l.length) ∨ n > l.length
  · rw [if_pos hs]; trivial
  · rw [if_neg hs] at h1 ⊢
    obtain ⟨a, h2, h3, h4⟩ := h1
    exact ⟨⟨a, h2, h3⟩, h4, hk⟩

theorem Flows.attr : Flows Eq (P.parseAttr : P β Attr) Flow.attr := by
  unfold P.parseAttr Flow.attr
  refine Flows.bind Flows.u32 fun t _ h => ?_; subst h
  refine Flows.bind Flows.u32 fun s _ h => ?_; subst h
  refine Flows.ite (fun _ => Flows.fail _) (fun _ => ?_)
  intro p f hp hk
  have hlim : s.toNat - 4 < usizeLimit := by have := s.isLt; unfold usizeLimit; omega
  obtain ⟨hs, _⟩ := P.splitAt_takes hp hlim
  rcases Nat.lt_or_ge f.s.bytes.length (s.toNat - 4) with hlt | hle
  · have hle : ¬ s.toNat - 4 ≤ f.s.bytes.length := by omega
    rw [if_neg hle] at hs
    have h2 := Exhausts.splitAt LawfulEof.eof_law (s.toNat - 4) p f hp hk
    unfold Exhausted at h2
    rw [hs] at h2
    rw [P.bind_err (P.run_eq _ hs)]
    simp only [if_neg hle]
    exact ⟨trivial, h2, hk⟩
  rw [if_pos hle] at hs
  obtain ⟨rp, hres, hso, hrep, _⟩ := hs
  rw [P.bind_ok (P.run_eq _ hres)]
  simp only [if_pos hle]
  have hr := Refines.attrBody t s rp _ (hso.region hle).rep
  rcases hb : (Perf.attrBody t s : Spec Attr) (f.region (s.toNat - 4)) with e | ⟨a, g⟩
  · rw [hb] at hr
    cases e with
    | stuck => trivial
    | err e =>
      have hr : _ = _ := hr
      rw [P.bind_err (P.onChild_err (P.run_eq _ hr) _)]
      exact ⟨rfl, hrep, hk⟩
  · rw [hb] at hr
    obtain ⟨a', hr1, rfl, _⟩ := hr
    rw [P.bind_ok (P.onChild_ok (P.run_eq _ hr1) _)]
    exact ⟨⟨_, rfl, rfl⟩, hrep, hk⟩

/-! ## Records -/

/-- Close a goal for one step of a parser. -/
syntax "flows_leaf" : tactic
macro_rules | `(tactic| flows_leaf) => `(tactic| first
  | exact Flows.u64 | exact Flows.u32 | exact Flows.u16 | exact Flows.u8
  | exact Flows.config
  | (with_reducible refine Flows.parseIf_eq _ ?_; flows_leaf; done)
  | (with_reducible refine Flows.parseIf_via _ ?_; flows_leaf; done)
  | exact Flows.array _ | exact Flows.bytes _ | exact Flows.rest | exact Flows.restTrimNul)

/-- Close the goal left at the `pure` at the end. -/
macro "flows_end" : tactic =>
  `(tactic| first | rfl | ((try simp only [HasData, Via] at *); subst_vars; rfl))

/-- Walk through a `do` block on both sides. -/
macro "flows" : tactic => `(tactic| repeat' (first
  | exact Flows.fail _
  | (refine Flows.ret ?_; flows_end; done)
  | flows_leaf
  | refine Flows.seq (by flows_leaf) (fun _ _ h => ?_)
  | refine Flows.ite (fun _ => ?_) (fun _ => ?_)))

theorem Flows.mmap : Flows (Via Mmap.view) (parseMmap : P β (Mmap Cow)) parseMmap := by
  unfold parseMmap; flows
theorem Flows.lost : Flows Eq (parseLost : P β Lost) parseLost := by
  unfold parseLost; flows
theorem Flows.comm : Flows (Via Comm.view) (parseComm : P β (Comm Cow)) parseComm := by
  unfold parseComm; flows
theorem Flows.exit : Flows Eq (parseExit : P β Exit) parseExit := by
  unfold parseExit; flows
theorem Flows.throttle : Flows Eq (parseThrottle : P β Throttle) parseThrottle := by
  unfold parseThrottle; flows
theorem Flows.mmapDetail : Flows Eq (parseMmapDetail : P β MmapDetail) parseMmapDetail := by
  unfold parseMmapDetail
  refine Flows.seq Flows.config fun c _ h => ?_
  subst h
  refine Flows.ite (fun _ => ?_) fun _ => ?_
  · refine Flows.seq Flows.u8 fun _ _ h => ?_
    subst h
    refine Flows.seq Flows.u8 fun _ _ _ => Flows.seq Flows.u16 fun _ _ _ => ?_
    refine Flows.seq (Flows.array 20) fun _ _ h => ?_
    subst h
    flows
  · flows
macro_rules | `(tactic| flows_leaf) => `(tactic| exact Flows.mmapDetail)
theorem Flows.mmap2 : Flows (Via Mmap2.view) (parseMmap2 : P β (Mmap2 Cow)) parseMmap2 := by
  unfold parseMmap2; flows
theorem Flows.aux : Flows Eq (parseAux : P β Aux) parseAux := by
  unfold parseAux; flows
theorem Flows.itraceStart : Flows Eq (parseITraceStart : P β ITraceStart) parseITraceStart := by
  unfold parseITraceStart; flows
theorem Flows.lostSamples : Flows Eq (parseLostSamples : P β LostSamples) parseLostSamples := by
  unfold parseLostSamples; flows
theorem Flows.switchCpuWide : Flows Eq (parseSwitchCpuWide : P β SwitchCpuWide) parseSwitchCpuWide := by
  unfold parseSwitchCpuWide
  refine Flows.seq Flows.u32 fun _ _ h => Flows.seq Flows.u32 fun _ _ h' =>
    Flows.seq Flows.config fun _ _ h'' => ?_
  subst h h' h''
  flows
theorem Flows.ksymbol : Flows (Via KSymbol.view) (parseKSymbol : P β (KSymbol Cow)) parseKSymbol := by
  unfold parseKSymbol; flows
theorem Flows.bpfEvent : Flows Eq (parseBpfEvent : P β BpfEvent) parseBpfEvent := by
  unfold parseBpfEvent; flows
theorem Flows.cgroup : Flows (Via CGroup.view) (parseCGroup : P β (CGroup Cow)) parseCGroup := by
  unfold parseCGroup; flows
theorem Flows.auxOutputHwId : Flows Eq (parseAuxOutputHwId : P β AuxOutputHwId) parseAuxOutputHwId := by
  unfold parseAuxOutputHwId; flows
theorem Flows.header : Flows Eq (parseHeader : P β Header) parseHeader := by
  unfold parseHeader; flows
theorem Flows.textPoke : Flows (Via TextPoke.view) (parseTextPoke : P β (TextPoke Cow)) parseTextPoke := by
  unfold parseTextPoke
  refine Flows.seq Flows.u64 fun _ _ h => Flows.seq Flows.u16 fun _ _ h1 =>
    Flows.seq Flows.u16 fun _ _ h2 => ?_
  subst h h1 h2
  refine Flows.seq (Flows.bytes _) fun d l h => Flows.seq (Flows.splitAt h _) fun a c h => Flows.ret ?_
  obtain ⟨h1, h2⟩ := h
  unfold HasData at h1 h2
  show TextPoke.view _ = _
  unfold TextPoke.view
  simp only [h1, ParserM.cowTruncate, Cow.truncate_data, h2]
theorem Flows.namespaceEntry : Flows Eq (parseNamespaceEntry : P β NamespaceEntry) parseNamespaceEntry := by
  unfold parseNamespaceEntry; flows
theorem Flows.branchEntry : Flows Eq (parseBranchEntry : P β BranchEntry) parseBranchEntry := by
  unfold parseBranchEntry; flows
theorem Flows.u64s (n : Nat) : Flows HasData (ParserM.slice U64.elem parseU64 n : P β (Cow U64))
    (ParserM.slice U64.elem parseU64 n : Flow (List U64)) := by
  show Flows HasData (P.slice U64.elem parseU64 n) (Flow.slice U64.elem (Flow.erase parseU64) n)
  rw [Flow.erase_u64]
  exact Flows.slice LawfulEof.eof_law Refines.u64 ItemOk.u64 (Exhausts.u64 LawfulEof.eof_law) KeepsFin.u64 n
theorem Flows.entries (n : Nat) :
    Flows HasData (ParserM.slice NamespaceEntry.elem parseNamespaceEntry n : P β (Cow NamespaceEntry))
      (ParserM.slice NamespaceEntry.elem parseNamespaceEntry n : Flow (List NamespaceEntry)) := by
  show Flows HasData (P.slice NamespaceEntry.elem parseNamespaceEntry n) (Flow.slice NamespaceEntry.elem (Flow.erase parseNamespaceEntry) n)
  have law : EofLaw β := LawfulEof.eof_law
  have : Flow.erase (parseNamespaceEntry : Flow NamespaceEntry) = parseNamespaceEntry := by
    unfold parseNamespaceEntry; simp only [Flow.erase_seq, Flow.erase_u64, Flow.erase_ret]
  rw [this]
  exact Flows.slice law Refines.namespaceEntry ItemOk.namespaceEntry
    (by unfold parseNamespaceEntry; exact Exhausts.bind (Exhausts.u64 law) fun _ => Exhausts.bind (Exhausts.u64 law) fun _ => Exhausts.pure _)
    (by unfold parseNamespaceEntry; exact KeepsFin.bind KeepsFin.u64 fun _ => KeepsFin.bind KeepsFin.u64 fun _ => KeepsFin.pure _) n
theorem Flows.branches (n : Nat) :
    Flows HasData (ParserM.slice BranchEntry.elem parseBranchEntry n : P β (Cow BranchEntry))
      (ParserM.slice BranchEntry.elem parseBranchEntry n : Flow (List BranchEntry)) := by
  show Flows HasData (P.slice BranchEntry.elem parseBranchEntry n) (Flow.slice BranchEntry.elem (Flow.erase parseBranchEntry) n)
  have law : EofLaw β := LawfulEof.eof_law
  have : Flow.erase (parseBranchEntry : Flow BranchEntry) = parseBranchEntry := by
    unfold parseBranchEntry; simp only [Flow.erase_seq, Flow.erase_u64, Flow.erase_ret]
  rw [this]
  exact Flows.slice law Refines.branchEntry ItemOk.branchEntry
    (by unfold parseBranchEntry; exact Exhausts.bind (Exhausts.u64 law) fun _ => Exhausts.bind (Exhausts.u64 law) fun _ =>
      Exhausts.bind (Exhausts.u64 law) fun _ => Exhausts.pure _)
    (by unfold parseBranchEntry; exact KeepsFin.bind KeepsFin.u64 fun _ => KeepsFin.bind KeepsFin.u64 fun _ =>
      KeepsFin.bind KeepsFin.u64 fun _ => KeepsFin.pure _) n
theorem Flows.namespaces : Flows (Via Namespaces.view) (parseNamespaces : P β (Namespaces Cow)) parseNamespaces := by
  unfold parseNamespaces
  refine Flows.seq Flows.u32 fun _ _ h => Flows.seq Flows.u32 fun _ _ h1 =>
    Flows.seq Flows.u64 fun _ _ h2 => ?_
  subst h h1 h2
  exact Flows.seq (Flows.entries _) fun _ _ h => Flows.ret (by flows_end)
theorem Flows.cpu : Flows Eq (parseCpu : P β U32) parseCpu := by
  unfold parseCpu; flows
macro_rules | `(tactic| flows_leaf) => `(tactic| exact Flows.cpu)
theorem Flows.sampleId : Flows Eq (parseSampleId : P β SampleId) parseSampleId := by
  unfold parseSampleId
  refine Flows.seq Flows.config fun _ _ h => ?_
  subst h
  flows
theorem Flows.readValue : Flows Eq (parseReadValue : P β ReadValue) parseReadValue := by
  unfold parseReadValue
  refine Flows.seq Flows.config fun _ _ h => ?_
  subst h
  flows
macro_rules | `(tactic| flows_leaf) => `(tactic| exact Flows.readValue)
theorem Flows.read : Flows Eq (parseRead : P β Read) parseRead := by
  unfold parseRead; flows
theorem Flows.readGroup : Flows (Via ReadGroup.view) (parseReadGroup : P β (ReadGroup Cow)) parseReadGroup := by
  unfold parseReadGroup
  refine Flows.seq Flows.config fun _ _ h => ?_
  subst h
  refine Flows.ite (fun _ => Flows.fail _) fun _ => Flows.ite (fun _ => Flows.fail _) fun _ => ?_
  refine Flows.seq Flows.u64 fun _ _ h => ?_
  subst h
  refine Flows.seq (by flows_leaf) fun _ _ h => Flows.seq (by flows_leaf) fun _ _ h' => ?_
  subst h h'
  refine Flows.ite (fun _ => Flows.fail _) fun _ => ?_
  exact Flows.seq (Flows.u64s _) fun _ _ h => Flows.ret (by flows_end)
theorem Flows.registers (mask : U64) :
    Flows (Via Registers.view) (parseRegisters mask : P β (Registers Cow)) (parseRegisters mask) := by
  unfold parseRegisters
  exact Flows.seq Flows.u64 fun _ _ h => Flows.seq (Flows.u64s _) fun _ _ h' =>
    Flows.ret (by flows_end)
theorem Flows.registersUser :
    Flows (Via Registers.view) (parseRegistersUser : P β (Registers Cow)) parseRegistersUser := by
  unfold parseRegistersUser
  refine Flows.seq Flows.config fun _ _ h => ?_
  subst h
  exact Flows.registers _
theorem Flows.registersIntr :
    Flows (Via Registers.view) (parseRegistersIntr : P β (Registers Cow)) parseRegistersIntr := by
  unfold parseRegistersIntr
  refine Flows.seq Flows.config fun _ _ h => ?_
  subst h
  exact Flows.registers _
theorem Flows.values : Flows (Via ReadGroup.view) (parseValues : P β (ReadGroup Cow)) parseValues := by
  unfold parseValues
  refine Flows.seq Flows.config fun _ _ h => ?_
  subst h
  refine Flows.ite (fun _ => Flows.readGroup) fun _ => ?_
  exact Flows.seq Flows.readValue fun _ _ h => Flows.ret (by subst h; rfl)
theorem Flows.callchain : Flows (Via Cow.data) (parseCallchain : P β (Cow U64)) parseCallchain := by
  unfold parseCallchain
  refine Flows.seq Flows.u64 fun _ _ h => ?_
  subst h
  exact Flows.u64s _
theorem Flows.rawInner : Flows (Via Cow.data) (parseRawInner : P β (Cow Byte)) parseRawInner := by
  unfold parseRawInner
  refine Flows.seq Flows.u32 fun _ _ h => ?_
  subst h
  exact Flows.bytes _
theorem Flows.raw : Flows (Via Cow.data) (ParserM.padded 8 parseRawInner : P β (Cow Byte))
    (ParserM.padded 8 parseRawInner : Flow (List Byte)) := Flows.padded 8 Flows.rawInner
theorem Flows.lbr (b : Bool) : Flows (Via lbrView) (parseLbr b : P β (Cow BranchEntry × Option U64)) (parseLbr b) := by
  unfold parseLbr
  refine Flows.seq Flows.u64 fun _ _ h => Flows.seq (by flows_leaf) fun _ _ h' => ?_
  subst h h'
  exact Flows.seq (Flows.branches _) fun _ _ h => Flows.ret (by flows_end)
theorem Flows.auxData : Flows (Via Cow.data) (parseAuxData : P β (Cow Byte)) parseAuxData := by
  unfold parseAuxData
  refine Flows.seq Flows.u64 fun _ _ h => ?_
  subst h
  exact Flows.bytes _
theorem Flows.dynSize (size : U64) : Flows Eq (parseDynSize size : P β U64) (parseDynSize size) := by
  unfold parseDynSize
  exact Flows.ite (fun _ => Flows.ret rfl) fun _ => Flows.u64
theorem Flows.stackUser : Flows (Via Cow.data) (parseStackUser : P β (Cow Byte)) parseStackUser := by
  unfold parseStackUser
  refine Flows.seq Flows.u64 fun _ _ h => ?_
  subst h
  refine Flows.seq (Flows.bytes _) fun d l h => ?_
  refine Flows.seq (Flows.dynSize _) fun _ _ h' => ?_
  subst h'
  unfold HasData at h
  subst h
  refine Flows.ite (fun _ => Flows.fail _) fun _ => Flows.ret ?_
  exact Cow.truncate_data _ _
theorem Flows.sample : Flows (Via Sample.view) (parseSample : P β (Sample Cow)) parseSample := by
  unfold parseSample
  refine Flows.seq Flows.config fun cfg _ h => ?_
  subst h
  refine Flows.seq (Flows.parseIf_eq _ Flows.u64) fun _ _ h0 => ?_
  refine Flows.seq (Flows.parseIf_eq _ Flows.u64) fun _ _ h1 => ?_
  refine Flows.seq (Flows.parseIf_eq _ Flows.u32) fun _ _ h2 => ?_
  refine Flows.seq (Flows.parseIf_eq _ Flows.u32) fun _ _ h3 => ?_
  refine Flows.seq (Flows.parseIf_eq _ Flows.u64) fun _ _ h4 => ?_
  refine Flows.seq (Flows.parseIf_eq _ Flows.u64) fun _ _ h5 => ?_
  refine Flows.seq (Flows.parseIf_eq _ Flows.u64) fun _ _ h6 => ?_
  refine Flows.seq (Flows.parseIf_eq _ Flows.u64) fun _ _ h7 => ?_
  refine Flows.seq (Flows.parseIf_eq _ Flows.cpu) fun _ _ h8 => ?_
  refine Flows.seq (Flows.parseIf_eq _ Flows.u64) fun _ _ h9 => ?_
  refine Flows.seq (Flows.parseIf_via _ Flows.values) fun _ _ h10 => ?_
  refine Flows.seq (Flows.parseIf_via _ Flows.callchain) fun _ _ h11 => ?_
  refine Flows.seq (Flows.parseIf_via _ Flows.raw) fun _ _ h12 => ?_
  refine Flows.seq (Flows.parseIf_via _ (Flows.lbr _)) fun l _ h13 => ?_
  refine Flows.seq (Flows.parseIf_via _ Flows.registersUser) fun _ _ h14 => ?_
  refine Flows.seq (Flows.parseIf_via _ Flows.stackUser) fun _ _ h15 => ?_
  refine Flows.seq (Flows.parseIf_eq _ Flows.u64) fun _ _ h16 => ?_
  refine Flows.seq (Flows.parseIf_eq _ Flows.u64) fun _ _ h17 => ?_
  refine Flows.seq (Flows.parseIf_eq _ Flows.u64) fun _ _ h18 => ?_
  refine Flows.seq (Flows.parseIf_via _ Flows.registersIntr) fun _ _ h19 => ?_
  refine Flows.seq (Flows.parseIf_eq _ Flows.u64) fun _ _ h20 => ?_
  refine Flows.seq (Flows.parseIf_eq _ Flows.u64) fun _ _ h21 => ?_
  refine Flows.seq (Flows.parseIf_eq _ Flows.u64) fun _ _ h22 => ?_
  refine Flows.seq (Flows.parseIf_eq _ Flows.u64) fun _ _ h23 => ?_
  refine Flows.seq (Flows.parseIf_via _ Flows.auxData) fun _ _ h24 => ?_
  refine Flows.ret ?_
  unfold Via at *
  subst_vars
  cases l <;> rfl

theorem Flows.body (ty : U32) :
    Flows (Via Record.view) (parseBody ty : P β (Record Cow)) (parseBody ty) := by
  unfold parseBody
  have e : ∀ {α α' : Type} {R : α → α' → Prop} {m : P β α} {s : Flow α'} {k : α → Record Cow} {k' : α' → Record List},
      Flows R m s → (∀ a c, R a c → (k a).view = k' c) →
      Flows (Via Record.view) (m >>= fun r => Pure.pure (k r)) (s >>= fun r => Pure.pure (k' r)) :=
    fun h hk => Flows.seq h fun a c hr => Flows.ret (hk a c hr)
  split
  · exact e Flows.mmap fun a c h => congrArg Record.mmap h
  · exact e Flows.lost fun a c h => congrArg Record.lost h
  · exact e Flows.comm fun a c h => congrArg Record.comm h
  · exact e Flows.exit fun a c h => congrArg Record.exit h
  · exact e Flows.throttle fun a c h => congrArg Record.throttle h
  · exact e Flows.throttle fun a c h => congrArg Record.unthrottle h
  · exact e Flows.exit fun a c h => congrArg Record.fork h
  · exact e Flows.read fun a c h => congrArg Record.read h
  · exact e Flows.sample fun a c h => congrArg Record.sample h
  · exact e Flows.mmap2 fun a c h => congrArg Record.mmap2 h
  · exact e Flows.aux fun a c h => congrArg Record.aux h
  · exact e Flows.itraceStart fun a c h => congrArg Record.itraceStart h
  · exact e Flows.lostSamples fun a c h => congrArg Record.lostSamples h
  · exact e Flows.switchCpuWide fun a c h => congrArg Record.switchCpuWide h
  · exact e Flows.namespaces fun a c h => congrArg Record.namespaces h
  · exact e Flows.ksymbol fun a c h => congrArg Record.ksymbol h
  · exact e Flows.bpfEvent fun a c h => congrArg Record.bpfEvent h
  · exact e Flows.cgroup fun a c h => congrArg Record.cgroup h
  · exact e Flows.textPoke fun a c h => congrArg Record.textPoke h
  · exact e Flows.auxOutputHwId fun a c h => congrArg Record.auxOutputHwId h
  · exact e Flows.rest fun a c h => congrArg (Record.unknown ty) h

end Perf
