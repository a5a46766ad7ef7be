import Verif.Proof.FlowRec
/-!
# Programs that go on after an error: whole programs
-/
namespace Perf
variable {β : Type} [ParseBuf β] [Lawful β] {α γ T : Type}

theorem Flows.direct (n : Nat) : Flows Eq (P.sliceDirect U64.elem n : P β (Option (List U64))) Flow.direct := by
  intro p f hp hk
  unfold Flow.direct
  cases hn : f.cfg.endian.isNative with
  | true => rw [if_pos rfl]; trivial
  | false =>
    have hr : P.sliceDirect U64.elem n p = ⟨.ok none, p, []⟩ := by
      have hc : (P.config : P β ParseConfig) p = ⟨.ok p.config, p, []⟩ := rfl
      unfold P.sliceDirect
      rw [P.bind_nil hc, hp.cfg, hn]
      rfl
    rw [if_neg nofun, hr]
    exact ⟨⟨none, rfl, rfl⟩, hp, hk⟩

theorem Flows.call {β : Type} [ParseBuf β] [LawfulEof β] (c : Call T) : Flows Eq (c.run β) c.flow := by
  have law : EofLaw β := LawfulEof.eof_law
  cases c with
  | array n => exact Flows.array n
  | direct n => exact Flows.direct n
  | entries n => exact Flows.project (Flows.entries n) fun _ _ h => h
  | branches n => exact Flows.project (Flows.branches n) fun _ _ h => h
  | header => exact Flows.header
  | attr => exact Flows.attr
  | entry => exact Flows.namespaceEntry
  | branch => exact Flows.branchEntry
  | mmapDetail => exact Flows.mmapDetail
  | sampleId => exact Flows.sampleId
  | readValue => exact Flows.readValue
  | readGroup => exact Flows.project Flows.readGroup fun _ _ h => h
  | body ty => exact Flows.project (Flows.body ty) fun _ _ h => h
  | visit =>
    refine Flows.project (R := fun x y => (x.1.view, x.2) = y) (g := fun r : Record Cow × Metadata => (r.1.view, r.2))
      (Flows.bind (Flows.drain Refines.header (Exhausts.header law) KeepsFin.header) fun h _ e => ?_) fun _ _ h => h
    subst e
    exact Flows.recordWithHeader law h (Refines.visitPair h)
  | visitWith hd =>
    exact Flows.project (g := fun r : Record Cow × Metadata => (r.1.view, r.2)) (Flows.recordWithHeader law hd (Refines.visitPair hd))
      fun _ _ h => h

theorem Flows.prog (prog : Prog α) : ∀ (β : Type) [ParseBuf β] [Lawful β], EofLaw β → Flows Eq (prog.run β) prog.flow := by
  have e1 : ∀ {α A : Type} {β : Type} [ParseBuf β] [Lawful β] {m : P β A} {s : Flow A} {k : A → Prog α}, Flows Eq m s →
      (∀ x, Flows Eq ((k x).run β) (k x).flow) → Flows Eq (m >>= fun x => (k x).run β) (s.bind fun x => (k x).flow) :=
    fun h hk => Flows.bind h fun a c e => e ▸ hk a
  have e2 : ∀ {α A : Type} {β : Type} [ParseBuf β] [Lawful β] {m : P β (Cow A)} {s : Flow (List A)} {k : List A → Prog α},
      Flows HasData m s → (∀ x, Flows Eq ((k x).run β) (k x).flow) →
      Flows Eq (m >>= fun c => (k c.data).run β) (s.bind fun x => (k x).flow) :=
    fun h hk => Flows.bind h fun a c hd => by
      have : a.data = c := hd
      rw [this]; exact hk c
  induction prog with
  | done a => exact fun β _ _ _ => Flows.pure rfl
  | fail e => exact fun β _ _ _ => Flows.fail e
  | config k ih => exact fun β _ _ h => e1 Flows.config fun x => ih x β h
  | u8 k ih => exact fun β _ _ h => e1 (Flows.drain Refines.u8 (Exhausts.u8 h) KeepsFin.u8) fun x => ih x β h
  | u16 k ih => exact fun β _ _ h => e1 (Flows.drain Refines.u16 (Exhausts.u16 h) KeepsFin.u16) fun x => ih x β h
  | u32 k ih => exact fun β _ _ h => e1 (Flows.drain Refines.u32 (Exhausts.u32 h) KeepsFin.u32) fun x => ih x β h
  | u64 k ih => exact fun β _ _ h => e1 (Flows.drain Refines.u64 (Exhausts.u64 h) KeepsFin.u64) fun x => ih x β h
  | bytes n k ih => exact fun β _ _ h => e2 (Flows.drain (Refines.bytes n) (Exhausts.bytes h n) (KeepsFin.bytes n)) fun x => ih x β h
  | rest k ih =>
    intro β _ _ h
    letI : LawfulEof β := { eof_law := h }
    exact e2 (Flows.drain Refines.rest (Exhausts.rest h) KeepsFin.rest) fun x => ih x β h
  | restTrimNul k ih =>
    intro β _ _ h
    letI : LawfulEof β := { eof_law := h }
    exact e2 (Flows.drain Refines.restTrimNul (Exhausts.bind (Exhausts.rest h) fun _ => Exhausts.pure _)
      (KeepsFin.bind KeepsFin.rest fun _ => KeepsFin.pure _)) fun x => ih x β h
  | words n k ih =>
    exact fun β _ _ h => e2 (Flows.slice h Refines.u64 ItemOk.u64 (Exhausts.u64 h) KeepsFin.u64 n) fun x => ih x β h
  | repeated size item n k ihi ih => exact fun β _ _ h => e1 (Flows.repeated size (ihi β h) n) fun x => ih x β h
  | metadata body k ihb ih =>
    intro β _ _ h
    refine Flows.bind (Flows.metadata h) fun x y hx => ?_
    obtain ⟨hx1, hx2, hx3⟩ := hx
    rw [hx2]
    exact e1 (Flows.attemptOn (ihb Cursor LawfulEof.eof_law) hx1.rep hx3) fun r => ih _ r β h
  | metadataWith hd body k ihb ih =>
    intro β _ _ h
    refine Flows.bind (Flows.metadataWithHeader h hd) fun x y hx => ?_
    obtain ⟨hx1, hx2, hx3⟩ := hx
    rw [hx2]
    exact e1 (Flows.attemptOn (ihb Cursor LawfulEof.eof_law) hx1.rep hx3) fun r => ih _ r β h
  | call c k ih =>
    intro β _ _ h
    letI : LawfulEof β := { eof_law := h }
    exact e1 (Flows.call c) fun x => ih x β h
  | record k ih =>
    intro β _ _ h
    refine Flows.bind (Flows.record h) fun x y hx => ?_
    rw [hx]
    exact ih _ β h
  | attempt m k ihm ih => exact fun β _ _ h => e1 (Flows.attempt (ihm β h)) fun x => ih x β h

/-! ## Independence of the chunks -/

/-- The outcome, the number of bytes consumed and the bytes left depend on the bytes only, wherever they are specified. -/
def IndF (s : Flow α) : Prop := ∀ f g, SameBytes f g → f.cfg.Wf → s f ≠ none → s g ≠ none →
  ∃ r f' g', s f = some (r, f') ∧ s g = some (r, g') ∧ f'.off + g.off = g'.off + f.off ∧ SameBytes f' g' ∧ f'.cfg.Wf

theorem IndF.pure (a : α) : IndF (Flow.pure a) := fun f g h hw _ _ => ⟨.ok a, f, g, rfl, rfl, Nat.add_comm _ _, h, hw⟩
theorem IndF.fail (e : ParseError) : IndF (Flow.fail e : Flow α) := fun f g h hw _ _ => ⟨.error e, f, g, rfl, rfl, Nat.add_comm _ _, h, hw⟩
theorem IndF.config : IndF Flow.config := fun f g h hw _ _ => ⟨.ok f.cfg, f, g, rfl, by unfold Flow.config; rw [h.cfg], Nat.add_comm _ _, h, hw⟩

theorem IndF.direct : IndF Flow.direct := by
  intro f g h hw hf hg
  unfold Flow.direct at *
  rw [← h.cfg] at hg ⊢
  cases hn : f.cfg.endian.isNative with
  | true => rw [hn] at hf; exact absurd rfl hf
  | false => exact ⟨.ok none, f, g, rfl, rfl, Nat.add_comm _ _, h, hw⟩

theorem IndF.bind {s : Flow α} {k : α → Flow γ} (h : IndF s) (hk : ∀ a, IndF (k a)) : IndF (s.bind k) := by
  intro f g hs hw h1 h2
  have n1 : s f ≠ none := fun e => h1 (by unfold Flow.bind; rw [e])
  have n2 : s g ≠ none := fun e => h2 (by unfold Flow.bind; rw [e])
  obtain ⟨r, f', g', a, b, ho, hs', hw'⟩ := h f g hs hw n1 n2
  unfold Flow.bind at *
  rw [a] at h1 ⊢
  rw [b] at h2 ⊢
  cases r with
  | error e => exact ⟨_, _, _, rfl, rfl, ho, hs', hw'⟩
  | ok x =>
    obtain ⟨y, i, j, c1, c2, c3, c4⟩ := hk x f' g' hs' hw' h1 h2
    exact ⟨y, i, j, c1, c2, by omega, c4⟩

theorem IndF.ite {c : Prop} [Decidable c] {s s' : Flow α} (h : IndF s) (h' : IndF s') : IndF (if c then s else s') := by
  split
  · exact h
  · exact h'

theorem IndF.drain {s : Spec α} (h : Ind s) : IndF (Flow.drain s) := by
  intro f g hs hw h1 h2
  have n1 : s f ≠ .error .stuck := fun e => h1 (by unfold Flow.drain; rw [e])
  have n2 : s g ≠ .error .stuck := fun e => h2 (by unfold Flow.drain; rw [e])
  rcases h f g hs hw n1 n2 with ⟨e, a, b⟩ | ⟨x, f', g', a, b, h3, h4⟩
  · refine ⟨.error e, f.adv f.s.bytes.length, g.adv g.s.bytes.length, by unfold Flow.drain; rw [a], by unfold Flow.drain; rw [b],
      by simp only [Flat.adv, hs.bytes]; omega, ?_, hw⟩
    rw [hs.bytes]; exact hs.adv _
  · exact ⟨.ok x, _, _, by unfold Flow.drain; rw [a], by unfold Flow.drain; rw [b], h3, h4⟩

theorem IndF.framed {s : Spec α} {h : Header} (hi : Ind s) : IndF (Flow.framed h s) := by
  intro f g hs hw h1 h2
  have n1 : s f ≠ .error .stuck := fun e => h1 (by unfold Flow.framed; rw [e])
  have n2 : s g ≠ .error .stuck := fun e => h2 (by unfold Flow.framed; rw [e])
  rcases hi f g hs hw n1 n2 with ⟨e, a, b⟩ | ⟨x, f', g', a, b, h3, h4⟩
  · refine ⟨.error e, _, _, by unfold Flow.framed; rw [a], by unfold Flow.framed; rw [b], ?_, ?_, by split <;> exact hw⟩
    · rw [hs.bytes]
      split
      · exact Nat.add_comm _ _
      · simp only [Flat.adv]; omega
    · rw [hs.bytes]
      split
      · exact hs
      · exact hs.adv _
  · exact ⟨.ok x, _, _, by unfold Flow.framed; rw [a], by unfold Flow.framed; rw [b], h3, h4⟩

theorem IndF.u16 : IndF (parseU16 : Flow U16) :=
  IndF.bind (IndF.drain (Ind.bytes 2)) fun _ => IndF.bind IndF.config fun _ => IndF.pure _
theorem IndF.u32 : IndF (parseU32 : Flow U32) :=
  IndF.bind (IndF.drain (Ind.bytes 4)) fun _ => IndF.bind IndF.config fun _ => IndF.pure _
theorem IndF.u64 : IndF (parseU64 : Flow U64) :=
  IndF.bind (IndF.drain (Ind.bytes 8)) fun _ => IndF.bind IndF.config fun _ => IndF.pure _

theorem IndF.repeated {item : Flow T} (h : IndF item) : ∀ n, IndF (Flow.repeated item n)
  | 0 => IndF.pure _
  | n + 1 => IndF.bind h fun _ => IndF.bind (IndF.repeated h n) fun _ => IndF.pure _

theorem IndF.slice {e : Elem T} {item : Spec T} (h : Ind item) (n : Nat) : IndF (Flow.slice e item n) := by
  intro f g hs hw
  have h1 := IndF.drain (Ind.slice (e := e) h n) f g hs hw
  unfold Flow.slice
  rw [← hs.cfg]
  by_cases hb : f.cfg.endian.isNative = true ∧ n * e.size ≥ usizeLimit
  · simp only [if_pos hb]
    exact fun _ _ => ⟨_, _, _, rfl, rfl, Nat.add_comm _ _, hs, hw⟩
  · simp only [if_neg hb]
    exact h1

/-- The metadata comes with bodies that hold the same bytes. -/
def IndFSub (s : Flow (Flat × Metadata)) : Prop := ∀ f g, SameBytes f g → f.cfg.Wf →
  (∃ e f' g', s f = some (.error e, f') ∧ s g = some (.error e, g') ∧ f'.off + g.off = g'.off + f.off ∧ SameBytes f' g' ∧ f'.cfg.Wf) ∨
  ∃ r r' md f' g', s f = some (.ok (r, md), f') ∧ s g = some (.ok (r', md), g') ∧ SameBytes r r' ∧
    r.cfg.Wf ∧ f'.off + g.off = g'.off + f.off ∧ SameBytes f' g' ∧ f'.cfg.Wf

theorem IndFSub.metadataWithHeader (hd : Header) : IndFSub (Flow.framed hd (Spec.metadataWithHeader hd)) := by
  intro f g h hw
  unfold Flow.framed
  rcases IndSub.metadataWithHeader hd f g h hw with ⟨e, h2, h3⟩ | ⟨r, r', md, i, j, h2, h3, h4, _, _, h5, h6, h7, h8⟩
  · rw [h2, h3]
    refine .inl ⟨e, _, _, rfl, rfl, ?_, ?_, by split <;> exact hw⟩
    · rw [h.bytes]
      split
      · exact Nat.add_comm _ _
      · simp only [Flat.adv]; omega
    · rw [h.bytes]
      split
      · exact h
      · exact h.adv _
  · rw [h2, h3]
    exact .inr ⟨_, _, _, _, _, rfl, rfl, h4.same, h5, h6, h7, h8⟩

theorem IndFSub.metadata : IndFSub Flow.metadata := by
  intro f g h hw
  have t := NoStuck.header
  rcases Ind.header f g h hw (t f) (t g) with ⟨e, a, b⟩ | ⟨hd, f1, g1, a, b, ho, h1, hw1⟩
  · refine .inl ⟨e, f.adv f.s.bytes.length, g.adv g.s.bytes.length, by unfold Flow.metadata Flow.bind Flow.drain; rw [a],
      by unfold Flow.metadata Flow.bind Flow.drain; rw [b], by simp only [Flat.adv, h.bytes]; omega, ?_, hw⟩
    rw [h.bytes]; exact h.adv _
  · have ef : Flow.metadata f = Flow.framed hd (Spec.metadataWithHeader hd) f1 := by unfold Flow.metadata Flow.bind Flow.drain; rw [a]
    have eg : Flow.metadata g = Flow.framed hd (Spec.metadataWithHeader hd) g1 := by unfold Flow.metadata Flow.bind Flow.drain; rw [b]
    rw [ef, eg]
    rcases IndFSub.metadataWithHeader hd f1 g1 h1 hw1 with ⟨e, f', g', c1, c2, c3, c4⟩ | ⟨r, r', md, f', g', c1, c2, c3, c4, c5, c6⟩
    · exact .inl ⟨e, f', g', c1, c2, by omega, c4⟩
    · exact .inr ⟨r, r', md, f', g', c1, c2, c3, c4, by omega, c6⟩

theorem IndFSub.then {s : Flow (Flat × Metadata)} (h : IndFSub s) {body : Flow T} (hb : IndF body)
    {k : Metadata → Except ParseError T → Flow α} (hk : ∀ md r, IndF (k md r)) :
    IndF (s.bind fun x => (Flow.attemptOn x.1 body).bind fun r => k x.2 r) := by
  intro f g hs hw
  unfold Flow.bind
  rcases h f g hs hw with ⟨e, f', g', a, b, h1⟩ | ⟨r, r', md, f', g', a, b, h1, h2, h3, h4, h5⟩
  · rw [a, b]; exact fun _ _ => ⟨_, _, _, rfl, rfl, h1⟩
  · rw [a, b]
    dsimp only
    intro n1 n2
    have m1 : body r ≠ none := fun e => n1 (by unfold Flow.attemptOn; rw [e])
    have m2 : body r' ≠ none := fun e => n2 (by unfold Flow.attemptOn; rw [e])
    obtain ⟨x, i, j, hx, hy, _, _⟩ := hb r r' h1 h2 m1 m2
    unfold Flow.attemptOn at *
    rw [hx] at n1 ⊢
    rw [hy] at n2 ⊢
    obtain ⟨y, i, j, c1, c2, c3, c4⟩ := hk md x f' g' h4 h5 n1 n2
    exact ⟨y, i, j, c1, c2, by omega, c4⟩

theorem IndF.padded {s : Flow α} (h : IndF s) : IndF (Flow.padded 8 s) := by
  intro f g hs hw n1 n2
  have m1 : s f ≠ none := fun e => n1 (by unfold Flow.padded; rw [if_neg (by decide), e])
  have m2 : s g ≠ none := fun e => n2 (by unfold Flow.padded; rw [if_neg (by decide), e])
  obtain ⟨x, f', g', a, b, ho, hs', hw'⟩ := h f g hs hw m1 m2
  unfold Flow.padded at *
  rw [if_neg (by decide), a] at n1 ⊢
  rw [if_neg (by decide), b] at n2 ⊢
  cases x with
  | error e => exact ⟨_, _, _, rfl, rfl, ho, hs', hw'⟩
  | ok x =>
    have hd : g'.off - g.off = f'.off - f.off := by omega
    dsimp only at *
    rw [hd] at n2 ⊢
    by_cases h0 : (f'.off - f.off) % 8 = 0
    · rw [if_pos h0, if_pos h0]; exact ⟨_, _, _, rfl, rfl, ho, hs', hw'⟩
    · rw [if_neg h0] at n1 n2 ⊢
      rw [if_neg h0]
      obtain ⟨y, i, j, c1, c2, c3, c4⟩ := IndF.bind (IndF.drain (Ind.take (8 - (f'.off - f.off) % 8))) (fun _ => IndF.pure x) f' g' hs' hw' n1 n2
      exact ⟨y, i, j, c1, c2, by omega, c4⟩

theorem IndF.splitAt (l : List T) (n : Nat) : IndF (Flow.splitAt l n) := by
  intro f g hs hw n1 n2
  unfold Flow.splitAt at *
  by_cases h : l ≠ [] ∧ (n = 0 ∨ n ≥ l.length) ∨ n > l.length
  · rw [if_pos h] at n1; exact absurd rfl n1
  · rw [if_neg h, if_neg h]; exact ⟨_, _, _, rfl, rfl, Nat.add_comm _ _, hs, hw⟩

theorem IndF.erase {s : Flow α} (h : IndF s) : Ind (Flow.erase s) := by
  intro f g hs hw n1 n2
  have m1 : s f ≠ none := fun e => n1 (by unfold Flow.erase; rw [e])
  have m2 : s g ≠ none := fun e => n2 (by unfold Flow.erase; rw [e])
  obtain ⟨x, f', g', a, b, hr⟩ := h f g hs hw m1 m2
  unfold Flow.erase
  rw [a, b]
  cases x with
  | error e => exact .inl ⟨e, rfl, rfl⟩
  | ok x => exact .inr ⟨x, f', g', rfl, rfl, hr⟩

theorem IndF.kept : Kept (M := Flow) (C := List) IndF where
  pure := IndF.pure
  bind := IndF.bind
  fail := IndF.fail
  config := IndF.config
  array n := IndF.drain (Ind.bytes n)
  bytes n := IndF.drain (Ind.bytes n)
  rest := IndF.drain Ind.rest
  restTrimNul := IndF.drain (Ind.bind Ind.rest fun _ => Ind.pure _)
  padded := IndF.padded
  slice _ n h := IndF.slice h.erase n
  textPoke := IndF.bind (IndF.u64) fun _ => IndF.bind IndF.u16 fun _ => IndF.bind IndF.u16 fun _ => IndF.bind (IndF.drain (Ind.bytes _)) fun _ =>
    IndF.bind (IndF.splitAt _ _) fun _ => IndF.pure _

theorem IndF.attr : IndF Flow.attr := by
  refine IndF.bind IndF.u32 fun t => IndF.bind IndF.u32 fun n => IndF.ite (IndF.fail _) fun f g h hw n1 n2 => ?_
  have hb := Ind.kept.attrBody t n (f.region (n.toNat - 4)) (g.region (n.toNat - 4)) (h.region _) hw (NoStuck.attrBody t n _)
    (NoStuck.attrBody t n _)
  rw [← h.bytes, ← h.fin]
  by_cases hl : n.toNat - 4 ≤ f.s.bytes.length
  · simp only [if_pos hl]
    rcases hb with ⟨e, a, b⟩ | ⟨x, i, j, a, b, _⟩
    · rw [a, b]; exact ⟨_, _, _, rfl, rfl, by simp only [Flat.adv]; omega, h.adv _, hw⟩
    · rw [a, b]; exact ⟨_, _, _, rfl, rfl, by simp only [Flat.adv]; omega, h.adv _, hw⟩
  · simp only [if_neg hl]; exact ⟨_, _, _, rfl, rfl, by simp only [Flat.adv]; omega, h.adv _, hw⟩

theorem IndF.call (c : Call T) : IndF c.flow := by
  have k := IndF.kept
  cases c with
  | array n => exact k.array n
  | direct n => exact IndF.direct
  | entries n => exact k.slice _ n k.namespaceEntry
  | branches n => exact k.slice _ n k.branchEntry
  | header => exact k.header
  | attr => exact IndF.attr
  | entry => exact k.namespaceEntry
  | branch => exact k.branchEntry
  | mmapDetail => exact k.mmapDetail
  | sampleId => exact k.sampleId
  | readValue => exact k.readValue
  | readGroup => exact k.readGroup
  | body ty => exact k.body ty
  | visit => exact IndF.bind (IndF.drain Ind.header) fun h => IndF.framed (Ind.recordWithHeader h)
  | visitWith h => exact IndF.framed (Ind.recordWithHeader h)

theorem IndF.attempt {s : Flow α} (h : IndF s) : IndF (Flow.attempt s) := by
  intro f g hs hw h1 h2
  have n1 : s f ≠ none := fun e => h1 (by unfold Flow.attempt; rw [e])
  have n2 : s g ≠ none := fun e => h2 (by unfold Flow.attempt; rw [e])
  obtain ⟨r, f', g', a, b, h3⟩ := h f g hs hw n1 n2
  exact ⟨.ok r, f', g', by unfold Flow.attempt; rw [a], by unfold Flow.attempt; rw [b], h3⟩

theorem IndF.prog (prog : Prog α) : IndF prog.flow := by
  induction prog with
  | done a => exact IndF.pure a
  | fail e => exact IndF.fail e
  | config k ih => exact IndF.bind IndF.config ih
  | u8 k ih => exact IndF.bind (IndF.drain Ind.u8) ih
  | u16 k ih => exact IndF.bind (IndF.drain Ind.u16) ih
  | u32 k ih => exact IndF.bind (IndF.drain Ind.u32) ih
  | u64 k ih => exact IndF.bind (IndF.drain Ind.u64) ih
  | bytes n k ih => exact IndF.bind (IndF.drain (Ind.bytes n)) ih
  | rest k ih => exact IndF.bind (IndF.drain Ind.rest) ih
  | restTrimNul k ih => exact IndF.bind (IndF.drain (Ind.bind Ind.rest fun _ => Ind.pure _)) ih
  | words n k ih => exact IndF.bind (IndF.slice Ind.u64 n) ih
  | repeated size item n k ihi ih => exact IndF.bind (IndF.repeated ihi n) ih
  | metadata body k ihb ih => exact IndFSub.metadata.then ihb ih
  | metadataWith h body k ihb ih => exact (IndFSub.metadataWithHeader h).then ihb ih
  | call c k ih => exact IndF.bind (IndF.call c) ih
  | record k ih =>
    exact IndF.bind (IndF.bind (IndF.drain Ind.header) fun h => IndF.framed (Ind.recordWithHeader h)) fun r => ih r.1
  | attempt m k ihm ih => exact IndF.bind (IndF.attempt ihm) ih

/-! ## Where everything is specified -/

def Total (s : Flow α) : Prop := ∀ f, s f ≠ none

theorem Total.bind {s : Flow α} {k : α → Flow γ} (h : Total s) (hk : ∀ a, Total (k a)) : Total (s.bind k) := by
  intro f
  unfold Flow.bind
  rcases hs : s f with _ | ⟨e | a, f'⟩
  · exact absurd hs (h f)
  · nofun
  · exact hk a f'

theorem Total.pure (a : α) : Total (Flow.pure a) := fun _ => nofun
theorem Total.drain {s : Spec α} (h : NoStuck s) : Total (Flow.drain s) := by
  intro f
  unfold Flow.drain
  rcases hs : s f with e | ⟨a, f'⟩
  · cases e with
    | stuck => exact absurd hs (h f)
    | err e => nofun
  · nofun

theorem Total.framed {s : Spec α} {h : Header} (hs : NoStuck s) : Total (Flow.framed h s) := by
  intro f
  have := hs f
  unfold Flow.framed
  rcases hf : s f with e | ⟨a, f'⟩
  · cases e with
    | stuck => exact absurd hf this
    | err e => nofun
  · nofun

theorem Total.metadata : Total Flow.metadata :=
  Total.bind (Total.drain NoStuck.header) fun h => Total.framed (NoStuck.metadataWithHeader h)

theorem Total.attemptOn {s : Flow T} (h : Total s) (r : Flat) : Total (Flow.attemptOn r s) := by
  intro f
  unfold Flow.attemptOn
  rcases hs : s r with _ | ⟨x, g⟩
  · exact absurd hs (h r)
  · nofun

theorem Total.ite {c : Prop} [Decidable c] {s s' : Flow α} (h : Total s) (h' : Total s') : Total (if c then s else s') := by
  split
  · exact h
  · exact h'

theorem Total.fail (e : ParseError) : Total (Flow.fail e : Flow α) := fun _ => nofun
theorem Total.config : Total Flow.config := fun _ => nofun
theorem Total.seq {s : Flow α} {k : α → Flow γ} (h : Total s) (hk : ∀ a, Total (k a)) : Total (s >>= k) := Total.bind h hk
theorem Total.array (n : Nat) : Total (ParserM.array n : Flow (List Byte)) := Total.drain (NoStuck.bytes n)
theorem Total.rest : Total (ParserM.rest : Flow (List Byte)) := Total.drain NoStuck.rest
theorem Total.restTrimNul : Total (ParserM.restTrimNul : Flow (List Byte)) := Total.drain NoStuck.restTrimNul
theorem Total.u8 : Total (parseU8 : Flow U8) := Total.seq (Total.array 1) fun _ => Total.pure _
theorem Total.u16 : Total (parseU16 : Flow U16) := Total.seq (Total.array 2) fun _ => Total.seq Total.config fun _ => Total.pure _
theorem Total.u32 : Total (parseU32 : Flow U32) := Total.seq (Total.array 4) fun _ => Total.seq Total.config fun _ => Total.pure _
theorem Total.u64 : Total (parseU64 : Flow U64) := Total.seq (Total.array 8) fun _ => Total.seq Total.config fun _ => Total.pure _
theorem Total.parseIf {s : Flow α} (c : Bool) (h : Total s) : Total (Perf.parseIf c s) := by
  cases c with
  | true => exact Total.seq h fun _ => Total.pure _
  | false => exact Total.pure _

/-- Walk through a parser without lists and splits. -/
macro "total" : tactic => `(tactic| repeat first
  | exact Total.u64
  | exact Total.u32
  | exact Total.u16
  | exact Total.u8
  | exact Total.config
  | exact Total.array _
  | exact Total.rest
  | exact Total.restTrimNul
  | exact Total.fail _
  | exact Total.pure _
  | with_reducible refine Total.parseIf _ ?_
  | refine Total.ite ?_ ?_
  | refine Total.seq ?_ fun _ => ?_)

theorem Total.readValue : Total (parseReadValue : Flow ReadValue) := by unfold parseReadValue; total

theorem Total.body {ty : U32} (h : ty.toNat ∉ [9, 16, 20]) : Total (parseBody ty : Flow (Record List)) := by
  simp only [List.mem_cons, List.not_mem_nil, or_false, not_or] at h
  obtain ⟨h9, h16, h20⟩ := h
  unfold parseBody
  split
  all_goals first
    | contradiction
    | skip
  all_goals refine Total.seq ?_ fun _ => Total.pure _
  all_goals repeat first
    | exact Total.readValue
    | exact Total.u64
    | exact Total.u32
    | exact Total.u16
    | exact Total.u8
    | exact Total.config
    | exact Total.array _
    | exact Total.rest
    | exact Total.restTrimNul
    | exact Total.fail _
    | exact Total.pure _
    | refine Total.ite ?_ ?_
    | refine Total.seq ?_ fun _ => ?_

theorem Total.attr : Total Flow.attr := by
  refine Total.bind Total.u32 fun t => Total.bind Total.u32 fun n => Total.ite (Total.fail _) fun f => ?_
  have h := NoStuck.attrBody t n (f.region (n.toNat - 4))
  by_cases hl : n.toNat - 4 ≤ f.s.bytes.length
  · simp only [if_pos hl]
    rcases hb : (Perf.attrBody t n : Spec Attr) (f.region (n.toNat - 4)) with e | ⟨a, g⟩
    · cases e with
      | stuck => exact absurd hb h
      | err e => nofun
    · nofun
  · simp only [if_neg hl]; nofun

theorem Total.call (c : Call T) (h : c.Plain) : Total c.flow := by
  cases c with
  | array n => exact Total.array n
  | direct n => exact h.elim
  | entries n => exact h.elim
  | branches n => exact h.elim
  | header => unfold Call.flow parseHeader; total
  | attr => exact Total.attr
  | entry => unfold Call.flow parseNamespaceEntry; total
  | branch => unfold Call.flow parseBranchEntry; total
  | mmapDetail => unfold Call.flow parseMmapDetail; total
  | sampleId => unfold Call.flow parseSampleId parseCpu; total
  | readValue => exact Total.readValue
  | readGroup => exact h.elim
  | body ty => exact Total.body h
  | visit => exact h.elim
  | visitWith hd => exact Total.framed (NoStuck.recordWithHeader h)

theorem Total.prog (prog : Prog α) : prog.Bare → Total prog.flow := by
  induction prog with
  | done a => exact fun _ => Total.pure a
  | fail e => exact fun _ _ => nofun
  | config k ih => exact fun h => Total.bind (fun _ => nofun) fun x => ih x (h x)
  | u8 k ih => exact fun h => Total.bind (Total.drain NoStuck.u8) fun x => ih x (h x)
  | u16 k ih => exact fun h => Total.bind (Total.drain NoStuck.u16) fun x => ih x (h x)
  | u32 k ih => exact fun h => Total.bind (Total.drain NoStuck.u32) fun x => ih x (h x)
  | u64 k ih => exact fun h => Total.bind (Total.drain NoStuck.u64) fun x => ih x (h x)
  | bytes n k ih => exact fun h => Total.bind (Total.drain (NoStuck.bytes n)) fun x => ih x (h x)
  | rest k ih => exact fun h => Total.bind (Total.drain NoStuck.rest) fun x => ih x (h x)
  | restTrimNul k ih => exact fun h => Total.bind (Total.drain NoStuck.restTrimNul) fun x => ih x (h x)
  | words n k ih => exact fun h => h.elim
  | repeated size item n k ihi ih =>
    intro h
    refine Total.bind ?_ fun x => ih x (h.2 x)
    have : ∀ n, Total (Flow.repeated item.flow n) := by
      intro n
      induction n with
      | zero => exact Total.pure _
      | succ n ihn => exact Total.bind (ihi h.1) fun _ => Total.bind ihn fun _ => Total.pure _
    exact this n
  | metadata body k ihb ih =>
    intro h
    exact Total.bind Total.metadata fun x => Total.bind (Total.attemptOn (ihb h.1) x.1) fun r => ih x.2 r (h.2 x.2 r)
  | metadataWith hd body k ihb ih =>
    intro h
    exact Total.bind (Total.framed (NoStuck.metadataWithHeader hd)) fun x => Total.bind (Total.attemptOn (ihb h.1) x.1) fun r =>
      ih x.2 r (h.2 x.2 r)
  | call c k ih => exact fun h => Total.bind (Total.call c h.1) fun x => ih x (h.2 x)
  | record k ih => exact fun h => h.elim
  | attempt m k ihm ih =>
    intro h
    refine Total.bind (fun f => ?_) fun r => ih r (h.2 r)
    unfold Flow.attempt
    rcases hs : m.flow f with _ | ⟨r, g⟩
    · exact absurd hs (ihm h.1 f)
    · nofun

end Perf
