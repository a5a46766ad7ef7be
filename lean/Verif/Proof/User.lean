import Verif.Spec.User
import Verif.Proof.Inv
import Verif.Proof.Align
import Verif.Proof.Attr
import Verif.Proof.Kept
import Verif.Props.Chunking
/-!
# Programs over the public interface: safety, refinement, independence of the buffer
-/
namespace Perf
variable {β : Type} [ParseBuf β] [Lawful β] {α α' T : Type}

/-! ## Buffers that always stand for something -/

/-- After any operation, also a failed one, the buffer stands for some stream: what comes after an error may be anything. -/
class Roaming (β : Type) [ParseBuf β] [Lawful β] : Prop where
  chunk : ∀ (b : β) s, Lawful.Rep b s → ∃ s', Lawful.Rep (ParseBuf.chunk b).2 s'
  advance : ∀ (b : β) s n b', Lawful.Rep b s → ParseBuf.advance b n = some b' → ∃ s', Lawful.Rep b' s'

instance : Roaming Slice where
  chunk _ s h := ⟨s, h⟩
  advance _ _ _ b' _ _ := ⟨⟨b'.data, .unknown, .eof⟩, rfl, rfl, trivial⟩

theorem BufReader.rep_total (b : BufReader) : ∃ s, Lawful.Rep b s := by
  obtain ⟨rest, fin, h⟩ := BufReader.Script.total b.script
  exact ⟨⟨b.buf ++ rest, .unknown, fin⟩, rest, h, rfl⟩

instance : Roaming BufReader where
  chunk _ _ _ := BufReader.rep_total _
  advance _ _ _ b' _ _ := BufReader.rep_total b'

theorem ChunksAl.unknown : ∀ cs, ChunksAl .unknown cs
  | [] => trivial
  | _ :: cs => ⟨trivial, ChunksAl.unknown cs⟩

theorem ChunkBuf.advLoop_nonempty : ∀ (ps : List Slice) (n : Nat), (∀ d ∈ ps, d.data ≠ []) → ∀ d ∈ ChunkBuf.advLoop ps n, d.data ≠ []
  | [], _, _ => nofun
  | p :: ps, n, h => by
    unfold ChunkBuf.advLoop
    split
    · rename_i hn
      intro d hd
      rcases List.mem_cons.1 hd with rfl | hd
      · intro he
        have := congrArg List.length he
        simp at this; omega
      · exact h d (List.mem_cons_of_mem _ hd)
    · exact ChunkBuf.advLoop_nonempty ps _ fun d hd => h d (List.mem_cons_of_mem _ hd)

instance : Roaming ChunkBuf where
  chunk _ s h := ⟨s, h⟩
  advance _ _ _ b' h hb := by
    cases hb
    exact ⟨⟨_, .unknown, .eof⟩, rfl, rfl, ChunkBuf.advLoop_nonempty _ _ h.nonempty, ChunksAl.unknown _⟩

theorem Cursor.slowLoop_spec : ∀ (cs : List Chunk) (off : Nat),
    (∀ d ∈ (Cursor.slowLoop cs off).1, d ∈ cs) ∧ chunkBytes (Cursor.slowLoop cs off).1 ≤ chunkBytes cs ∧
    match (Cursor.slowLoop cs off).1 with
    | [] => True
    | d :: _ => (Cursor.slowLoop cs off).2 < d.data.length
  | [], _ => ⟨fun _ h => h, Nat.le_refl _, trivial⟩
  | c :: cs, off => by
    unfold Cursor.slowLoop
    split
    · rename_i h
      exact ⟨fun _ h => h, Nat.le_refl _, h⟩
    · obtain ⟨h1, h2, h3⟩ := Cursor.slowLoop_spec cs (off - c.data.length)
      exact ⟨fun d hd => List.mem_cons_of_mem _ (h1 d hd), by simp only [chunkBytes]; omega, h3⟩

theorem Cursor.slow_rep {c c' : Cursor} (hne : ∀ d ∈ c.chunks, d.data ≠ []) (hb : chunkBytes c.chunks ≤ c.len) (hl : c.len < usizeLimit)
    (h : c.advanceSlow = some c') : ∃ s', Cursor.Rep c' s' := by
  unfold Cursor.advanceSlow at h
  obtain ⟨h1, h2, h3⟩ := Cursor.slowLoop_spec c.chunks c.offset
  generalize Cursor.slowLoop c.chunks c.offset = x at h h1 h2 h3
  obtain ⟨cs, off⟩ := x
  cases cs with
  | nil =>
    dsimp only at h
    split at h
    · rename_i h0
      cases h
      exact ⟨⟨_, .unknown, .eof⟩, rfl, rfl, nofun, h0, Nat.zero_le _, hl, .unknown, rfl, trivial⟩
    · cases h
  | cons d ds =>
    cases h
    exact ⟨⟨_, .unknown, .eof⟩, rfl, rfl, fun e he => hne e (h1 e he), h3, Nat.le_trans h2 hb, hl, .unknown, rfl, ChunksAl.unknown _⟩

instance : Roaming Cursor where
  chunk _ s h := ⟨s, h⟩
  advance c _ n c' h hc := by
    obtain ⟨_, _, hne, hin, hb, hl, _⟩ := h
    have hc : c.advance n = some c' := hc
    unfold Cursor.advance at hc
    split at hc
    · cases hc
    · split at hc
      · cases hc
      · dsimp only at hc
        split at hc
        · rename_i d ds hd
          split at hc
          · rename_i hlt
            cases hc
            exact ⟨⟨_, .unknown, .eof⟩, rfl, rfl, hne, by dsimp only; rw [hd]; exact hlt, hb, hl, .unknown, rfl, ChunksAl.unknown _⟩
          · exact Cursor.slow_rep (c := { c with offset := c.offset + n }) hne hb hl hc
        · exact Cursor.slow_rep (c := { c with offset := c.offset + n }) hne hb hl hc

/-- The parser stands for something. -/
def Alive (p : Parser β) : Prop := ∃ f, RepP p f

theorem Stable.alive [Roaming β] : Stable (Alive : Parser β → Prop) where
  chunk p h := by
    obtain ⟨f, h⟩ := h
    obtain ⟨s', h'⟩ := Roaming.chunk p.data.buf f.s h.rep
    exact ⟨⟨s', f.off, f.cfg⟩, h', h.off, h.cfg, h.wf⟩
  advance p n h := by
    obtain ⟨f, h⟩ := h
    unfold P.advance
    cases ha : ParseBuf.advance p.data n with
    | none => exact ⟨f, h⟩
    | some d =>
      have : ∃ b', ParseBuf.advance p.data.buf n = some b' ∧ d = ⟨b', p.data.offset + n⟩ := by
        have ha' : (ParseBuf.advance p.data.buf n).map (fun b => (⟨b, p.data.offset + n⟩ : Tracking β)) = some d := ha
        cases hb : ParseBuf.advance p.data.buf n with
        | none => rw [hb] at ha'; cases ha'
        | some b' => rw [hb] at ha'; exact ⟨b', rfl, (Option.some.inj ha').symm⟩
      obtain ⟨b', hb, rfl⟩ := this
      obtain ⟨s', h'⟩ := Roaming.advance p.data.buf f.s n b' h.rep hb
      exact ⟨⟨s', p.data.offset + n, f.cfg⟩, h', rfl, h.cfg, h.wf⟩

/-! ## Safety -/

/-- Whatever came before, `m` returns, and the parser can be used again. -/
def Fine (m : P β α) : Prop := ∀ p, Alive p → Returns (m p).res ∧ Alive (m p).st

/-- Enough room for what is left and for the hint. -/
theorem Safe.fine [Roaming β] {m : P β α} {Q : α → Prop} (h : ∀ B, Safe B Q m) (hi : Inv Alive (fun _ => True) m) : Fine m := by
  intro p hp
  refine ⟨?_, (hi p hp).1⟩
  obtain ⟨f, hp⟩ := hp
  have hs := (h (f.s.bytes.length + (ParseBuf.hint p.data).getD 0) p f hp (Nat.le_add_right _ _) fun x hx => by
    rw [hx]; simp).2
  rcases hr : (m p).res with e | a
  · rw [hr] at hs
    cases e with
    | err e => exact .inr ⟨e, rfl⟩
    | _ => exact hs.elim
  · exact .inl ⟨a, rfl⟩

theorem Fine.bind {m : P β α} {k : α → P β α'} (h : Fine m) (hk : ∀ a, Fine (k a)) : Fine (m >>= k) := by
  intro p hp
  obtain ⟨h1, h2⟩ := h p hp
  rcases h1 with ⟨a, h1⟩ | ⟨e, h1⟩
  · rw [P.bind_ok (P.run_eq _ h1)]
    exact hk a _ h2
  · rw [P.bind_err (P.run_eq _ h1)]
    exact ⟨.inr ⟨e, rfl⟩, h2⟩

theorem Fine.pure (a : α) : Fine (Pure.pure a : P β α) := fun _ hp => ⟨.inl ⟨a, rfl⟩, hp⟩
theorem Fine.fail (e : ParseError) : Fine (P.fail e : P β α) := fun _ hp => ⟨.inr ⟨e, rfl⟩, hp⟩
theorem Fine.config : Fine (P.config : P β ParseConfig) := fun p hp => ⟨.inl ⟨p.config, rfl⟩, hp⟩

theorem Fine.ite {c : Prop} [Decidable c] {m m' : P β α} (h : Fine m) (h' : Fine m') : Fine (if c then m else m') := by
  split
  · exact h
  · exact h'

theorem Fine.rest [Roaming β] : Fine (P.rest : P β (Cow Byte)) := by
  intro p hp
  refine ⟨?_, (Inv.rest Stable.alive p hp).1⟩
  obtain ⟨f, hp⟩ := hp
  have h := (P.rest_takes hp).1
  split at h
  · exact .inr ⟨_, h⟩
  · unfold TakesRest at h
    split at h
    · obtain ⟨c, h, _⟩ := h; exact .inl ⟨c, h⟩
    · exact .inr ⟨_, h⟩

theorem Fine.repeatedLoop {item : P β T} (h : Fine item) : ∀ n, Fine (P.repeatedLoop item n)
  | 0 => Fine.pure _
  | n + 1 => Fine.bind h fun _ => Fine.bind (Fine.repeatedLoop h n) fun _ => Fine.pure _

theorem Fine.repeated (size : Nat) {item : P β T} (h : Fine item) (n : Nat) : Fine (P.repeated size item n) := by
  refine Fine.bind (fun p hp => ?_) fun b => Fine.bind (fun p hp => ⟨.inl ⟨(), rfl⟩, hp⟩) fun _ => Fine.repeatedLoop h n
  obtain ⟨b, hb, _⟩ := P.safeCapacityBound_run size p
  rw [hb]
  exact ⟨.inl ⟨b, rfl⟩, hp⟩

theorem Fine.record [Roaming β] : Fine (P.parseRecord : P β (Record Cow)) := by
  intro p hp
  refine ⟨?_, (Inv.record Stable.alive (recordVisitor Cow) p hp).1⟩
  obtain ⟨f, hp⟩ := hp
  exact c01_parse_record hp

/-- A parser that returns, and whose parser can be used. -/
def FineSub (m : P β (Parser Cursor × Metadata)) : Prop := ∀ p, Alive p → Alive (m p).st ∧
  ((∃ x, (m p).res = .ok x ∧ Alive x.1) ∨ ∃ e, (m p).res = .error (.err e))

theorem FineSub.metadataWithHeader [Roaming β] (h : Header) : FineSub (P.metadataWithHeader h : P β (Parser Cursor × Metadata)) := by
  intro p hp
  refine ⟨(Inv.metadataWithHeader Stable.alive h p hp).1, ?_⟩
  obtain ⟨f, hp⟩ := hp
  have hm := (P.metadataWithHeader_run hp h).2.2
  split at hm
  · obtain ⟨c, h1, h2⟩ := hm
    exact .inl ⟨_, h1, _, h2.rep⟩
  · exact .inr ⟨_, hm⟩
  · exact hm.elim

/-- `parse_metadata` returns, and what it returns can be used. -/
theorem FineSub.metadata [Roaming β] : FineSub (P.metadata : P β (Parser Cursor × Metadata)) := by
  intro p hp
  refine ⟨?_, ?_⟩
  · exact (Inv.skip (Inv.skip (Inv.u32 Stable.alive) fun _ => Inv.skip (Inv.u16 Stable.alive) fun _ => Inv.skip (Inv.u16 Stable.alive) fun _ =>
      Inv.pure trivial) (fun h => Inv.metadataWithHeader Stable.alive h) p hp).1
  · obtain ⟨f, hp⟩ := hp
    rcases P.metadata_run hp with ⟨_, h⟩ | ⟨_, q, hq, h⟩
    · exact .inr ⟨_, h⟩
    · rw [h]
      exact (FineSub.metadataWithHeader (headerAt f) q ⟨_, hq⟩).2

theorem FineSub.then {m : P β (Parser Cursor × Metadata)} (h : FineSub m) {body : P Cursor T} (hb : Fine body)
    {k : Metadata → Except ParseError T → P β α} (hk : ∀ md r, Fine (k md r)) :
    Fine (m >>= fun x => P.attemptOn x.1 body >>= fun r => k x.2 r) := by
  intro p hp
  obtain ⟨h1, h2⟩ := h p hp
  rcases h2 with ⟨x, h2, h3⟩ | ⟨e, h2⟩
  · rw [P.bind_ok (P.run_eq _ h2)]
    refine Fine.bind (m := P.attemptOn x.1 body) (fun q hq => ?_) (hk x.2) _ h1
    obtain ⟨h4, _⟩ := hb x.1 h3
    unfold P.attemptOn
    rcases h4 with ⟨a, h4⟩ | ⟨e, h4⟩
    · rw [h4]; exact ⟨.inl ⟨_, rfl⟩, hq⟩
    · rw [h4]; exact ⟨.inl ⟨_, rfl⟩, hq⟩
  · rw [P.bind_err (P.run_eq _ h2)]
    exact ⟨.inr ⟨e, rfl⟩, h1⟩

theorem Fine.attempt {m : P β α} (h : Fine m) : Fine (P.attempt m) := by
  intro p hp
  obtain ⟨h1, h2⟩ := h p hp
  unfold P.attempt
  rcases h1 with ⟨a, h1⟩ | ⟨e, h1⟩
  · rw [h1]; exact ⟨.inl ⟨_, rfl⟩, h2⟩
  · rw [h1]; exact ⟨.inl ⟨_, rfl⟩, h2⟩

theorem Fine.direct [Roaming β] (e : Elem T) (n : Nat) : Fine (P.sliceDirect e n : P β (Option (List T))) := by
  refine Fine.bind Fine.config fun c => Fine.ite (Fine.pure _) (Fine.ite (Fine.fail _) ?_)
  refine Fine.bind (Safe.fine (fun _ => Safe.bytesDirect _) (Inv.bytesDirect Stable.alive _)) fun x => ?_
  match x with
  | none => exact Fine.pure _
  | some (addr, bs) => exact Fine.ite (Fine.pure _) (Fine.pure _)

theorem Fine.slice [Roaming β] (e : Elem T) {item : P β T} (h : Fine item) (n : Nat) : Fine (P.slice e item n) := by
  refine Fine.bind (Fine.direct e n) fun x => ?_
  match x with
  | some l => exact Fine.pure _
  | none => exact Fine.bind (Fine.repeated e.size h n) fun _ => Fine.pure _

theorem Fine.kept [Roaming β] : Kept (M := P β) (C := Cow) Fine where
  pure := Fine.pure
  bind := Fine.bind
  fail := Fine.fail
  config := Fine.config
  array n := Safe.fine (fun _ => Safe.array n) (Inv.array Stable.alive n)
  bytes n := Safe.fine (fun _ => Safe.bytes n) (Inv.bytes Stable.alive n)
  rest := Fine.rest
  restTrimNul := Fine.bind Fine.rest fun _ => Fine.pure _
  padded h := by
    have ho : Fine (P.offset : P β Nat) := fun p hp => ⟨.inl ⟨p.data.offset, rfl⟩, hp⟩
    show Fine (P.padded 8 _)
    unfold P.padded
    rw [if_neg (by decide)]
    refine Fine.bind ho fun _ => Fine.bind h fun _ => Fine.bind ho fun _ => Fine.ite (Fine.pure _) ?_
    exact Fine.bind (Safe.fine (fun _ => Safe.bytesIgnored _) (Inv.bytesIgnored Stable.alive _)) fun _ => Fine.pure _
  slice e n h := Fine.slice e h n
  textPoke := Safe.fine (fun _ => Safe.textPoke) <|
    Inv.skip (Inv.u64 Stable.alive) fun _ => Inv.skip (Inv.u16 Stable.alive) fun _ => Inv.skip (Inv.u16 Stable.alive) fun _ =>
      Inv.skip (Inv.bytes Stable.alive _) fun _ => Inv.skip (Inv.cowSplitAt _ _) fun _ => Inv.pure trivial

theorem NoStuck.attrStep {c : Bool} {s : Attr → Spec Attr} (a : Attr) (h : ∀ a, NoStuck (s a)) : NoStuck (Perf.attrStep c s a) := by
  cases c with
  | true => exact h a
  | false => exact NoStuck.pure _

/-- Walk through a parser without lists and splits. -/
macro "noStuck" : tactic => `(tactic| repeat first
  | exact NoStuck.u64
  | exact NoStuck.u32
  | exact NoStuck.u16
  | exact NoStuck.u8
  | exact NoStuck.config
  | exact NoStuck.array _
  | exact NoStuck.fail _
  | exact NoStuck.pure _
  | refine NoStuck.ite ?_ ?_
  | refine NoStuck.bind ?_ fun _ => ?_)

theorem NoStuck.attrBody (t s : U32) : NoStuck (Perf.attrBody t s : Spec Attr) := by
  refine NoStuck.bind ?_ fun a => NoStuck.attrStep a fun a => NoStuck.bind NoStuck.rest fun _ => NoStuck.ite (NoStuck.pure _) (NoStuck.fail _)
  unfold Perf.attrHead
  refine NoStuck.bind (NoStuck.attrStep _ fun a => by unfold attrVer0; noStuck) fun _ => ?_
  refine NoStuck.bind (NoStuck.attrStep _ fun a => by unfold attrVer1; noStuck) fun _ => ?_
  refine NoStuck.bind (NoStuck.attrStep _ fun a => by unfold attrVer2; noStuck) fun _ => ?_
  refine NoStuck.bind (NoStuck.attrStep _ fun a => by unfold attrVer3; noStuck) fun _ => ?_
  refine NoStuck.bind (NoStuck.attrStep _ fun a => by unfold attrVer4; noStuck) fun _ => ?_
  refine NoStuck.bind (NoStuck.attrStep _ fun a => by unfold attrVer5; noStuck) fun _ => ?_
  refine NoStuck.bind (NoStuck.attrStep _ fun a => by unfold attrVer6; noStuck) fun _ => ?_
  refine NoStuck.bind (NoStuck.attrStep _ fun a => by unfold attrVer7; noStuck) fun _ => ?_
  exact NoStuck.attrStep _ fun a => by unfold attrVer8; noStuck

theorem NoStuck.attr : NoStuck Spec.parseAttr := by
  refine NoStuck.bind NoStuck.u32 fun t => NoStuck.bind NoStuck.u32 fun n => NoStuck.ite (NoStuck.fail _) fun f => ?_
  have h := NoStuck.attrBody t n (f.region (n.toNat - 4))
  by_cases hl : n.toNat - 4 ≤ f.s.bytes.length
  · simp only [if_pos hl]
    rcases hb : (Perf.attrBody t n : Spec Attr) (f.region (n.toNat - 4)) with e | ⟨a, g⟩
    · rw [hb] at h; exact h
    · nofun
  · simp only [if_neg hl]; nofun

theorem Fine.attr [Roaming β] : Fine (P.parseAttr : P β Attr) := by
  intro p hp
  refine ⟨?_, ?_⟩
  · obtain ⟨f, hp⟩ := hp
    have h := Refines.attr p f hp
    rcases hs : Spec.parseAttr f with e | ⟨a, g⟩
    · rw [hs] at h
      cases e with
      | stuck => exact absurd hs (NoStuck.attr f)
      | err e => exact .inr ⟨e, h⟩
    · rw [hs] at h
      obtain ⟨a, h, _⟩ := h
      exact .inl ⟨a, h⟩
  · have hc : ∀ (c : Parser Cursor) (m : P Cursor Attr), Inv Alive (fun _ => True) (P.onChild c m : P β (Attr × Parser Cursor)) := by
      intro c m p hp
      refine ⟨?_, fun _ _ => trivial⟩
      unfold P.onChild
      dsimp only
      split <;> exact hp
    have hi : Inv Alive (fun _ => True) (P.parseAttr : P β Attr) :=
      Inv.skip (Inv.u32 Stable.alive) fun _ => Inv.skip (Inv.u32 Stable.alive) fun _ => Inv.ite (fun _ => Inv.fail _) fun _ =>
        Inv.skip (Inv.splitAt Stable.alive _) fun _ => Inv.skip (hc _ _) fun _ => Inv.pure trivial
    exact (hi p hp).1

theorem Fine.call [Roaming β] (c : Call T) : Fine (c.run β) := by
  have k : Kept (M := P β) (C := Cow) Fine := Fine.kept
  have hv : pairVisitor.Total := fun r md => .inl (by cases r <;> exact ⟨_, rfl⟩)
  cases c with
  | array n => exact k.array n
  | direct n => exact Fine.direct _ n
  | entries n => exact Fine.bind (k.slice _ n k.namespaceEntry) fun _ => Fine.pure _
  | branches n => exact Fine.bind (k.slice _ n k.branchEntry) fun _ => Fine.pure _
  | header => exact k.header
  | attr => exact Fine.attr
  | entry => exact k.namespaceEntry
  | branch => exact k.branchEntry
  | mmapDetail => exact k.mmapDetail
  | sampleId => exact k.sampleId
  | readValue => exact k.readValue
  | readGroup => exact Fine.bind k.readGroup fun _ => Fine.pure _
  | body ty => exact Fine.bind (k.body ty) fun _ => Fine.pure _
  | visit =>
    refine Fine.bind (fun p hp => ⟨?_, (Inv.record Stable.alive pairVisitor p hp).1⟩) fun _ => Fine.pure _
    obtain ⟨f, hp⟩ := hp
    exact c01_record hp _ hv
  | visitWith h =>
    have hi : Inv Alive (fun _ => True) (P.recordWithHeader pairVisitor h : P β _) :=
      Inv.recordWithHeader Stable.alive pairVisitor h
    refine Fine.bind (fun p hp => ⟨?_, (hi p hp).1⟩) fun _ => Fine.pure _
    obtain ⟨f, hp⟩ := hp
    exact c01_record_with_header hp _ hv h

theorem Fine.prog (prog : Prog α) : ∀ (β : Type) [ParseBuf β] [Lawful β] [Roaming β], Fine (prog.run β) := by
  induction prog with
  | done a => exact fun β _ _ _ => Fine.pure a
  | fail e => exact fun β _ _ _ => Fine.fail e
  | config k ih => exact fun β _ _ _ => Fine.bind Fine.config fun c => ih c β
  | u8 k ih => exact fun β _ _ _ => Fine.bind (Safe.fine (fun _ => Safe.u8) (Inv.u8 Stable.alive)) fun c => ih c β
  | u16 k ih => exact fun β _ _ _ => Fine.bind (Safe.fine (fun _ => Safe.u16) (Inv.u16 Stable.alive)) fun c => ih c β
  | u32 k ih => exact fun β _ _ _ => Fine.bind (Safe.fine (fun _ => Safe.u32) (Inv.u32 Stable.alive)) fun c => ih c β
  | u64 k ih => exact fun β _ _ _ => Fine.bind (Safe.fine (fun _ => Safe.u64) (Inv.u64 Stable.alive)) fun c => ih c β
  | bytes n k ih => exact fun β _ _ _ => Fine.bind (Safe.fine (fun _ => Safe.bytes n) (Inv.bytes Stable.alive n)) fun c => ih c.data β
  | rest k ih => exact fun β _ _ _ => Fine.bind Fine.rest fun c => ih c.data β
  | restTrimNul k ih => exact fun β _ _ _ => Fine.bind (Fine.bind Fine.rest fun _ => Fine.pure _) fun c => ih c.data β
  | words n k ih =>
    exact fun β _ _ _ => Fine.bind (Safe.fine (fun _ => Safe.slice (by decide) Safe.u64 n) (Inv.slice Stable.alive _ (Inv.u64 Stable.alive) n))
      fun c => ih c.data β
  | repeated size item n k ihi ih => exact fun β _ _ _ => Fine.bind (Fine.repeated size (ihi β) n) fun l => ih l β
  | metadata body k ihb ih => exact fun β _ _ _ => FineSub.metadata.then (ihb Cursor) fun md r => ih md r β
  | metadataWith h body k ihb ih => exact fun β _ _ _ => (FineSub.metadataWithHeader h).then (ihb Cursor) fun md r => ih md r β
  | call c k ih => exact fun β _ _ _ => Fine.bind (Fine.call c) fun x => ih x β
  | record k ih => exact fun β _ _ _ => Fine.bind Fine.record fun r => ih r.view β
  | attempt m k ihm ih => exact fun β _ _ _ => Fine.bind (Fine.attempt (ihm β)) fun r => ih r β

/-! ## Refinement -/

theorem Spec.metadata_state {h : Header} {f f' r : Flat} {md : Metadata}
    (hm : Spec.metadataWithHeader h f = .ok ((r, md), f')) :
    f' = f.adv (h.size.toNat - 8) ∧ 8 ≤ h.size.toNat ∧ h.size.toNat - 8 ≤ f.s.bytes.length := by
  rcases Spec.metadata_cases h f with ⟨_, a⟩ | ⟨_, _, a⟩ | ⟨a1, a2, _, a⟩ | ⟨_, _, _, _, a⟩ | ⟨a1, a2, _, _, sid, i, _, a⟩
  · rw [a] at hm; cases hm
  · rw [a] at hm; cases hm
  · rw [a] at hm; cases hm; exact ⟨rfl, a1, a2⟩
  · rw [a] at hm; cases hm
  · rw [a] at hm; cases hm; exact ⟨rfl, a1, a2⟩

theorem Refines.metadataWithHeader (h : Header) :
    Refines (fun x y => Region y.1 x.1 ∧ x.2 = y.2) (P.metadataWithHeader h : P β (Parser Cursor × Metadata))
      (Spec.metadataWithHeader h) := by
  intro p f hp
  obtain ⟨h1, _, h3⟩ := P.metadataWithHeader_run hp h
  rcases hs : Spec.metadataWithHeader h f with e | ⟨⟨r, md⟩, f'⟩
  · rw [hs] at h3
    cases e with
    | stuck => exact h3.elim
    | err e => exact h3
  · rw [hs] at h3
    obtain ⟨c, hc, hr⟩ := h3
    obtain ⟨rfl, h4, h5⟩ := Spec.metadata_state hs
    exact ⟨_, hc, ⟨hr, rfl⟩, (h1 h4 h5).1⟩

theorem Refines.metadata : Refines (fun x y => Region y.1 x.1 ∧ x.2 = y.2) (P.metadata : P β (Parser Cursor × Metadata)) Spec.metadata :=
  Refines.bind Refines.header fun h _ e => e ▸ Refines.metadataWithHeader h

theorem Spec.bind_pure_inv {s : Spec α} {k : α → γ} {x : γ} {f f' : Flat} (h : (s >>= fun a => Pure.pure (k a)) f = .ok (x, f')) :
    ∃ a, x = k a := by
  rcases hs : s f with e | ⟨a, g⟩
  · rw [Spec.bind_err hs] at h; cases h
  · rw [Spec.bind_ok hs] at h; cases h; exact ⟨a, rfl⟩

/-- An unknown record has this type. -/
def KeepsType (ty : U32) (s : Spec (Record List)) : Prop := ∀ f f' t d, s f = .ok (.unknown t d, f') → t = ty

/-- Only the fallback makes an unknown record, and it keeps the type. -/
theorem parseBody_unknown (ty : U32) : KeepsType ty (parseBody ty : Spec (Record List)) := by
  unfold parseBody
  split
  all_goals
    intro f f' t d h
    obtain ⟨a, ha⟩ := Spec.bind_pure_inv h
    cases ha
  rfl

/-- What the visitor of a whole record is given. -/
theorem Refines.visitWith {O : Type} (v : Visitor Cow O) (g : O → Record List → Metadata → Prop)
    (hv : ∀ a md, (∀ t d, a = .unknown t d → t = md.ty) → ∃ b, v.apply a md = .ok b ∧ g b a.view md) (h : Header) :
    Refines (fun x y => g x y.1 y.2) (P.recordWithHeader v h : P β O) (Spec.recordWithHeader h) := by
  intro p f hp
  obtain ⟨h1, _, h3⟩ := P.recordWithHeader_run hp v h
  unfold Spec.recordWithHeader
  rcases hs : Spec.metadataWithHeader h f with e | ⟨⟨r, md⟩, f'⟩
  · rw [hs] at h3
    cases e with
    | stuck => exact h3.elim
    | err e => exact h3
  · rw [hs] at h3
    obtain ⟨rfl, h4, h5⟩ := Spec.metadata_state hs
    have h6 := h3.1
    dsimp only
    rcases hb : (parseBody md.ty : Spec (Record List)) (r.withMisc md.misc) with e | ⟨c, i⟩
    · rw [hb] at h6
      cases e with
      | stuck => trivial
      | err e => exact h6
    · rw [hb] at h6
      obtain ⟨a, ha, hres⟩ := h6
      have ha : a.view = c := ha
      obtain ⟨b, h7, h8⟩ := hv a md fun t d hd => by
        rw [hd] at ha
        rw [← ha] at hb
        exact parseBody_unknown _ _ _ _ _ hb
      rw [ha] at h8
      exact ⟨b, hres.trans h7, h8, (h1 h4 h5).1⟩

theorem Refines.recordWithHeader (h : Header) :
    Refines (fun x y => x.view = y.1) (P.parseRecordWithHeader h : P β (Record Cow)) (Spec.recordWithHeader h) := by
  refine Refines.visitWith (recordVisitor Cow) (fun x r _ => x.view = r) (fun a md hu => ?_) h
  obtain ⟨a', h7, h8⟩ := recordVisitor_view a md
  refine ⟨a', h7, h8.trans ?_⟩
  cases a with
  | unknown t d => rw [hu t d rfl]; rfl
  | _ => rfl

theorem Refines.visitPair (h : Header) : Refines (fun x y => (x.1.view, x.2) = y) (P.recordWithHeader pairVisitor h : P β _)
    (Spec.recordWithHeader h) := by
  refine Refines.visitWith pairVisitor (fun x r md => (x.1.view, x.2) = (r, md)) (fun a md hu => ?_) h
  cases a with
  | unknown t d => rw [hu t d rfl]; exact ⟨_, rfl, rfl⟩
  | _ => exact ⟨_, rfl, rfl⟩

theorem Refines.record : Refines (fun x y => x.view = y.1) (P.parseRecord : P β (Record Cow)) Spec.record :=
  Refines.bind Refines.header fun h _ e => e ▸ Refines.recordWithHeader h

theorem Refines.attempt {m : P β α} {s : Spec α} (h : Refines Eq m s) : Refines Eq (P.attempt m) (Spec.attempt s) := by
  intro p f hp
  have h1 := h p f hp
  unfold Spec.attempt
  rcases hs : s f with e | ⟨c, f'⟩
  · trivial
  · rw [hs] at h1
    obtain ⟨a, ha, rfl, hr⟩ := h1
    refine ⟨.ok a, ?_, rfl, ?_⟩
    · unfold P.attempt; rw [ha]
    · unfold P.attempt; rw [ha]; exact hr

theorem Refines.attemptOn {δ : Type} [ParseBuf δ] [Lawful δ] {m : P δ α} {s : Spec α} (h : Refines Eq m s) {c : Parser δ} {r : Flat}
    (hc : RepP c r) : Refines Eq (P.attemptOn c m : P β (Except ParseError α)) (Spec.attemptOn r s) := by
  intro p f hp
  have h1 := h c r hc
  unfold Spec.attemptOn
  rcases hs : s r with e | ⟨a, r'⟩
  · rw [hs] at h1
    cases e with
    | stuck => trivial
    | err e =>
      have h1 : (m c).res = .error (.err e) := h1
      refine ⟨.error e, ?_, rfl, ?_⟩
      · unfold P.attemptOn; rw [h1]
      · unfold P.attemptOn; rw [h1]; exact hp
  · rw [hs] at h1
    obtain ⟨a, ha, rfl, _⟩ := h1
    refine ⟨.ok a, ?_, rfl, ?_⟩
    · unfold P.attemptOn; rw [ha]
    · unfold P.attemptOn; rw [ha]; exact hp

theorem HasData.then {k : List T → P β α} {k' : List T → Spec α} (h : ∀ l, Refines Eq (k l) (k' l)) (a : Cow T) (c : List T)
    (hd : HasData a c) : Refines Eq (k a.data) (k' c) := by
  have : a.data = c := hd
  rw [this]; exact h c

theorem Refines.project {R : α → α' → Prop} {m : P β α} {s : Spec α'} {g : α → α'} (h : Refines R m s) (hg : ∀ a c, R a c → g a = c) :
    Refines Eq (m >>= fun a => Pure.pure (g a)) s := by
  intro p f hp
  have h1 := h p f hp
  rcases hs : s f with e | ⟨c, f'⟩
  · rw [hs] at h1
    cases e with
    | stuck => trivial
    | err e =>
      have h1 : _ = _ := h1
      rw [P.bind_err (P.run_eq _ h1)]; exact rfl
  · rw [hs] at h1
    obtain ⟨a, ha, hr, hf⟩ := h1
    rw [P.bind_ok (P.run_eq _ ha)]
    exact ⟨g a, rfl, hg a c hr, hf⟩

/-- Record types that do not read to the end, on any buffer. -/
theorem Refines.bodyNoRest {ty : U32} (h : ty.toNat ∈ [2, 4, 5, 6, 7, 8, 9, 11, 12, 13, 15, 16, 18, 20, 21]) :
    Refines (Via Record.view) (parseBody ty : P β (Record Cow)) (parseBody ty) := by
  have e : ∀ {α α' : Type} {R : α → α' → Prop} {m : P β α} {s : Spec α'} {k : α → Record Cow} {k' : α' → Record List},
      Refines R m s → (∀ a c, R a c → (k a).view = k' c) →
      Refines (Via Record.view) (m >>= fun r => Pure.pure (k r)) (s >>= fun r => Pure.pure (k' r)) :=
    fun h hk => Refines.bind h fun a c hr => Refines.pure (hk a c hr)
  unfold parseBody
  generalize ty.toNat = n at h
  simp only [List.mem_cons, List.not_mem_nil, or_false] at h
  rcases h with h | h | h | h | h | h | h | h | h | h | h | h | h | h | h <;> subst h
  · exact e Refines.lost fun a c h => congrArg Record.lost h
  · exact e Refines.exit fun a c h => congrArg Record.exit h
  · exact e Refines.throttle fun a c h => congrArg Record.throttle h
  · exact e Refines.throttle fun a c h => congrArg Record.unthrottle h
  · exact e Refines.exit fun a c h => congrArg Record.fork h
  · exact e Refines.read fun a c h => congrArg Record.read h
  · exact e Refines.sample fun a c h => congrArg Record.sample h
  · exact e Refines.aux fun a c h => congrArg Record.aux h
  · exact e Refines.itraceStart fun a c h => congrArg Record.itraceStart h
  · exact e Refines.lostSamples fun a c h => congrArg Record.lostSamples h
  · exact e Refines.switchCpuWide fun a c h => congrArg Record.switchCpuWide h
  · exact e Refines.namespaces fun a c h => congrArg Record.namespaces h
  · exact e Refines.bpfEvent fun a c h => congrArg Record.bpfEvent h
  · exact e Refines.textPoke fun a c h => congrArg Record.textPoke h
  · exact e Refines.auxOutputHwId fun a c h => congrArg Record.auxOutputHwId h

theorem Refines.call (c : Call T) (h : EofLaw β ∨ c.NoRest) : Refines Eq (c.run β) c.flat := by
  cases c with
  | array n => exact Refines.array n
  | direct n => exact Refines.stuck
  | entries n => exact Refines.project (Refines.entries n) fun _ _ h => h
  | branches n => exact Refines.project (Refines.branches n) fun _ _ h => h
  | header => exact Refines.header
  | attr => exact Refines.attr
  | entry => exact Refines.namespaceEntry
  | branch => exact Refines.branchEntry
  | mmapDetail => exact Refines.mmapDetail
  | sampleId => exact Refines.sampleId
  | readValue => exact Refines.readValue
  | readGroup => exact Refines.project Refines.readGroup fun _ _ h => h
  | body ty =>
    rcases h with h | h
    · letI : LawfulEof β := { eof_law := h }
      exact Refines.project (Refines.body ty) fun _ _ h => h
    · exact Refines.project (Refines.bodyNoRest h) fun _ _ h => h
  | visit =>
    refine Refines.project (R := fun x y => (x.1.view, x.2) = y) (g := fun r : Record Cow × Metadata => (r.1.view, r.2))
      (Refines.bind Refines.header fun h _ e => ?_) fun _ _ h => h
    subst e
    exact Refines.visitPair h
  | visitWith hd => exact Refines.project (g := fun r : Record Cow × Metadata => (r.1.view, r.2)) (Refines.visitPair hd) fun _ _ h => h

/-- Every program does what it does on the bytes. -/
theorem Refines.prog (prog : Prog α) : ∀ (β : Type) [ParseBuf β] [Lawful β], (EofLaw β ∨ prog.NoRest) →
    Refines Eq (prog.run β) prog.flat := by
  have e1 : ∀ {α A : Type} {β : Type} [ParseBuf β] [Lawful β] {m : P β A} {s : Spec A} {k : A → Prog α}, Refines Eq m s →
      (∀ x, Refines Eq ((k x).run β) (k x).flat) → Refines Eq (m >>= fun x => (k x).run β) (s >>= fun x => (k x).flat) :=
    fun h hk => Refines.bind h fun a c e => e ▸ hk a
  have e2 : ∀ {α A : Type} {β : Type} [ParseBuf β] [Lawful β] {m : P β (Cow A)} {s : Spec (List A)} {k : List A → Prog α},
      Refines HasData m s → (∀ x, Refines Eq ((k x).run β) (k x).flat) →
      Refines Eq (m >>= fun c => (k c.data).run β) (s >>= fun x => (k x).flat) :=
    fun h hk => Refines.bind h (HasData.then hk)
  induction prog with
  | done a => exact fun β _ _ _ => Refines.pure rfl
  | fail e => exact fun β _ _ _ => Refines.fail e
  | config k ih => exact fun β _ _ h => e1 Refines.config fun x => ih x β (h.imp_right fun h => h x)
  | u8 k ih => exact fun β _ _ h => e1 Refines.u8 fun x => ih x β (h.imp_right fun h => h x)
  | u16 k ih => exact fun β _ _ h => e1 Refines.u16 fun x => ih x β (h.imp_right fun h => h x)
  | u32 k ih => exact fun β _ _ h => e1 Refines.u32 fun x => ih x β (h.imp_right fun h => h x)
  | u64 k ih => exact fun β _ _ h => e1 Refines.u64 fun x => ih x β (h.imp_right fun h => h x)
  | bytes n k ih => exact fun β _ _ h => e2 (Refines.bytes n) fun x => ih x β (h.imp_right fun h => h x)
  | rest k ih =>
    intro β _ _ h
    have he : EofLaw β := h.resolve_right id
    letI : LawfulEof β := { eof_law := he }
    exact e2 Refines.rest fun x => ih x β (.inl he)
  | restTrimNul k ih =>
    intro β _ _ h
    have he : EofLaw β := h.resolve_right id
    letI : LawfulEof β := { eof_law := he }
    exact e2 Refines.restTrimNul fun x => ih x β (.inl he)
  | words n k ih =>
    exact fun β _ _ h => e2 (Refines.slice Refines.u64 ItemOk.u64 n) fun x => ih x β (h.imp_right fun h => h x)
  | repeated size item n k ihi ih =>
    exact fun β _ _ h => e1 (Refines.repeated size (ihi β (h.imp_right And.left)) n) fun x => ih x β (h.imp_right fun h => h.2 x)
  | metadata body k ihb ih =>
    intro β _ _ h
    refine Refines.bind Refines.metadata fun x y hx => ?_
    obtain ⟨hx1, hx2⟩ := hx
    rw [hx2]
    exact e1 (Refines.attemptOn (ihb Cursor (.inl LawfulEof.eof_law)) hx1.rep) fun r => ih _ r β (h.imp_right fun h => h _ r)
  | metadataWith hd body k ihb ih =>
    intro β _ _ h
    refine Refines.bind (Refines.metadataWithHeader hd) fun x y hx => ?_
    obtain ⟨hx1, hx2⟩ := hx
    rw [hx2]
    exact e1 (Refines.attemptOn (ihb Cursor (.inl LawfulEof.eof_law)) hx1.rep) fun r => ih _ r β (h.imp_right fun h => h _ r)
  | call c k ih => exact fun β _ _ h => e1 (Refines.call c (h.imp_right And.left)) fun x => ih x β (h.imp_right fun h => h.2 x)
  | record k ih =>
    intro β _ _ h
    refine Refines.bind Refines.record fun x y hx => ?_
    rw [hx]
    exact ih _ β (h.imp_right fun h => h _)
  | attempt m k ihm ih =>
    exact fun β _ _ h => e1 (Refines.attempt (ihm β (h.imp_right And.left))) fun x => ih x β (h.imp_right fun h => h.2 x)

/-! ## Independence of the chunks -/

/-- What `s` does depends on the bytes, the end and the configuration only, wherever it is specified. It goes on by the
same number of bytes. -/
def Ind (s : Spec α) : Prop := ∀ f g, SameBytes f g → f.cfg.Wf → s f ≠ .error .stuck → s g ≠ .error .stuck →
  (∃ e, s f = .error (.err e) ∧ s g = .error (.err e)) ∨
  ∃ a f' g', s f = .ok (a, f') ∧ s g = .ok (a, g') ∧ f'.off + g.off = g'.off + f.off ∧ SameBytes f' g' ∧ f'.cfg.Wf

theorem SameBytes.adv (h : SameBytes f g) (n : Nat) : SameBytes (f.adv n) (g.adv n) :=
  ⟨by simp [Flat.adv, Stream.drop, h.bytes], h.fin, h.cfg⟩

theorem SameBytes.region (h : SameBytes f g) (n : Nat) : SameBytes (f.region n) (g.region n) :=
  ⟨by simp [Flat.region, h.bytes], rfl, h.cfg⟩

theorem Ind.pure (a : α) : Ind (Pure.pure a : Spec α) := fun f g h hw _ _ => .inr ⟨a, f, g, rfl, rfl, Nat.add_comm _ _, h, hw⟩
theorem Ind.fail (e : ParseError) : Ind (Spec.fail e : Spec α) := fun _ _ _ _ _ _ => .inl ⟨e, rfl, rfl⟩
theorem Ind.config : Ind Spec.config := fun f g h hw _ _ => .inr ⟨f.cfg, f, g, rfl, by unfold Spec.config; rw [h.cfg], Nat.add_comm _ _, h, hw⟩

theorem Ind.bind {s : Spec α} {k : α → Spec γ} (h : Ind s) (hk : ∀ a, Ind (k a)) : Ind (s >>= k) := by
  intro f g hs hw h1 h2
  have n1 : s f ≠ .error .stuck := fun e => h1 (Spec.bind_err e)
  have n2 : s g ≠ .error .stuck := fun e => h2 (Spec.bind_err e)
  rcases h f g hs hw n1 n2 with ⟨e, a, b⟩ | ⟨x, f', g', a, b, ho, hs', hw'⟩
  · exact .inl ⟨e, Spec.bind_err a, Spec.bind_err b⟩
  · rw [Spec.bind_ok a] at h1
    rw [Spec.bind_ok b] at h2
    rw [Spec.bind_ok a, Spec.bind_ok b]
    refine (hk x f' g' hs' hw' h1 h2).imp_right ?_
    rintro ⟨y, i, j, c1, c2, c3, c4⟩
    exact ⟨y, i, j, c1, c2, by omega, c4⟩

theorem Ind.ite {c : Prop} [Decidable c] {s s' : Spec α} (h : Ind s) (h' : Ind s') : Ind (if c then s else s') := by
  split
  · exact h
  · exact h'

theorem Ind.bytes (n : Nat) : Ind (Spec.bytes n) := by
  intro f g h hw _ _
  unfold Spec.bytes Spec.take
  rw [← h.bytes, ← h.fin]
  by_cases he : f.s.bytes = []
  · simp only [if_pos he]; exact .inl ⟨_, rfl, rfl⟩
  · simp only [if_neg he]
    by_cases hn : n ≤ f.s.bytes.length
    · simp only [if_pos hn]; exact .inr ⟨_, _, _, rfl, rfl, by simp only [Flat.adv]; omega, h.adv n, hw⟩
    · simp only [if_neg hn]; exact .inl ⟨_, rfl, rfl⟩

theorem Ind.rest : Ind Spec.rest := by
  intro f g h hw _ _
  unfold Spec.rest
  rw [← h.bytes, ← h.fin]
  by_cases he : f.s.bytes = []
  · simp only [if_pos he]; exact .inl ⟨_, rfl, rfl⟩
  · simp only [if_neg he]
    by_cases hn : f.s.fin.kind = .eof
    · simp only [if_pos hn]; exact .inr ⟨_, _, _, rfl, rfl, by simp only [Flat.adv]; omega, h.adv _, hw⟩
    · simp only [if_neg hn]; exact .inl ⟨_, rfl, rfl⟩

theorem Ind.u8 : Ind (parseU8 : Spec U8) := Ind.bind (Ind.bytes 1) fun _ => Ind.pure _
theorem Ind.u16 : Ind (parseU16 : Spec U16) := Ind.bind (Ind.bytes 2) fun _ => Ind.bind Ind.config fun _ => Ind.pure _
theorem Ind.u32 : Ind (parseU32 : Spec U32) := Ind.bind (Ind.bytes 4) fun _ => Ind.bind Ind.config fun _ => Ind.pure _
theorem Ind.u64 : Ind (parseU64 : Spec U64) := Ind.bind (Ind.bytes 8) fun _ => Ind.bind Ind.config fun _ => Ind.pure _
theorem Ind.header : Ind (parseHeader : Spec Header) :=
  Ind.bind Ind.u32 fun _ => Ind.bind Ind.u16 fun _ => Ind.bind Ind.u16 fun _ => Ind.pure _

theorem Ind.repeated {item : Spec T} (h : Ind item) : ∀ n, Ind (Spec.repeated item n)
  | 0 => Ind.pure _
  | n + 1 => Ind.bind h fun _ => Ind.bind (Ind.repeated h n) fun _ => Ind.pure _

theorem Ind.slice {e : Elem T} {item : Spec T} (h : Ind item) (n : Nat) : Ind (Spec.slice e item n) := by
  intro f g hs hw
  have hrep := Ind.repeated h n f g hs hw
  unfold Spec.slice
  rw [← hs.cfg, ← hs.bytes, ← hs.fin]
  by_cases h1 : f.cfg.endian.isNative = true
  · simp only [h1, if_true]
    by_cases h2 : n * e.size ≥ usizeLimit
    · simp only [if_pos h2]; exact fun _ _ => .inl ⟨_, rfl, rfl⟩
    · simp only [if_neg h2]
      by_cases h3 : f.s.bytes = []
      · simp only [if_pos h3]; exact fun _ _ => .inl ⟨_, rfl, rfl⟩
      · simp only [if_neg h3]
        by_cases h4 : n ≠ 0 ∧ n * e.size ≤ f.s.bytes.length ∧ f.s.al.aligned = false
        · rw [if_pos h4]; exact fun h _ => absurd rfl h
        · rw [if_neg h4]
          by_cases h5 : n ≠ 0 ∧ n * e.size ≤ f.s.bytes.length ∧ g.s.al.aligned = false
          · rw [if_pos h5]; exact fun _ h => absurd rfl h
          · rw [if_neg h5]; exact hrep
  · simp only [h1]; exact hrep

/-- The metadata comes with bodies that hold the same bytes. -/
def IndSub (s : Spec (Flat × Metadata)) : Prop := ∀ f g, SameBytes f g → f.cfg.Wf →
  (∃ e, s f = .error (.err e) ∧ s g = .error (.err e)) ∨
  ∃ r r' md f' g', s f = .ok ((r, md), f') ∧ s g = .ok ((r', md), g') ∧ SameInput r r' ∧
    r.s.fin = .eof ∧ r.s.bytes.length < usizeLimit ∧ r.cfg.Wf ∧ f'.off + g.off = g'.off + f.off ∧ SameBytes f' g' ∧ f'.cfg.Wf

theorem IndSub.metadataWithHeader (hd : Header) : IndSub (Spec.metadataWithHeader hd) := by
  intro f g h1 hw1
  rcases metadata_same h1 hw1 hd with h2 | ⟨r, r', md, i, j, len, h2, h3, h4, h5, h6, h7, _, _⟩
  · exact .inl h2
  · obtain ⟨rfl, _, _⟩ := Spec.metadata_state h2
    obtain ⟨rfl, _, _⟩ := Spec.metadata_state h3
    refine .inr ⟨_, _, _, _, _, h2, h3, h4, by rw [h5]; rfl, ?_, by rw [h5]; exact hw1, by simp only [Flat.adv]; omega, h1.adv _, hw1⟩
    rw [h5]; simp only [Flat.region, List.length_take]; omega

theorem IndSub.metadata : IndSub Spec.metadata := by
  intro f g h hw
  have hn : NoStuck (parseHeader : Spec Header) :=
    NoStuck.bind NoStuck.u32 fun _ => NoStuck.bind NoStuck.u16 fun _ => NoStuck.bind NoStuck.u16 fun _ => NoStuck.pure _
  unfold Spec.metadata
  rcases Ind.header f g h hw (hn f) (hn g) with ⟨e, a, b⟩ | ⟨hd, f1, g1, a, b, ho, h1, hw1⟩
  · exact .inl ⟨e, Spec.bind_err a, Spec.bind_err b⟩
  · rw [Spec.bind_ok a, Spec.bind_ok b]
    refine (IndSub.metadataWithHeader hd f1 g1 h1 hw1).imp_right ?_
    rintro ⟨r, r', md, f', g', c1, c2, c3, c4, c5, c6, c7, c8⟩
    exact ⟨r, r', md, f', g', c1, c2, c3, c4, c5, c6, by omega, c8⟩

theorem SameInput.same (h : SameInput f g) : SameBytes f g := ⟨h.bytes, h.fin, h.cfg⟩

/-- The body of the record. -/
def Spec.bodyOf (r : Flat) (md : Metadata) : Spec (Record List × Metadata) := fun f' =>
  match (parseBody md.ty : Spec (Record List)) (r.withMisc md.misc) with
  | .error e => .error e
  | .ok (rec, _) => .ok ((rec, md), f')

theorem Spec.record_err {f : Flat} {e : SFault} (h : Spec.metadata f = .error e) : Spec.record f = .error e := by
  unfold Spec.metadata at h
  unfold Spec.record
  rcases hh : (parseHeader : Spec Header) f with e | ⟨hd, f'⟩
  · rw [Spec.bind_err hh] at h ⊢; cases h; rfl
  · rw [Spec.bind_ok hh] at h ⊢
    unfold Spec.recordWithHeader; rw [h]

theorem Spec.record_ok {f f' r : Flat} {md : Metadata} (h : Spec.metadata f = .ok ((r, md), f')) :
    Spec.record f = Spec.bodyOf r md f' := by
  unfold Spec.metadata at h
  unfold Spec.record
  rcases hh : (parseHeader : Spec Header) f with e | ⟨hd, f1⟩
  · rw [Spec.bind_err hh] at h; cases h
  · rw [Spec.bind_ok hh] at h ⊢
    unfold Spec.recordWithHeader; rw [h]; rfl

theorem Ind.bodyOf {r r' f' g' : Flat} {md : Metadata} (h1 : SameInput r r') (h2 : r.s.fin = .eof) (h3 : r.s.bytes.length < usizeLimit)
    (h4 : r.cfg.Wf) (n1 : Spec.bodyOf r md f' ≠ .error .stuck)
    (n2 : Spec.bodyOf r' md g' ≠ .error .stuck) :
    (∃ e, Spec.bodyOf r md f' = .error (.err e) ∧ Spec.bodyOf r' md g' = .error (.err e)) ∨
    ∃ a, Spec.bodyOf r md f' = .ok (a, f') ∧ Spec.bodyOf r' md g' = .ok (a, g') := by
  unfold Spec.bodyOf at *
  have ho := Refines.al_indep (fun a c c' h1 h2 => h1.symm.trans h2) (Refines.body (β := Cursor) md.ty)
    (f := r.withMisc md.misc) (f' := r'.withMisc md.misc) ⟨h1.bytes, h1.fin, h1.off, by simp only [Flat.withMisc, h1.cfg]⟩ h2 h3
    (h4.withMisc _) (fun e => n1 (by simp only [e])) (fun e => n2 (by simp only [e]))
  rcases hr : (parseBody md.ty : Spec (Record List)) (r.withMisc md.misc) with e | ⟨c, i⟩ <;>
    rcases hr' : (parseBody md.ty : Spec (Record List)) (r'.withMisc md.misc) with e' | ⟨c', j⟩ <;>
    rw [hr, hr'] at ho
  · have : (.error e : Except SFault (Record List)) = .error e' := ho
    cases this
    cases e with
    | stuck => exact absurd (by simp only [hr]) n1
    | err e => exact .inl ⟨e, rfl, rfl⟩
  · have : (.error e : Except SFault (Record List)) = .ok c' := ho
    cases this
  · have : (.ok c : Except SFault (Record List)) = .error e' := ho
    cases this
  · have : (.ok c : Except SFault (Record List)) = .ok c' := ho
    cases this
    exact .inr ⟨(c, md), rfl, rfl⟩

theorem Ind.recordWithHeader (hd : Header) : Ind (Spec.recordWithHeader hd) := by
  intro f g h hw
  unfold Spec.recordWithHeader
  rcases IndSub.metadataWithHeader hd f g h hw with ⟨e, a, b⟩ | ⟨r, r', md, f', g', a, b, h1, h2, h3, h4, h5⟩
  · rw [a, b]; exact fun _ _ => .inl ⟨e, rfl, rfl⟩
  · rw [a, b]
    intro n1 n2
    rcases Ind.bodyOf (f' := f') (g' := g') h1 h2 h3 h4 n1 n2 with h | ⟨x, i, j⟩
    · exact .inl h
    · exact .inr ⟨x, f', g', i, j, h5⟩

theorem Ind.record : Ind Spec.record := Ind.bind Ind.header Ind.recordWithHeader

theorem Ind.take (n : Nat) : Ind (Spec.take n) := by
  intro f g h hw _ _
  unfold Spec.take
  rw [← h.bytes, ← h.fin]
  by_cases hn : n ≤ f.s.bytes.length
  · simp only [if_pos hn]; exact .inr ⟨_, _, _, rfl, rfl, by simp only [Flat.adv]; omega, h.adv n, hw⟩
  · simp only [if_neg hn]; exact .inl ⟨_, rfl, rfl⟩

theorem Ind.padded {s : Spec α} (h : Ind s) : Ind (Spec.padded 8 s) := by
  intro f g hs hw n1 n2
  have m1 : s f ≠ .error .stuck := fun e => n1 (by unfold Spec.padded; rw [if_neg (by decide), e])
  have m2 : s g ≠ .error .stuck := fun e => n2 (by unfold Spec.padded; rw [if_neg (by decide), e])
  unfold Spec.padded
  rw [if_neg (by decide), if_neg (by decide)]
  rcases h f g hs hw m1 m2 with ⟨e, a, b⟩ | ⟨x, f', g', a, b, ho, hs', hw'⟩
  · rw [a, b]; exact .inl ⟨e, rfl, rfl⟩
  · rw [a, b]
    have hd : g'.off - g.off = f'.off - f.off := by omega
    dsimp only
    rw [hd]
    by_cases h0 : (f'.off - f.off) % 8 = 0
    · rw [if_pos h0, if_pos h0]; exact .inr ⟨x, f', g', rfl, rfl, ho, hs', hw'⟩
    · rw [if_neg h0, if_neg h0]
      have nt : ∀ n (f : Flat), Spec.take n f ≠ .error .stuck := by
        intro n f; unfold Spec.take; split <;> nofun
      rcases Ind.take (8 - (f'.off - f.off) % 8) f' g' hs' hw' (nt _ _) (nt _ _) with ⟨e, c, d⟩ | ⟨y, i, j, c, d, ho', hr⟩
      · rw [c, d]; exact .inl ⟨e, rfl, rfl⟩
      · rw [c, d]; exact .inr ⟨x, i, j, rfl, rfl, by omega, hr⟩

theorem Ind.splitAt (l : List T) (n : Nat) : Ind (Spec.splitAt l n) := by
  unfold Spec.splitAt
  split
  · exact fun _ _ _ _ h => absurd rfl h
  · exact Ind.pure _

theorem Ind.kept : Kept (M := Spec) (C := List) Ind where
  pure := Ind.pure
  bind := Ind.bind
  fail := Ind.fail
  config := Ind.config
  array := Ind.bytes
  bytes := Ind.bytes
  rest := Ind.rest
  restTrimNul := Ind.bind Ind.rest fun _ => Ind.pure _
  padded := Ind.padded
  slice _ n h := Ind.slice h n
  textPoke := Ind.bind Ind.u64 fun _ => Ind.bind Ind.u16 fun _ => Ind.bind Ind.u16 fun _ => Ind.bind (Ind.bytes _) fun _ =>
    Ind.bind (Ind.splitAt _ _) fun _ => Ind.pure _

theorem Ind.attr : Ind Spec.parseAttr := by
  refine Ind.bind Ind.u32 fun t => Ind.bind Ind.u32 fun n => Ind.ite (Ind.fail _) fun f g h hw n1 n2 => ?_
  have hb := Ind.kept.attrBody t n (f.region (n.toNat - 4)) (g.region (n.toNat - 4)) (h.region _) hw (NoStuck.attrBody t n _)
    (NoStuck.attrBody t n _)
  rw [← h.bytes, ← h.fin]
  by_cases hl : n.toNat - 4 ≤ f.s.bytes.length
  · simp only [if_pos hl]
    rcases hb with ⟨e, a, b⟩ | ⟨x, i, j, a, b, _⟩
    · rw [a, b]; exact .inl ⟨e, rfl, rfl⟩
    · rw [a, b]; exact .inr ⟨x, _, _, rfl, rfl, by simp only [Flat.adv]; omega, h.adv _, hw⟩
  · simp only [if_neg hl]; exact .inl ⟨_, rfl, rfl⟩

theorem Ind.call (c : Call T) : Ind c.flat := by
  cases c with
  | array n => exact Ind.bytes n
  | direct n => exact fun _ _ _ _ h => absurd rfl h
  | entries n => exact Ind.slice Ind.kept.namespaceEntry n
  | branches n => exact Ind.slice Ind.kept.branchEntry n
  | header => exact Ind.header
  | attr => exact Ind.attr
  | entry => exact Ind.kept.namespaceEntry
  | branch => exact Ind.kept.branchEntry
  | mmapDetail => exact Ind.kept.mmapDetail
  | sampleId => exact Ind.kept.sampleId
  | readValue => exact Ind.kept.readValue
  | readGroup => exact Ind.kept.readGroup
  | body ty => exact Ind.kept.body ty
  | visit => exact Ind.record
  | visitWith h => exact Ind.recordWithHeader h

theorem Ind.attempt {s : Spec α} (h : Ind s) : Ind (Spec.attempt s) := by
  intro f g hs hw h1 h2
  unfold Spec.attempt at *
  rcases hf : s f with e | ⟨a, f'⟩
  · rw [hf] at h1; exact absurd rfl h1
  · rcases hg : s g with e | ⟨b, g'⟩
    · rw [hg] at h2; exact absurd rfl h2
    · rcases h f g hs hw (by rw [hf]; nofun) (by rw [hg]; nofun) with ⟨e, a, _⟩ | ⟨x, i, j, a, b, h3⟩
      · rw [hf] at a; cases a
      · rw [hf] at a; rw [hg] at b; cases a; cases b
        exact .inr ⟨_, _, _, rfl, rfl, h3⟩

theorem Ind.attemptOn {s : Spec α} (h : Ind s) {r r' f g : Flat} (hs : SameBytes r r') (hw : r.cfg.Wf)
    (h1 : Spec.attemptOn r s f ≠ .error .stuck) (h2 : Spec.attemptOn r' s g ≠ .error .stuck) :
    ∃ a, Spec.attemptOn r s f = .ok (a, f) ∧ Spec.attemptOn r' s g = .ok (a, g) := by
  have n1 : s r ≠ .error .stuck := fun e => h1 (by unfold Spec.attemptOn; rw [e])
  have n2 : s r' ≠ .error .stuck := fun e => h2 (by unfold Spec.attemptOn; rw [e])
  rcases h r r' hs hw n1 n2 with ⟨e, a, b⟩ | ⟨x, i, j, a, b, _⟩
  · exact ⟨.error e, by unfold Spec.attemptOn; rw [a], by unfold Spec.attemptOn; rw [b]⟩
  · exact ⟨.ok x, by unfold Spec.attemptOn; rw [a], by unfold Spec.attemptOn; rw [b]⟩

theorem IndSub.then {s : Spec (Flat × Metadata)} (h : IndSub s) {body : Spec T} (hb : Ind body)
    {k : Metadata → Except ParseError T → Spec α} (hk : ∀ md r, Ind (k md r)) :
    Ind (s >>= fun x => Spec.attemptOn x.1 body >>= fun r => k x.2 r) := by
  intro f g hs hw
  rcases h f g hs hw with ⟨e, a, b⟩ | ⟨r, r', md, f', g', a, b, h1, h2, h3, h4, h5, h6, h7⟩
  · rw [Spec.bind_err a, Spec.bind_err b]; exact fun _ _ => .inl ⟨e, rfl, rfl⟩
  · rw [Spec.bind_ok a, Spec.bind_ok b]
    intro n1 n2
    obtain ⟨x, hx, hy⟩ := Ind.attemptOn hb h1.same h4 (fun e => n1 (Spec.bind_err e)) (fun e => n2 (Spec.bind_err e))
    rw [Spec.bind_ok hx] at n1 ⊢
    rw [Spec.bind_ok hy] at n2 ⊢
    refine (hk md x f' g' h6 h7 n1 n2).imp_right ?_
    rintro ⟨y, i, j, c1, c2, c3, c4⟩
    exact ⟨y, i, j, c1, c2, by omega, c4⟩

theorem Ind.prog (prog : Prog α) : Ind prog.flat := by
  induction prog with
  | done a => exact Ind.pure a
  | fail e => exact Ind.fail e
  | config k ih => exact Ind.bind Ind.config ih
  | u8 k ih => exact Ind.bind Ind.u8 ih
  | u16 k ih => exact Ind.bind Ind.u16 ih
  | u32 k ih => exact Ind.bind Ind.u32 ih
  | u64 k ih => exact Ind.bind Ind.u64 ih
  | bytes n k ih => exact Ind.bind (Ind.bytes n) ih
  | rest k ih => exact Ind.bind Ind.rest ih
  | restTrimNul k ih => exact Ind.bind (Ind.bind Ind.rest fun _ => Ind.pure _) ih
  | words n k ih => exact Ind.bind (Ind.slice Ind.u64 n) ih
  | repeated size item n k ihi ih => exact Ind.bind (Ind.repeated ihi n) ih
  | metadata body k ihb ih => exact IndSub.metadata.then ihb ih
  | metadataWith h body k ihb ih => exact (IndSub.metadataWithHeader h).then ihb ih
  | call c k ih => exact Ind.bind (Ind.call c) ih
  | record k ih => exact Ind.bind Ind.record fun r => ih r.1
  | attempt m k ihm ih => exact Ind.bind (Ind.attempt ihm) ih

theorem NoStuck.header : NoStuck (parseHeader : Spec Header) :=
  NoStuck.bind NoStuck.u32 fun _ => NoStuck.bind NoStuck.u16 fun _ => NoStuck.bind NoStuck.u16 fun _ => NoStuck.pure _

theorem NoStuck.metadataWithHeader (hd : Header) : NoStuck (Spec.metadataWithHeader hd) := by
  intro f
  rcases Spec.metadata_cases hd f with ⟨_, a⟩ | ⟨_, _, a⟩ | ⟨_, _, _, a⟩ | ⟨_, _, _, _, a⟩ | ⟨_, _, _, _, sid, i, _, a⟩ <;>
    rw [a] <;> nofun

theorem NoStuck.attemptOn {s : Spec T} (h : NoStuck s) (r : Flat) : NoStuck (Spec.attemptOn r s) := by
  intro f
  have := h r
  unfold Spec.attemptOn
  rcases hs : s r with e | ⟨a, r'⟩
  · cases e with
    | stuck => exact absurd hs this
    | err e => nofun
  · nofun

theorem Spec.metadata_ty {h : Header} {f f' r : Flat} {md : Metadata} (hm : Spec.metadataWithHeader h f = .ok ((r, md), f')) :
    md.ty = h.type_ := by
  rcases Spec.metadata_cases h f with ⟨_, a⟩ | ⟨_, _, a⟩ | ⟨a1, a2, _, a⟩ | ⟨_, _, _, _, a⟩ | ⟨a1, a2, _, _, sid, i, _, a⟩ <;>
    rw [a] at hm <;> cases hm <;> rfl

theorem NoStuck.bodyPlain {ty : U32} (h : ty.toNat ∉ [9, 16, 20]) : NoStuck (parseBody ty : Spec (Record List)) := by
  simp only [List.mem_cons, List.not_mem_nil, or_false, not_or] at h
  exact NoStuck.body h.1 h.2.1 h.2.2

theorem NoStuck.recordWithHeader {hd : Header} (h : hd.type_.toNat ∉ [9, 16, 20]) : NoStuck (Spec.recordWithHeader hd) := by
  intro f
  unfold Spec.recordWithHeader
  rcases hs : Spec.metadataWithHeader hd f with e | ⟨⟨r, md⟩, f'⟩
  · cases e with
    | stuck => exact absurd hs (NoStuck.metadataWithHeader hd f)
    | err e => nofun
  · have := NoStuck.bodyPlain (Spec.metadata_ty hs ▸ h) (r.withMisc md.misc)
    dsimp only
    rcases hb : (parseBody md.ty : Spec (Record List)) (r.withMisc md.misc) with e | ⟨c, i⟩
    · rw [hb] at this; exact fun h => this (by cases h; rfl)
    · nofun

theorem NoStuck.call (c : Call T) (h : c.Plain) : NoStuck c.flat := by
  cases c with
  | array n => exact NoStuck.bytes n
  | direct n => exact h.elim
  | entries n => exact h.elim
  | branches n => exact h.elim
  | header => exact NoStuck.header
  | attr => exact NoStuck.attr
  | entry => exact NoStuck.bind NoStuck.u64 fun _ => NoStuck.bind NoStuck.u64 fun _ => NoStuck.pure _
  | branch =>
    exact NoStuck.bind NoStuck.u64 fun _ => NoStuck.bind NoStuck.u64 fun _ => NoStuck.bind NoStuck.u64 fun _ => NoStuck.pure _
  | mmapDetail =>
    unfold Call.flat parseMmapDetail
    noStuck
  | sampleId => exact NoStuck.sampleId
  | readValue => exact NoStuck.readValue
  | readGroup => exact h.elim
  | body ty => exact NoStuck.bodyPlain h
  | visit => exact h.elim
  | visitWith hd => exact NoStuck.recordWithHeader h

/-- Programs of the plain kind are specified everywhere. -/
theorem NoStuck.prog (prog : Prog α) : prog.Plain → NoStuck prog.flat := by
  induction prog with
  | done a => exact fun _ => NoStuck.pure a
  | fail e => exact fun _ => NoStuck.fail e
  | config k ih => exact fun h => NoStuck.bind NoStuck.config fun x => ih x (h x)
  | u8 k ih => exact fun h => NoStuck.bind NoStuck.u8 fun x => ih x (h x)
  | u16 k ih => exact fun h => NoStuck.bind NoStuck.u16 fun x => ih x (h x)
  | u32 k ih => exact fun h => NoStuck.bind NoStuck.u32 fun x => ih x (h x)
  | u64 k ih => exact fun h => NoStuck.bind NoStuck.u64 fun x => ih x (h x)
  | bytes n k ih => exact fun h => NoStuck.bind (NoStuck.bytes n) fun x => ih x (h x)
  | rest k ih => exact fun h => NoStuck.bind NoStuck.rest fun x => ih x (h x)
  | restTrimNul k ih => exact fun h => NoStuck.bind NoStuck.restTrimNul fun x => ih x (h x)
  | words n k ih => exact fun h => h.elim
  | repeated size item n k ihi ih =>
    intro h
    refine NoStuck.bind ?_ fun x => ih x (h.2 x)
    have : ∀ n, NoStuck (Spec.repeated item.flat n) := by
      intro n
      induction n with
      | zero => exact NoStuck.pure _
      | succ n ihn => exact NoStuck.bind (ihi h.1) fun _ => NoStuck.bind ihn fun _ => NoStuck.pure _
    exact this n
  | metadata body k ihb ih =>
    exact fun h => NoStuck.bind (NoStuck.bind NoStuck.header NoStuck.metadataWithHeader) fun x =>
      NoStuck.bind (NoStuck.attemptOn (ihb h.1) x.1) fun r => ih x.2 r (h.2 x.2 r)
  | metadataWith hd body k ihb ih =>
    exact fun h => NoStuck.bind (NoStuck.metadataWithHeader hd) fun x =>
      NoStuck.bind (NoStuck.attemptOn (ihb h.1) x.1) fun r => ih x.2 r (h.2 x.2 r)
  | call c k ih => exact fun h => NoStuck.bind (NoStuck.call c h.1) fun x => ih x (h.2 x)
  | record k ih => exact fun h => h.elim
  | attempt m k ihm ih => exact fun h => h.elim

end Perf
