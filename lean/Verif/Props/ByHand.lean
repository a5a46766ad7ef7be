import Verif.Props.User
import Verif.Proof.Cfg
import Mathlib.Tactic.IntervalCases
/-!
# C72: a record read in two steps

`parse_metadata` returns a parser for the body of a record, and the type of the record. The caller then reads the body with
`parse::<T>()`, where `T` goes with the type, and may convert it with `Record::from`.
-/
namespace Perf
variable {β : Type} [ParseBuf β] {O : Type}

/-- How the body of a record of type `ty` is read by hand: the type of its contents, the call that parses them, and what
`Record` they make. For most types the last is `Record::from`. SWITCH (14) is missing, as in `parse_record`: finding B3. -/
inductive Way : Nat → {T : Type} → ((γ : Type) → [ParseBuf γ] → P γ T) → (T → Record Cow) → Prop
  | mmap : Way 1 (fun _ => parseMmap) .fromMmap
  | lost : Way 2 (fun _ => parseLost) .fromLost
  | comm : Way 3 (fun _ => parseComm) .fromComm
  | exit : Way 4 (fun _ => parseExit) .exit
  | throttle : Way 5 (fun _ => parseThrottle) .throttle
  | unthrottle : Way 6 (fun _ => parseThrottle) .unthrottle
  | fork : Way 7 (fun _ => parseExit) .fork
  | read : Way 8 (fun _ => parseRead) .fromRead
  | sample : Way 9 (fun _ => parseSample) .fromSample
  | mmap2 : Way 10 (fun _ => parseMmap2) .fromMmap2
  | aux : Way 11 (fun _ => parseAux) .fromAux
  | itraceStart : Way 12 (fun _ => parseITraceStart) .fromITraceStart
  | lostSamples : Way 13 (fun _ => parseLostSamples) .fromLostSamples
  | switchCpuWide : Way 15 (fun _ => parseSwitchCpuWide) .fromSwitchCpuWide
  | namespaces : Way 16 (fun _ => parseNamespaces) .fromNamespaces
  | ksymbol : Way 17 (fun _ => parseKSymbol) .fromKSymbol
  | bpfEvent : Way 18 (fun _ => parseBpfEvent) .fromBpfEvent
  | cgroup : Way 19 (fun _ => parseCGroup) .fromCGroup
  | textPoke : Way 20 (fun _ => parseTextPoke) .fromTextPoke
  | auxOutputHwId : Way 21 (fun _ => parseAuxOutputHwId) .fromAuxOutputHwId
  | unknown (ty : U32) (h : ty.toNat = 0 ∨ ty.toNat = 14 ∨ 22 ≤ ty.toNat) : Way ty.toNat (fun _ => P.rest) (.unknown ty)

/-- The two steps: `let (mut p, metadata) = self.parse_metadata_with_header(header)?; let value = p.parse::<T>()?;` -/
def P.byHandWith {T : Type} (header : Header) (m : P Cursor T) : P β (T × Metadata) := do
  let (p, md) ← P.metadataWithHeader header
  let (value, _) ← P.onChild p m
  pure (value, md)

/-- The two steps with `parse_metadata`: the caller looks at the type and chooses the second call. -/
def P.byHand (m : U32 → P Cursor (Record Cow)) : P β (Record Cow × Metadata) := do
  let (p, md) ← P.metadata
  let (value, _) ← P.onChild p (m md.ty)
  pure (value, md)

/-- The configuration of the parser already has the bit of `misc` that the body depends on: `MMAP_BUILD_ID` (14) for MMAP2, and
`SWITCH_OUT` (13) for SWITCH_CPU_WIDE. For the other types nothing is required. A configuration made from an attr has neither. -/
structure MiscFits (c : ParseConfig) (h : Header) : Prop where
  detail : h.type_.toNat = 10 → c.misc.getLsbD 14 = h.misc.getLsbD 14
  out : h.type_.toNat = 15 → c.misc.getLsbD 13 = h.misc.getLsbD 13

theorem Way.body {ty : U32} {T : Type} {m : (γ : Type) → [ParseBuf γ] → P γ T} {k : T → Record Cow} (w : Way ty.toNat m k)
    {γ : Type} [ParseBuf γ] : (parseBody ty : P γ (Record Cow)) = (m γ >>= fun a => pure (k a)) := by
  generalize hn : ty.toNat = n at w
  cases w
  case unknown ty' h =>
    obtain rfl : ty = ty' := BitVec.eq_of_toNat_eq hn
    unfold parseBody
    split <;> first | rfl | omega
  all_goals (unfold parseBody; rw [hn]; rfl)

/-- A buffer and the same buffer with its position counted once more. -/
theorem BufTwin.wrap : BufTwin (β := β) (γ := Tracking β) true (fun b t => b = t.buf) where
  chunk b t h := by
    subst h
    refine ⟨?_, rfl⟩
    show ExLike _ (ParseBuf.chunk t.buf).1 (ParseBuf.chunk t.buf).1
    rcases (ParseBuf.chunk t.buf).1 with e | ⟨l, x⟩
    · rfl
    · refine ⟨rfl, ?_⟩
      cases l
      · trivial
      · exact fun _ => rfl
  advance b t n h := by
    subst h
    show OptLike _ (ParseBuf.advance t.buf n) ((ParseBuf.advance t.buf n).map _)
    cases ParseBuf.advance t.buf n
    · trivial
    · rfl
  hint b t h := by subst h; rfl
  steps b t h := by subst h; rfl

/-- What `parse_metadata_with_header` says about the record, and the configuration it gives to the parser of the body. -/
theorem P.metadataWithHeader_keeps {h : Header} {p : Parser β} {c : Parser Cursor} {md : Metadata}
    (hm : (P.metadataWithHeader h p).res = .ok (c, md)) : c.config = p.config ∧ md.ty = h.type_ ∧ md.misc = h.misc := by
  have := (SameInts.refl (c := p.config)).just
  have h1 := (Twin.metadataWithHeader' (A := Just p.config p.config) (R := Eq) (BufTwin.refl (β := β)) h
    (fun _ => ⟨fun _ _ e => by rw [e.1, e.2], Twin.sampleId (Cursor.twin true) fun _ _ e => by rw [e.1, e.2]; exact ⟨rfl, fun _ _ _ => rfl⟩⟩)
    p p ⟨rfl, rfl, ⟨rfl, rfl⟩, nofun⟩).res
  rw [hm] at h1
  exact ⟨h1.1.config.1, h1.2.2⟩

/-- The two parsers of a body: the one returned by `parse_metadata`, and the one made from it by `parse_record`. -/
theorem P.body_twice {h : Header} {p : Parser β} {c : Parser Cursor} {md : Metadata} (hm : (P.metadataWithHeader h p).res = .ok (c, md))
    (hf : MiscFits p.config h) : ((parseBody md.ty : P Cursor (Record Cow)) c).res =
      ((parseBody md.ty : P (Tracking Cursor) (Record Cow)) (Parser.new c.data (c.config.withMisc md.misc))).res := by
  obtain ⟨hc, hty, hmi⟩ := P.metadataWithHeader_keeps hm
  obtain ⟨len, hfr, -⟩ := P.metadataWithHeader_post h p _ hm
  refine ExLike.eq (Twin.body BufTwin.wrap md.ty c (Parser.new c.data (c.config.withMisc md.misc)) ⟨rfl, hfr.tracked, ?_, nofun⟩).res
  show BodyAgree _ c.config (c.config.withMisc md.misc)
  rw [hc, hty, hmi]
  refine ⟨⟨rfl, rfl, rfl⟩, fun _ => ⟨rfl, rfl⟩, ?_, ?_, ?_, ?_⟩
  · intro ht; rw [ParseConfig.withMisc_misc]; exact hf.detail ht
  · intro ht; rw [ParseConfig.withMisc_misc]; exact hf.out ht
  · intro ht; rw [ParseConfig.withMisc_readFormat]
  · intro ht
    refine ⟨?_, ?_, ?_, ?_, ?_⟩
    · rw [ParseConfig.withMisc_sampleType]; exact fun _ _ => rfl
    · rw [ParseConfig.withMisc_readFormat]; exact fun _ => rfl
    · rw [ParseConfig.withMisc_branchHwIndex]; exact fun _ => rfl
    · exact fun _ => rfl
    · exact fun _ => rfl

omit [ParseBuf β] in
/-- The outcome of the second step. -/
theorem P.byHand_child {α γ : Type} {c : Parser γ} (m : P γ α) (md : Metadata) (p : Parser β) :
    ((P.onChild c m >>= fun r => pure (r.1, md) : P β (α × Metadata)) p).res = ((m c).res.map fun a => (a, md)) ∧
    ((P.onChild c m >>= fun r => pure (r.1, md) : P β (α × Metadata)) p).st = p := by
  rcases hm : m c with ⟨r, q, l⟩
  cases r with
  | error e => rw [P.bind_err (P.onChild_err hm p)]; exact ⟨rfl, rfl⟩
  | ok a => rw [P.bind_ok (P.onChild_ok hm p)]; exact ⟨rfl, rfl⟩

/-- Every type has exactly one way to be read. -/
theorem c72_ways (ty : U32) : ∃ (T : Type) (m : (γ : Type) → [ParseBuf γ] → P γ T) (k : T → Record Cow), Way ty.toNat m k := by
  by_cases h : ty.toNat = 0 ∨ ty.toNat = 14 ∨ 22 ≤ ty.toNat
  · exact ⟨_, _, _, .unknown ty h⟩
  · generalize ty.toNat = n at *
    have : n < 22 := by omega
    interval_cases n
    all_goals first | omega | exact ⟨_, _, _, by constructor⟩

/-- **C72** with a header that was read before. Over every buffer, however it behaves: for every visitor, `parse_record_with_header`
gives what the two steps give, the visitor's method being called on the value from the second step. The parser is left in the
same state. Missing: the two types whose body depends on `misc`, see `c72_switch_false` and `c72_mmap2_false`. -/
theorem c72_with_header_partial {T : Type} {m : (γ : Type) → [ParseBuf γ] → P γ T} {k : T → Record Cow} (p : Parser β) (h : Header)
    (hf : MiscFits p.config h) (w : Way h.type_.toNat m k) (v : Visitor Cow O) :
    (P.recordWithHeader v h p).res = (P.byHandWith h (m Cursor) p).res.bind (fun x => v.apply (k x.1) x.2) ∧
    (P.recordWithHeader v h p).st = (P.byHandWith h (m Cursor) p).st := by
  rw [(c03_fast_path v h p).1, (c03_fast_path v h p).2]
  unfold P.recordWithHeaderGeneral P.byHandWith
  rcases hm : (P.metadataWithHeader h : P β _) p with ⟨r, q, l⟩
  cases r with
  | error e => rw [P.bind_err hm, P.bind_err hm]; exact ⟨rfl, rfl⟩
  | ok x =>
    obtain ⟨c, md⟩ := x
    rw [P.bind_ok hm, P.bind_ok hm]
    have hres : (P.metadataWithHeader h p).res = .ok (c, md) := by rw [hm]
    have hb := P.body_twice hres hf
    obtain ⟨-, hty, -⟩ := P.metadataWithHeader_keeps hres
    obtain ⟨h1, h2⟩ := P.byHand_child (c := c) (m Cursor) md q
    rcases hw : (parseBody md.ty : P (Tracking Cursor) (Record Cow)) (Parser.new c.data (c.config.withMisc md.misc)) with ⟨r, q', l'⟩
    rw [hw, show md.ty = h.type_ from hty, w.body] at hb
    have h3 := P.recordImpl_run c v md q hw
    dsimp only at h1 h2 h3 ⊢
    rw [h1, h2, h3]
    refine ⟨?_, rfl⟩
    rcases hc : m Cursor c with ⟨r2, q2, l2⟩
    cases r2 with
    | error e =>
      rw [P.bind_err hc] at hb
      have hb : Except.error e = r := hb
      subst hb; rfl
    | ok a =>
      rw [P.bind_ok hc] at hb
      have hb : Except.ok (k a) = r := hb
      subst hb; rfl

/-- The metadata given by the first step names the type in the header. -/
theorem P.byHandWith_ty {T : Type} (h : Header) (m : P Cursor T) : Post (fun x => x.2.ty = h.type_) (P.byHandWith h m : P β (T × Metadata)) := by
  intro p x hx
  unfold P.byHandWith at hx
  rcases hm : (P.metadataWithHeader h : P β _) p with ⟨r, q, l⟩
  cases r with
  | error e => rw [P.bind_err hm] at hx; cases hx
  | ok y =>
    obtain ⟨c, md⟩ := y
    rw [P.bind_ok hm] at hx
    have hk := (P.metadataWithHeader_keeps (show (P.metadataWithHeader h p).res = .ok (c, md) by rw [hm])).2.1
    have h1 := (P.byHand_child (c := c) m md q).1
    have hx : ((P.onChild c m >>= fun r => pure (r.1, md) : P β (T × Metadata)) q).res = .ok x := hx
    rw [h1] at hx
    rcases hr : (m c).res with e | a <;> rw [hr] at hx <;> cases hx
    exact hk

theorem P.byHand_tail {T : Type} (h : Header) (m' : P Cursor T) (k : T → Record Cow) (m : U32 → P Cursor (Record Cow))
    (hm : m h.type_ = (m' >>= fun a => pure (k a))) (q : Parser β) :
    ((P.metadataWithHeader h >>= fun x => P.onChild x.1 (m x.2.ty) >>= fun r => pure (r.1, x.2) : P β (Record Cow × Metadata)) q).res =
      (P.byHandWith h m' q).res.map (fun x => (k x.1, x.2)) ∧
    ((P.metadataWithHeader h >>= fun x => P.onChild x.1 (m x.2.ty) >>= fun r => pure (r.1, x.2) : P β (Record Cow × Metadata)) q).st =
      (P.byHandWith h m' q).st := by
  unfold P.byHandWith
  rcases hr : (P.metadataWithHeader h : P β _) q with ⟨r, q', l⟩
  cases r with
  | error e => rw [P.bind_err hr, P.bind_err hr]; exact ⟨rfl, rfl⟩
  | ok y =>
    obtain ⟨c, md⟩ := y
    rw [P.bind_ok hr, P.bind_ok hr]
    have hty := (P.metadataWithHeader_keeps (show (P.metadataWithHeader h q).res = .ok (c, md) by rw [hr])).2.1
    obtain ⟨h1, h2⟩ := P.byHand_child (c := c) m' md q'
    obtain ⟨h3, h4⟩ := P.byHand_child (c := c) (m md.ty) md q'
    dsimp only at h1 h2 h3 h4 ⊢
    rw [h1, h2, h3, h4, hty, hm]
    refine ⟨?_, rfl⟩
    rcases hc : m' c with ⟨r, q2, l2⟩
    cases r with
    | error e => rw [P.bind_err hc]; rfl
    | ok a => rw [P.bind_ok hc]; rfl

omit [ParseBuf β] in
theorem Way.record {ty : U32} {T : Type} {m : (γ : Type) → [ParseBuf γ] → P γ T} {k : T → Record Cow} (w : Way ty.toNat m k) (t : T)
    {md : Metadata} (h : md.ty = ty) : Except.ok (k t) = (recordVisitor Cow).apply (k t) md := by
  generalize hn : ty.toNat = n at w
  cases w
  case unknown ty' _ =>
    obtain rfl : ty = ty' := BitVec.eq_of_toNat_eq hn
    subst h; rfl
  all_goals rfl

omit [ParseBuf β] in
theorem Way.pair {ty : U32} {T : Type} {m : (γ : Type) → [ParseBuf γ] → P γ T} {k : T → Record Cow} (w : Way ty.toNat m k) (t : T)
    {md : Metadata} (h : md.ty = ty) : Except.ok (k t, md) = pairVisitor.apply (k t) md := by
  generalize hn : ty.toNat = n at w
  cases w
  case unknown ty' _ =>
    obtain rfl : ty = ty' := BitVec.eq_of_toNat_eq hn
    subst h; rfl
  all_goals rfl

theorem P.header_config (p : Parser β) : ((parseHeader : P β Header) p).st.config = p.config := by
  have := (SameInts.refl (c := p.config)).just
  exact (Twin.header (A := Just p.config p.config) (R := Eq) BufTwin.refl p p ⟨rfl, rfl, ⟨rfl, rfl⟩, nofun⟩).st.config.1

/-- **C72** A caller who reads the metadata with `parse_metadata`, looks at the type, and reads the body in the way that goes with
it, gets the record and the metadata that a collecting visitor gets from `parse_record`, the record that `parse::<Record>`
returns, or the same error; and leaves the parser in the same state. Missing: see `c72_with_header_partial`. -/
theorem c72_by_hand_partial (p : Parser β) (hf : ∀ h, ((parseHeader : P β Header) p).res = .ok h → MiscFits p.config h)
    (m : U32 → P Cursor (Record Cow)) (hw : ∀ ty, ∃ (T : Type) (m' : (γ : Type) → [ParseBuf γ] → P γ T) (k : T → Record Cow),
      Way ty.toNat m' k ∧ m ty = (m' Cursor >>= fun a => pure (k a))) :
    (P.byHand m p).res = (P.record pairVisitor p).res ∧
    (P.byHand m p).res.map Prod.fst = (P.parseRecord p).res ∧
    (P.byHand m p).st = (P.parseRecord p).st := by
  unfold P.byHand P.parseRecord P.record P.metadata
  rw [P.bind_assoc_run]
  rcases hp : ((parseHeader : P β Header) p) with ⟨r, q, l⟩
  cases r with
  | error e => rw [P.bind_err hp, P.bind_err hp, P.bind_err hp]; exact ⟨rfl, rfl, rfl⟩
  | ok h =>
    rw [P.bind_ok hp, P.bind_ok hp, P.bind_ok hp]
    have hq : q.config = p.config := by have := P.header_config p; rwa [hp] at this
    have hfit : MiscFits q.config h := by rw [hq]; exact hf h (by rw [hp])
    obtain ⟨T, m', k, w, hm'⟩ := hw h.type_
    obtain ⟨h1, -⟩ := c72_with_header_partial q h hfit w pairVisitor
    obtain ⟨h2, h3⟩ := c72_with_header_partial q h hfit w (recordVisitor Cow)
    obtain ⟨h4, h5⟩ := P.byHand_tail h (m' Cursor) k m hm' q
    dsimp only at h1 h2 h3 h4 h5 ⊢
    show (((P.metadataWithHeader h >>= fun x => P.onChild x.1 (m x.2.ty) >>= fun r => pure (r.1, x.2)) : P β _) q).res = (P.recordWithHeader pairVisitor h q).res ∧
      (((P.metadataWithHeader h >>= fun x => P.onChild x.1 (m x.2.ty) >>= fun r => pure (r.1, x.2)) : P β _) q).res.map Prod.fst = (P.recordWithHeader (recordVisitor Cow) h q).res ∧
      (((P.metadataWithHeader h >>= fun x => P.onChild x.1 (m x.2.ty) >>= fun r => pure (r.1, x.2)) : P β _) q).st = (P.recordWithHeader (recordVisitor Cow) h q).st
    rw [h1, h2, h3, h4, h5]
    refine ⟨?_, ?_, rfl⟩
    · have hty := P.byHandWith_ty (β := β) h (m' Cursor) q
      rcases hr : (P.byHandWith h (m' Cursor) q).res with e | ⟨t, md⟩
      · rfl
      · show Except.ok (k t, md) = pairVisitor.apply (k t) md
        have hty : md.ty = h.type_ := hty _ hr
        exact w.pair t hty
    · have hty := P.byHandWith_ty (β := β) h (m' Cursor) q
      rcases hr : (P.byHandWith h (m' Cursor) q).res with e | ⟨t, md⟩
      · rfl
      · show Except.ok (k t) = (recordVisitor Cow).apply (k t) md
        have hty : md.ty = h.type_ := hty _ hr
        exact w.record t hty

/-! ## The two types that differ -/

theorem Twin.switchOut {s : Bool} {A : ParseConfig → ParseConfig → Prop} {γ : Type} {R : β → γ → Prop} [ParseBuf γ] [IntTwin A]
    (S : BufTwin s R) (hA : ∀ c d, A c d → c.misc.getLsbD 13 = false ∧ d.misc.getLsbD 13 = true) :
    Twin s A R (fun a b => ∃ pid tid, a = SwitchCpuWide.in pid tid ∧ b = SwitchCpuWide.out pid tid)
      (parseSwitchCpuWide : P β SwitchCpuWide) (parseSwitchCpuWide : P γ SwitchCpuWide) := by
  unfold parseSwitchCpuWide
  refine bindEq (u32 S) fun pid => bindEq (u32 S) fun tid => withConfig fun c d h _ => ?_
  obtain ⟨h1, h2⟩ := hA c d h
  rw [if_neg (fun hx => by have := (misc_bit c.misc 13 MISC_SWITCH_OUT (by decide) (by omega)).1 hx; rw [h1] at this; cases this),
    if_pos ((misc_bit d.misc 13 MISC_SWITCH_OUT (by decide) (by omega)).2 h2)]
  exact pure ⟨pid, tid, rfl, rfl⟩

/-- **C72** is false of SWITCH_CPU_WIDE, for all of its records of the other kind: when the header says that the task is switched
out and the configuration does not, `parse_record` gives `Out` and the two steps give `In`, with the same ids. (If `parse_record`
fails, so do the two steps, with the same error.) -/
theorem c72_switch_false (p : Parser β) (h : Header) (hty : h.type_.toNat = 15) (ho : h.misc.getLsbD 13 = true) (hc : p.config.misc.getLsbD 13 = false) :
    (∃ e, (P.parseRecordWithHeader h p).res = .error e ∧ (P.byHandWith h parseSwitchCpuWide p).res = .error e) ∨
    (∃ pid tid md, (P.parseRecordWithHeader h p).res = .ok (.switchCpuWide (.out pid tid)) ∧
      (P.byHandWith h parseSwitchCpuWide p).res = .ok (.in pid tid, md)) := by
  have hrun := (c03_fast_path (recordVisitor Cow) h p).1
  unfold P.parseRecordWithHeader
  rw [hrun]
  unfold P.recordWithHeaderGeneral P.byHandWith
  rcases hm : (P.metadataWithHeader h : P β _) p with ⟨r, q, l⟩
  cases r with
  | error e => rw [P.bind_err hm, P.bind_err hm]; exact .inl ⟨e, rfl, rfl⟩
  | ok x =>
    obtain ⟨c, md⟩ := x
    rw [P.bind_ok hm, P.bind_ok hm]
    have hres : (P.metadataWithHeader h p).res = .ok (c, md) := by rw [hm]
    obtain ⟨hcc, hty', hmi⟩ := P.metadataWithHeader_keeps hres
    obtain ⟨len, hfr, -⟩ := P.metadataWithHeader_post h p _ hres
    have : IntTwin (Just c.config (c.config.withMisc md.misc)) := SameInts.just ⟨rfl, rfl, rfl⟩
    have hb := (Twin.switchOut (A := Just c.config (c.config.withMisc md.misc)) BufTwin.wrap
      (by rintro _ _ ⟨rfl, rfl⟩; rw [ParseConfig.withMisc_misc, hcc, hmi]; exact ⟨hc, ho⟩)
      c (Parser.new c.data (c.config.withMisc md.misc)) ⟨rfl, hfr.tracked, ⟨rfl, rfl⟩, nofun⟩).res
    obtain ⟨h1, -⟩ := P.byHand_child (c := c) (parseSwitchCpuWide : P Cursor SwitchCpuWide) md q
    rcases hw : (parseBody md.ty : P (Tracking Cursor) (Record Cow)) (Parser.new c.data (c.config.withMisc md.misc)) with ⟨r, q', l'⟩
    have h3 := P.recordImpl_run c (recordVisitor Cow) md q hw
    have hw' : parseSwitchCpuWide (M := P (Tracking Cursor)) >>= (fun a => pure (.switchCpuWide a)) = (parseBody md.ty : P (Tracking Cursor) (Record Cow)) := by
      unfold parseBody; rw [hty', hty]; rfl
    rw [← hw'] at hw
    dsimp only at h1 h3 ⊢
    rw [h1, h3]
    rcases e1 : (parseSwitchCpuWide : P Cursor SwitchCpuWide) c with ⟨r1, q1, l1⟩
    rcases e2 : (parseSwitchCpuWide : P (Tracking Cursor) SwitchCpuWide) (Parser.new c.data (c.config.withMisc md.misc)) with ⟨r2, q2, l2⟩
    rw [e1, e2] at hb
    cases r1 <;> cases r2
    · have hb : _ = _ := hb
      subst hb
      rw [P.bind_err e2] at hw
      cases hw
      exact .inl ⟨_, rfl, rfl⟩
    · exact hb.elim
    · exact hb.elim
    · obtain ⟨pid, tid, rfl, rfl⟩ := hb
      rw [P.bind_ok e2] at hw
      cases hw
      exact .inr ⟨pid, tid, md, rfl, rfl⟩

/-- A SWITCH_CPU_WIDE record with `SWITCH_OUT`. -/
def switchedOut : List Byte := [15, 0, 0, 0, 0, 32, 16, 0, 7, 0, 0, 0, 9, 0, 0, 0]

/-- The hypotheses of `c72_switch_false` hold of it and the second case is the one that occurs. -/
example : (match (P.parseRecord (Parser.new (⟨64, switchedOut⟩ : Slice) demoCfg)).res,
      (P.byHandWith ⟨15, 0x2000, 16⟩ parseSwitchCpuWide (Parser.new (⟨72, switchedOut.drop 8⟩ : Slice) demoCfg)).res with
    | .ok (.switchCpuWide r), .ok (r', _) => r == .out 7 9 && r' == .in 7 9
    | _, _ => false) = true := by decide +kernel

/-- An MMAP2 record with `MMAP_BUILD_ID`: a build id of 2 bytes, at offset 40. -/
def mapped : List Byte := [10, 0, 0, 0, 0, 64, 80, 0] ++ [1, 0, 0, 0, 2, 0, 0, 0] ++ List.replicate 24 3 ++
  [2, 0, 0, 0, 0xaa, 0xbb] ++ List.replicate 18 0 ++ [5, 0, 0, 0, 6, 0, 0, 0] ++ [47, 97, 0, 0, 0, 0, 0, 0]

/-- **C72** is false of MMAP2: `parse::<Record>` gives the build id, and the two steps read its bytes as device and inode
numbers. -/
theorem c72_mmap2_false : (match (P.parseRecord (Parser.new (⟨64, mapped⟩ : Slice) demoCfg)).res,
      (P.byHandWith ⟨10, 0x4000, 80⟩ parseMmap2 (Parser.new (⟨72, mapped.drop 8⟩ : Slice) demoCfg)).res with
    | .ok (.mmap2 r), .ok (r', _) => (match r.detail, r'.detail with
      | .buildId id len, .default maj min _ _ => id.take 2 == [0xaa, 0xbb] && len == 2 && maj == 2 && min == 0xbbaa
      | _, _ => false)
    | _, _ => false) = true := by decide +kernel

/-- The two theorems apply, e.g. to the same records without the bit, and to every record of another type. -/
example (p : Parser β) (misc size : U16) (h : misc.getLsbD 14 = p.config.misc.getLsbD 14) : MiscFits p.config ⟨10, misc, size⟩ :=
  ⟨fun _ => h.symm, nofun⟩
example (p : Parser β) (misc size : U16) (ty : U32) (h : ty.toNat ≠ 10 ∧ ty.toNat ≠ 15) : MiscFits p.config ⟨ty, misc, size⟩ :=
  ⟨fun e => absurd e h.1, fun e => absurd e h.2⟩

/-! ## What the two steps do for every type -/

/-- `parse_metadata_with_header` only passes on the `misc` of the header. -/
theorem P.metadataWithHeader_misc (h : Header) (m : U16) (p : Parser β) :
    P.metadataWithHeader { h with misc := m } p = ⟨(P.metadataWithHeader h p).res.map fun x => (x.1, { x.2 with misc := m }),
      (P.metadataWithHeader h p).st, (P.metadataWithHeader h p).log⟩ := by
  unfold P.metadataWithHeader
  dsimp only
  by_cases h8 : h.size.toNat < 8
  · rw [if_pos h8, if_pos h8]; rfl
  rw [if_neg h8, if_neg h8]
  rcases hs : (P.splitAt (h.size.toNat - 8) : P β _) p with ⟨e | rp, q, l⟩
  · rw [P.bind_err hs, P.bind_err hs]; rfl
  rw [P.bind_ok hs, P.bind_ok hs]
  by_cases ht : h.type_.toNat = 1 ∨ h.type_.toNat = 9
  · rw [if_pos ht, if_pos ht]; rfl
  rw [if_neg ht, if_neg ht]
  by_cases hl : h.size.toNat - 8 < SampleId.estimateLen rp.config
  · rw [if_pos hl, if_pos hl]; rfl
  rw [if_neg hl, if_neg hl]
  rcases hs1 : (P.onChild rp (P.splitAt (h.size.toNat - 8 - SampleId.estimateLen rp.config)) : P β _) q with ⟨e | ⟨c, rp'⟩, q1, l1⟩
  · rw [P.bind_err hs1, P.bind_err hs1]; rfl
  rw [P.bind_ok hs1, P.bind_ok hs1]
  dsimp only
  rcases hs2 : (P.onChild rp' parseSampleId : P β _) q1 with ⟨e | ⟨sid, rp2⟩, q2, l2⟩
  · rw [P.bind_err hs2, P.bind_err hs2]; rfl
  rw [P.bind_ok hs2, P.bind_ok hs2]
  rfl

/-- **C72** What the two steps do without any condition: the body is read as if the record's `misc` were the one in the parser's configuration.
For every visitor, over every buffer, however it behaves, the visitor's method on the value from the second step and on the metadata from the
first, with that `misc`, is what `parse_record_with_header` gives for the header with that `misc`; and the parser is left in the same state. -/
theorem c72_configured {T : Type} {m : (γ : Type) → [ParseBuf γ] → P γ T} {k : T → Record Cow} (p : Parser β) (h : Header)
    (w : Way h.type_.toNat m k) (v : Visitor Cow O) :
    (P.recordWithHeader v { h with misc := p.config.misc } p).res =
      (P.byHandWith h (m Cursor) p).res.bind (fun x => v.apply (k x.1) { x.2 with misc := p.config.misc }) ∧
    (P.recordWithHeader v { h with misc := p.config.misc } p).st = (P.byHandWith h (m Cursor) p).st := by
  obtain ⟨h1, h2⟩ := c72_with_header_partial p { h with misc := p.config.misc } ⟨fun _ => rfl, fun _ => rfl⟩ w v
  rw [h1, h2]
  unfold P.byHandWith
  have hm := P.metadataWithHeader_misc h p.config.misc p
  rcases hx : P.metadataWithHeader h p with ⟨e | ⟨c, md⟩, q, l⟩ <;> rw [hx] at hm
  · rw [P.bind_err hx, P.bind_err hm]; exact ⟨rfl, rfl⟩
  rw [P.bind_ok hx, P.bind_ok hm]
  dsimp only
  rcases hc : m Cursor c with ⟨e | a, q', l'⟩
  · rw [P.bind_err (P.onChild_err hc q), P.bind_err (P.onChild_err hc q)]
    exact ⟨rfl, rfl⟩
  · rw [P.bind_ok (P.onChild_ok hc q), P.bind_ok (P.onChild_ok hc q)]
    exact ⟨rfl, rfl⟩

/-- A COMM record read in two steps, with the `exec` bit of `misc` set and a trailer-free configuration. -/
example : (match (P.byHandWith ⟨3, 0x2000, 24⟩ (parseComm : P Cursor (Comm Cow))
      (Parser.new (⟨72, [7, 0, 0, 0, 9, 0, 0, 0, 97, 98, 0, 0, 0, 0, 0, 0]⟩ : Slice) demoCfg)).res with
    | .ok (r, md) => r.pid == 7 && r.tid == 9 && r.comm.data == [97, 98] && md.misc == 0x2000
    | .error _ => false) = true := by decide +kernel

end Perf
