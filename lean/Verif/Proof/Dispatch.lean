import Verif.Proof.Records
import Verif.Spec.Record
/-!
# Whole records
-/
namespace Perf
variable {β γ : Type} [ParseBuf β] [Lawful β] [ParseBuf γ] [LawfulEof γ] {O : Type}
open ParserM

theorem Refines.body {β : Type} [ParseBuf β] [LawfulEof β] (ty : U32) :
    Refines (Via Record.view) (parseBody ty : P β (Record Cow)) (parseBody ty) := by
  unfold parseBody
  have e : ∀ {α α' : Type} {R : α → α' → Prop} {m : P β α} {s : Spec α'} {k : α → Record Cow} {k' : α' → Record List},
      Refines R m s → (∀ a c, R a c → (k a).view = k' c) →
      Refines (Via Record.view) (m >>= fun r => Pure.pure (k r)) (s >>= fun r => Pure.pure (k' r)) :=
    fun h hk => Refines.bind h fun a c hr => Refines.pure (hk a c hr)
  split
  · exact e Refines.mmap fun a c h => congrArg Record.mmap h
  · exact e Refines.lost fun a c h => congrArg Record.lost h
  · exact e Refines.comm fun a c h => congrArg Record.comm h
  · exact e Refines.exit fun a c h => congrArg Record.exit h
  · exact e Refines.throttle fun a c h => congrArg Record.throttle h
  · exact e Refines.throttle fun a c h => congrArg Record.unthrottle h
  · exact e Refines.exit fun a c h => congrArg Record.fork h
  · exact e Refines.read fun a c h => congrArg Record.read h
  · exact e Refines.sample fun a c h => congrArg Record.sample h
  · exact e Refines.mmap2 fun a c h => congrArg Record.mmap2 h
  · exact e Refines.aux fun a c h => congrArg Record.aux h
  · exact e Refines.itraceStart fun a c h => congrArg Record.itraceStart h
  · exact e Refines.lostSamples fun a c h => congrArg Record.lostSamples h
  · exact e Refines.switchCpuWide fun a c h => congrArg Record.switchCpuWide h
  · exact e Refines.namespaces fun a c h => congrArg Record.namespaces h
  · exact e Refines.ksymbol fun a c h => congrArg Record.ksymbol h
  · exact e Refines.bpfEvent fun a c h => congrArg Record.bpfEvent h
  · exact e Refines.cgroup fun a c h => congrArg Record.cgroup h
  · exact e Refines.textPoke fun a c h => congrArg Record.textPoke h
  · exact e Refines.auxOutputHwId fun a c h => congrArg Record.auxOutputHwId h
  · exact e Refines.rest fun a c h => congrArg (Record.unknown ty) h

/-- What a record of type `ty` can be. -/
def Record.OfType (ty : U32) : Record Cow → Prop
  | .unknown t _ => t = ty
  | _ => True

theorem Safe.body {β : Type} [ParseBuf β] [LawfulEof β] {B : Nat} (ty : U32) :
    Safe B (Record.OfType ty) (parseBody ty : P β (Record Cow)) := by
  unfold parseBody
  split
  · exact Safe.bind Safe.mmap fun _ _ => Safe.pure trivial
  · exact Safe.bind Safe.lost fun _ _ => Safe.pure trivial
  · exact Safe.bind Safe.comm fun _ _ => Safe.pure trivial
  · exact Safe.bind Safe.exit fun _ _ => Safe.pure trivial
  · exact Safe.bind Safe.throttle fun _ _ => Safe.pure trivial
  · exact Safe.bind Safe.throttle fun _ _ => Safe.pure trivial
  · exact Safe.bind Safe.exit fun _ _ => Safe.pure trivial
  · exact Safe.bind Safe.read fun _ _ => Safe.pure trivial
  · exact Safe.bind Safe.sample fun _ _ => Safe.pure trivial
  · exact Safe.bind Safe.mmap2 fun _ _ => Safe.pure trivial
  · exact Safe.bind Safe.aux fun _ _ => Safe.pure trivial
  · exact Safe.bind Safe.itraceStart fun _ _ => Safe.pure trivial
  · exact Safe.bind Safe.lostSamples fun _ _ => Safe.pure trivial
  · exact Safe.bind Safe.switchCpuWide fun _ _ => Safe.pure trivial
  · exact Safe.bind Safe.namespaces fun _ _ => Safe.pure trivial
  · exact Safe.bind Safe.ksymbol fun _ _ => Safe.pure trivial
  · exact Safe.bind Safe.bpfEvent fun _ _ => Safe.pure trivial
  · exact Safe.bind Safe.cgroup fun _ _ => Safe.pure trivial
  · exact Safe.bind Safe.textPoke fun _ _ => Safe.pure trivial
  · exact Safe.bind Safe.auxOutputHwId fun _ _ => Safe.pure trivial
  · exact Safe.bind Safe.rest fun _ _ => Safe.pure rfl

omit [LawfulEof γ] in
/-- Running the visitor's method inside the dispatch is running it on the parsed body. -/
theorem P.dispatch_eq (v : Visitor Cow O) (md : Metadata) :
    (P.dispatch v md : P γ O) = (parseBody md.ty >>= fun r => P.ofExcept (v.apply r md)) := by
  have e : ∀ {α : Type} (m : P γ α) (k : α → Record Cow) (g : α → Except Fault O),
      (∀ a, v.apply (k a) md = g a) →
      (m >>= fun r => (P.ofExcept (g r) : P γ O)) = ((m >>= fun r => pure (k r)) >>= fun r => P.ofExcept (v.apply r md)) := by
    intro α m k g h
    funext p
    rcases hm : m p with ⟨r, q, l⟩
    cases r with
    | error f => rw [P.bind_err hm, P.bind_err (P.bind_err hm)]
    | ok a =>
      have h2 : (m >>= fun r => (pure (k r) : P γ (Record Cow))) p = ⟨.ok (k a), q, l⟩ := by
        rw [P.bind_ok hm]; simp [P.pure_run]
      rw [P.bind_ok hm, P.bind_ok h2, h a]
  unfold P.dispatch parseBody
  generalize hty : md.ty.toNat = n
  split
  iterate 20 exact e _ _ _ fun _ => rfl
  split
  all_goals first | exact e _ _ _ fun _ => rfl | (exfalso; simp_all; done)

theorem RepP.fresh {b : γ} {s : Stream} {cfg : ParseConfig} (h : Lawful.Rep b s) (hw : cfg.Wf) :
    RepP (Parser.new b cfg) ⟨s, 0, cfg⟩ := ⟨h, rfl, rfl, hw⟩

theorem ParseConfig.Wf.withMisc {c : ParseConfig} (h : c.Wf) (m : U16) : (c.withMisc m).Wf := h

theorem RepP.withMisc {p : Parser γ} {r : Flat} (h : RepP p r) (h0 : r.off = 0) (m : U16) :
    RepP (Parser.new p.data (p.config.withMisc m)) (r.withMisc m) where
  rep := h.rep
  off := h0.symm
  cfg := by simp only [Parser.new, Flat.withMisc, h.cfg]
  wf := h.wf.withMisc m

/-! ## Outcomes that depend on nothing but the bytes -/

/-- The flat parser always has an outcome. -/
def NoStuck {α : Type} (s : Spec α) : Prop := ∀ f, s f ≠ .error .stuck

theorem NoStuck.pure {α : Type} (a : α) : NoStuck (Pure.pure a : Spec α) := fun _ => nofun
theorem NoStuck.bind {α α' : Type} {s : Spec α} {k : α → Spec α'} (h : NoStuck s) (hk : ∀ a, NoStuck (k a)) :
    NoStuck (s >>= k) := by
  intro f
  rcases hs : s f with e | ⟨a, f'⟩
  · rw [Spec.bind_err hs]
    intro he
    cases he
    exact h f hs
  · rw [Spec.bind_ok hs]
    exact hk a f'
theorem NoStuck.ite {α : Type} {c : Prop} [Decidable c] {s s' : Spec α} (h : NoStuck s) (h' : NoStuck s') :
    NoStuck (if c then s else s') := by
  split <;> assumption
theorem NoStuck.fail {α : Type} (e : ParseError) : NoStuck (Spec.fail e : Spec α) := fun _ => nofun
theorem NoStuck.config : NoStuck Spec.config := fun _ => nofun
theorem NoStuck.bytes (n : Nat) : NoStuck (Spec.bytes n) := by
  intro f
  unfold Spec.bytes Spec.take
  split
  · nofun
  · split <;> nofun
theorem NoStuck.rest : NoStuck Spec.rest := by
  intro f
  unfold Spec.rest
  split
  · nofun
  · split <;> nofun
theorem NoStuck.restTrimNul : NoStuck Spec.restTrimNul := NoStuck.bind NoStuck.rest fun _ => NoStuck.pure _
theorem NoStuck.u8 : NoStuck (parseU8 : Spec U8) := NoStuck.bind (NoStuck.bytes 1) fun _ => NoStuck.pure _
theorem NoStuck.u16 : NoStuck (parseU16 : Spec U16) :=
  NoStuck.bind (NoStuck.bytes 2) fun _ => NoStuck.bind NoStuck.config fun _ => NoStuck.pure _
theorem NoStuck.u32 : NoStuck (parseU32 : Spec U32) :=
  NoStuck.bind (NoStuck.bytes 4) fun _ => NoStuck.bind NoStuck.config fun _ => NoStuck.pure _
theorem NoStuck.u64 : NoStuck (parseU64 : Spec U64) :=
  NoStuck.bind (NoStuck.bytes 8) fun _ => NoStuck.bind NoStuck.config fun _ => NoStuck.pure _
theorem NoStuck.parseIf {α : Type} {s : Spec α} (c : Bool) (h : NoStuck s) : NoStuck (parseIf c s) := by
  cases c with
  | true => exact NoStuck.bind h fun _ => NoStuck.pure _
  | false => exact NoStuck.pure _
theorem NoStuck.cpu : NoStuck (parseCpu : Spec U32) :=
  NoStuck.bind NoStuck.u32 fun _ => NoStuck.bind NoStuck.u32 fun _ => NoStuck.pure _
theorem NoStuck.sampleId : NoStuck (parseSampleId : Spec SampleId) := by
  refine NoStuck.bind NoStuck.config fun _ => NoStuck.ite (NoStuck.pure _) ?_
  refine NoStuck.bind (NoStuck.parseIf _ NoStuck.u32) fun _ => ?_
  refine NoStuck.bind (NoStuck.parseIf _ NoStuck.u32) fun _ => ?_
  refine NoStuck.bind (NoStuck.parseIf _ NoStuck.u64) fun _ => ?_
  refine NoStuck.bind (NoStuck.parseIf _ NoStuck.u64) fun _ => ?_
  refine NoStuck.bind (NoStuck.parseIf _ NoStuck.u64) fun _ => ?_
  refine NoStuck.bind (NoStuck.parseIf _ NoStuck.cpu) fun _ => ?_
  exact NoStuck.bind (NoStuck.parseIf _ NoStuck.u64) fun _ => NoStuck.pure _

/-! ## Metadata -/

/-- A cursor that can stand for the region, contiguous or not. -/
structure Region (r : Flat) (c : Parser Cursor) : Prop where
  offset : c.data.buf.offset = 0
  pieces : Pieces r.s.al c.data.buf.chunks r.s.bytes
  rep : RepP c r
  zero : r.off = 0
  hint : c.data.buf.len = r.s.bytes.length

theorem SplitOff.region {f : Flat} {len : Nat} {c : Parser Cursor} (h : SplitOff f len c) (hle : len ≤ f.s.bytes.length) :
    Region (f.region len) c where
  offset := h.offset
  pieces := h.pieces
  rep := h.rep
  zero := rfl
  hint := by rw [h.length]; simp [Flat.region, Nat.min_eq_left hle]

omit [ParseBuf β] [Lawful β] in
theorem P.onChild_ok {α δ : Type} {c c' : Parser δ} {m : P δ α} {a : α} {l : List Nat} (h : m c = ⟨.ok a, c', l⟩)
    (p : Parser β) : P.onChild c m p = ⟨.ok (a, c'), p, l⟩ := by
  simp only [P.onChild, h]
omit [ParseBuf β] [Lawful β] in
theorem P.onChild_err {α δ : Type} {c c' : Parser δ} {m : P δ α} {e : Fault} {l : List Nat} (h : m c = ⟨.error e, c', l⟩)
    (p : Parser β) : P.onChild c m p = ⟨.error e, p, l⟩ := by
  simp only [P.onChild, h]

theorem Header.size_lt (h : Header) : h.size.toNat < 65536 := h.size.isLt

/-- The result of the metadata parser, for all inputs; `RS` is what holds of the outer parser after a record that is all there. -/
def MetaOkR (RS : Parser β → Prop) (f : Flat) (h : Header) (o : Out β (Parser Cursor × Metadata)) : Prop :=
  (8 ≤ h.size.toNat → h.size.toNat - 8 ≤ f.s.bytes.length → RS o.st) ∧
  LogLe o.log f.s.bytes.length ∧
  match Spec.metadataWithHeader h f with
  | .ok ((r, md), _) => ∃ c, o.res = .ok (c, md) ∧ Region r c
  | .error (.err e) => o.res = .error (.err e)
  | .error .stuck => False

/-- The result of the metadata parser over a lawful buffer. -/
def MetaOk (p : Parser β) (f : Flat) (h : Header) (o : Out β (Parser Cursor × Metadata)) : Prop :=
  MetaOkR (fun st => RepP st (f.adv (h.size.toNat - 8)) ∧ HintMono p st) f h o

/-- What `split_at` did: taken the next `len` bytes or reported the end. -/
def SplitOk (RS : Parser β → Prop) (f : Flat) (len : Nat) (o : Out β (Parser Cursor)) : Prop :=
  (if len ≤ f.s.bytes.length then ∃ c, o.res = .ok c ∧ SplitOff f len c ∧ RS o.st
    else o.res = .error (.err f.s.fin)) ∧
  (∀ n ∈ o.log, n ≤ f.s.bytes.length)

theorem LogLe.of_le {l : List Nat} {B n : Nat} (h : ∀ x ∈ l, x ≤ n) (hn : n ≤ B) : LogLe l B :=
  fun x hx => by have := h x hx; omega

omit [Lawful β] in
/-- The metadata parser touches the outer parser only through `split_at`. -/
theorem P.metadataWithHeader_of {RS : Parser β → Prop} {p : Parser β} {f : Flat} (h : Header)
    (hsplit : 8 ≤ h.size.toNat → SplitOk RS f (h.size.toNat - 8) (P.splitAt (h.size.toNat - 8) p)) :
    MetaOkR RS f h (P.metadataWithHeader h p) := by
  unfold MetaOkR P.metadataWithHeader Spec.metadataWithHeader
  by_cases h8 : h.size.toNat < 8
  · rw [P.ite_pos h8]
    simp only [if_pos h8]
    exact ⟨fun h' => by omega, LogLe.nil _, rfl⟩
  rw [P.ite_neg h8]
  simp only [if_neg h8]
  have hlim : h.size.toNat - 8 < usizeLimit := by
    have := h.size_lt; unfold usizeLimit; omega
  obtain ⟨hs, hlog⟩ := hsplit (by omega)
  have hlog' := LogLe.of_le hlog (Nat.le_refl _)
  rcases Nat.lt_or_ge f.s.bytes.length (h.size.toNat - 8) with hlt | hle
  · have hle : ¬ h.size.toNat - 8 ≤ f.s.bytes.length := by omega
    rw [if_neg hle] at hs
    rw [P.bind_err (P.run_eq _ hs), if_neg hle]
    exact ⟨fun _ h' => absurd h' hle, hlog', rfl⟩
  rw [if_pos hle] at hs
  obtain ⟨rp, hres, hso, hrep⟩ := hs
  rw [P.bind_ok (P.run_eq _ hres)]
  simp only [if_pos hle]
  have hcfg : rp.config = f.cfg := hso.rep.cfg
  by_cases hty : h.type_.toNat = 1 ∨ h.type_.toNat = 9
  · rw [P.ite_pos hty]
    simp only [if_pos hty, P.pure_run, List.append_nil]
    exact ⟨fun _ _ => hrep, hlog', rp, rfl, hso.region hle⟩
  rw [P.ite_neg hty]
  simp only [if_neg hty, hcfg]
  by_cases hest : h.size.toNat - 8 < SampleId.estimateLen f.cfg
  · rw [P.ite_pos hest]
    simp only [if_pos hest, P.fail, P.fault, List.append_nil]
    exact ⟨fun _ _ => hrep, hlog', trivial⟩
  rw [P.ite_neg hest]
  simp only [if_neg hest]
  have hrl : (f.s.bytes.take (h.size.toNat - 8)).length = h.size.toNat - 8 := by
    rw [List.length_take]; omega
  obtain ⟨hs2, hlog2⟩ := P.splitAt_takes hso.rep (len := h.size.toNat - 8 - SampleId.estimateLen f.cfg) (by omega)
  rw [if_pos (by simp only [hrl]; omega)] at hs2
  obtain ⟨c, hres2, hso2, hrep2, hm2⟩ := hs2
  rw [P.bind_ok (P.onChild_ok (P.run_eq _ hres2) _)]
  have hhint : HintLe rp.data f.s.bytes.length := by
    intro x hx
    have : some rp.data.buf.len = some x := hx
    simp only [hso.length, Option.some.injEq] at this
    omega
  have hr := Refines.sampleId _ _ hrep2
  obtain ⟨hl3, hsafe⟩ := Safe.sampleId (B := f.s.bytes.length) _ _ hrep2
    (by simp only [Flat.adv_bytes, List.length_drop, hrl]; omega) (hm2.le hhint)
  have hlogs : LogLe ((P.splitAt (h.size.toNat - 8)) p).log f.s.bytes.length := hlog'
  have hlog2' : LogLe ((P.splitAt (h.size.toNat - 8 - SampleId.estimateLen f.cfg)) rp).log f.s.bytes.length :=
    LogLe.of_le hlog2 (by simp only [hrl]; exact hle)
  rcases hsp : (parseSampleId : Spec SampleId)
      ((f.region (h.size.toNat - 8)).adv (h.size.toNat - 8 - SampleId.estimateLen f.cfg)) with e | ⟨sid, g⟩
  · have hr' := hr
    change Matches Eq _ ((parseSampleId : Spec SampleId)
      ((f.region (h.size.toNat - 8)).adv (h.size.toNat - 8 - SampleId.estimateLen f.cfg))) at hr'
    rw [hsp] at hr'
    cases e with
    | stuck => exact absurd hsp (NoStuck.sampleId _)
    | err e =>
      rw [P.bind_err (P.onChild_err (P.run_eq _ hr') _)]
      exact ⟨fun _ _ => hrep, hlogs.append (hlog2'.append hl3), rfl⟩
  · have hr' := hr
    change Matches Eq _ ((parseSampleId : Spec SampleId)
      ((f.region (h.size.toNat - 8)).adv (h.size.toNat - 8 - SampleId.estimateLen f.cfg))) at hr'
    rw [hsp] at hr'
    obtain ⟨a, h1, h2, _⟩ := hr'
    subst h2
    rw [P.bind_ok (P.onChild_ok (P.run_eq _ h1) _)]
    simp only [P.pure_run, List.append_nil]
    refine ⟨fun _ _ => hrep, hlogs.append (hlog2'.append hl3), c, rfl, ?_⟩
    have hreg := hso2.region (by simp only [hrl]; omega)
    have heq : Flat.region ⟨⟨f.s.bytes.take (h.size.toNat - 8), f.s.al, .eof⟩, 0, f.cfg⟩
        (h.size.toNat - 8 - SampleId.estimateLen f.cfg) = f.region (h.size.toNat - 8 - SampleId.estimateLen f.cfg) := by
      simp only [Flat.region, List.take_take]
      rw [Nat.min_eq_left (by omega)]
    rw [heq] at hreg
    exact hreg

theorem P.metadataWithHeader_run {p : Parser β} {f : Flat} (hp : RepP p f) (h : Header) :
    MetaOk p f h (P.metadataWithHeader h p) :=
  P.metadataWithHeader_of h fun _ => P.splitAt_takes hp (by have := h.size_lt; unfold usizeLimit; omega)

/-! ## The record -/

/-- The contiguous region, when there is one. -/
theorem Region.asSlice {r : Flat} {c : Parser Cursor} (h : Region r c) {s : Slice} (hs : c.data.buf.asSlice = some s) :
    RepP (Parser.new s c.config) r ∧ s.data = r.s.bytes := by
  unfold Cursor.asSlice at hs
  split at hs
  · rename_i a d hc
    simp only [Option.some.injEq] at hs
    subst hs
    have hb : d = r.s.bytes := by
      have := h.pieces.data
      rw [hc] at this
      simpa [chunksData] using this
    have hal := h.pieces.al
    rw [hc] at hal
    exact ⟨⟨⟨hb.symm, h.rep.rep.fin, hal.1⟩, h.zero.symm, h.rep.cfg, h.rep.wf⟩, hb⟩
  · exact absurd hs (by simp)

/-- `a` was returned by the body parser for type `ty` under the configuration `cfg`. -/
def Produced (ty : U32) (cfg : ParseConfig) (a : Record Cow) : Prop :=
  ∃ (γ : Type) (_ : ParseBuf γ) (q : Parser γ), q.config = cfg ∧ ((parseBody ty : P γ (Record Cow)) q).res = .ok a

/-- The outcome of running the dispatch on the region's parser. -/
def BodyOk (v : Visitor Cow O) (md : Metadata) (r : Flat) (res : Except Fault O) : Prop :=
  (match (parseBody md.ty : Spec (Record List)) (r.withMisc md.misc) with
    | .ok (rec, _) => ∃ a : Record Cow, a.view = rec ∧ res = v.apply a md
    | .error (.err e) => res = .error (.err e)
    | .error .stuck => True) ∧
  ((∃ a : Record Cow, (Record.OfType md.ty a ∧ Produced md.ty (r.cfg.withMisc md.misc) a) ∧ res = v.apply a md) ∨ ∃ e, res = .error (.err e) ∧ OkErr r e)

theorem P.dispatch_run (v : Visitor Cow O) (md : Metadata) {r : Flat} {p : Parser γ} (h : RepP p r) (h0 : r.off = 0)
    (hh : HintLe p.data r.s.bytes.length) :
    BodyOk v md r (P.dispatch v md (Parser.new p.data (p.config.withMisc md.misc))).res ∧
    LogLe (P.dispatch v md (Parser.new p.data (p.config.withMisc md.misc))).log r.s.bytes.length := by
  have hrep := h.withMisc h0 md.misc
  rw [P.dispatch_eq]
  have h1 := Refines.body md.ty _ _ hrep
  obtain ⟨hl, h2⟩ := Safe.body (B := r.s.bytes.length) md.ty _ _ hrep (Nat.le_refl _) hh
  rcases hres : ((parseBody md.ty : P (Tracking γ) (Record Cow)) (Parser.new p.data (p.config.withMisc md.misc))).res with e | a
  · rw [P.bind_err (P.run_eq _ hres)]
    rw [hres] at h2
    unfold BodyOk
    refine ⟨⟨?_, ?_⟩, hl⟩
    · rcases hs : (parseBody md.ty : Spec (Record List)) (r.withMisc md.misc) with e' | ⟨rec, f'⟩ <;> rw [hs] at h1
      · cases e' with
        | stuck => trivial
        | err e' => simp only [Matches, hres] at h1; cases h1; rfl
      · obtain ⟨a, h3, _⟩ := h1
        rw [hres] at h3; cases h3
    · match e, h2 with
      | .err e, h2 => exact .inr ⟨e, rfl, h2⟩
  · rw [P.bind_ok (P.run_eq _ hres)]
    rw [hres] at h2
    unfold BodyOk P.ofExcept
    simp only [List.append_nil]
    refine ⟨⟨?_, .inl ⟨a, ⟨h2.1, Tracking γ, inferInstance, _, hrep.cfg, hres⟩, rfl⟩⟩, hl⟩
    rcases hs : (parseBody md.ty : Spec (Record List)) (r.withMisc md.misc) with e' | ⟨rec, f'⟩ <;> rw [hs] at h1
    · cases e' with
      | stuck => trivial
      | err e' => simp only [Matches, hres] at h1; cases h1
    · obtain ⟨a', h3, h4, _⟩ := h1
      rw [hres] at h3
      cases h3
      exact ⟨a, h4, rfl⟩

/-- The result of `parse_record_with_header`, for all inputs and visitors. -/
def RecordOkR (RS : Parser β → Prop) (f : Flat) (v : Visitor Cow O) (h : Header) (o : Out β O) : Prop :=
  (8 ≤ h.size.toNat → h.size.toNat - 8 ≤ f.s.bytes.length → RS o.st) ∧
  LogLe o.log f.s.bytes.length ∧
  match Spec.metadataWithHeader h f with
  | .ok ((r, md), _) => BodyOk v md r o.res
  | .error (.err e) => o.res = .error (.err e)
  | .error .stuck => False

/-- The same over a lawful buffer. -/
def RecordOk (p : Parser β) (f : Flat) (v : Visitor Cow O) (h : Header) (o : Out β O) : Prop :=
  RecordOkR (fun st => RepP st (f.adv (h.size.toNat - 8)) ∧ HintMono p st) f v h o

theorem Spec.metadata_length {h : Header} {f f' r : Flat} {md : Metadata}
    (hm : Spec.metadataWithHeader h f = .ok ((r, md), f')) : r.s.bytes.length ≤ f.s.bytes.length := by
  unfold Spec.metadataWithHeader at hm
  split at hm
  · cases hm
  · split at hm
    · split at hm
      · cases hm; simp [Flat.region]; omega
      · split at hm
        · cases hm
        · split at hm
          · cases hm
          · cases hm; simp [Flat.region]; omega
    · cases hm

theorem LogLe.mono {l : List Nat} {B B' : Nat} (h : LogLe l B) (hB : B ≤ B') : LogLe l B' :=
  fun x hx => by have := h x hx; omega

omit [Lawful β] in
theorem P.recordWithHeader_of {RS : Parser β → Prop} {p : Parser β} {f : Flat} (v : Visitor Cow O) (h : Header)
    (hmeta : MetaOkR RS f h (P.metadataWithHeader h p)) : RecordOkR RS f v h (P.recordWithHeader v h p) := by
  obtain ⟨h1, h2, h3⟩ := hmeta
  unfold RecordOkR P.recordWithHeader
  rcases hs : Spec.metadataWithHeader h f with e | ⟨⟨r, md⟩, f'⟩
  · rw [hs] at h3
    cases e with
    | stuck => exact h3.elim
    | err e =>
      rw [P.bind_err (P.run_eq _ h3)]
      exact ⟨h1, h2, rfl⟩
  · rw [hs] at h3
    obtain ⟨c, hc, hreg⟩ := h3
    rw [P.bind_ok (P.run_eq _ hc)]
    have key : ∀ {γ : Type} [ParseBuf γ] [LawfulEof γ] (q : Parser γ), RepP q r → HintLe q.data r.s.bytes.length →
        ∀ st : Parser β, (P.recordImpl q v md st).st = st ∧ LogLe (P.recordImpl q v md st).log r.s.bytes.length ∧
          BodyOk v md r (P.recordImpl q v md st).res := by
      intro γ _ _ q hq hh st
      obtain ⟨h4, h5⟩ := P.dispatch_run v md hq hreg.zero hh
      unfold P.recordImpl
      rcases hd : P.dispatch v md (Parser.new q.data (q.config.withMisc md.misc)) with ⟨res, q', l⟩
      rw [hd] at h4 h5
      cases res with
      | error e =>
        rw [P.bind_err (P.onChild_err hd st)]
        exact ⟨rfl, h5, h4⟩
      | ok a =>
        rw [P.bind_ok (P.onChild_ok hd st)]
        refine ⟨rfl, ?_, h4⟩
        simp only [P.pure_run, List.append_nil]
        exact h5
    have hlen := Spec.metadata_length hs
    simp only
    cases has : c.data.buf.asSlice with
    | some s =>
      obtain ⟨hsr, hsd⟩ := hreg.asSlice has
      obtain ⟨k1, k2, k3⟩ := key (Parser.new s c.config) hsr (by
        intro x hx
        have : some s.data.length = some x := hx
        simp only [Option.some.injEq] at this
        rw [← this, hsd]; exact Nat.le_refl _) (P.metadataWithHeader h p).st
      refine ⟨?_, h2.append (k2.mono hlen), k3⟩
      simp only
      rw [k1]; exact h1
    | none =>
      obtain ⟨k1, k2, k3⟩ := key c hreg.rep (by
        intro x hx
        have : some c.data.buf.len = some x := hx
        simp only [Option.some.injEq] at this
        rw [← this, hreg.hint]; exact Nat.le_refl _) (P.metadataWithHeader h p).st
      refine ⟨?_, h2.append (k2.mono hlen), k3⟩
      simp only
      rw [k1]; exact h1

theorem P.recordWithHeader_run {p : Parser β} {f : Flat} (hp : RepP p f) (v : Visitor Cow O) (h : Header) :
    RecordOk p f v h (P.recordWithHeader v h p) :=
  P.recordWithHeader_of v h (P.metadataWithHeader_run hp h)

end Perf
