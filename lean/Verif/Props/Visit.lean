import Verif.Proof.Post
import Verif.Props.Parts
import Verif.Props.Prims
/-!
# Visitors, metadata and readers that fail: C37, C38, C54, C57, C58
-/
namespace Perf
variable {β : Type} [ParseBuf β] {O : Type}

/-! ## C37 -/

/-- What a visitor method does with a record: the override if there is one, otherwise the default `dflt`. -/
def Falls {α : Type} (m : Option (α → Metadata → Except Fault O)) (r : α) (md : Metadata) (res dflt : Except Fault O) :
    Prop :=
  (∀ g, m = some g → res = g r md) ∧ (m = none → res = dflt)

/-- The table of src/visitor.rs: `res` is what the visitor `v` answers to the record `r`. -/
def Visitor.Receives (v : Visitor Cow O) (md : Metadata) (res : Except Fault O) : Record Cow → Prop
  | .mmap r => Falls v.mmap r md res (v.unimplemented md)
  | .lost r => Falls v.lost r md res (v.unimplemented md)
  | .comm r => Falls v.comm r md res (v.unimplemented md)
  | .exit r => Falls v.exit r md res (v.unimplemented md)
  | .throttle r => Falls v.throttle r md res (v.unimplemented md)
  | .unthrottle r => Falls v.unthrottle r md res (v.unimplemented md)
  | .fork r => Falls v.fork r md res (v.unimplemented md)
  | .read r => Falls v.read r md res (v.unimplemented md)
  | .sample r => Falls v.sample r md res (v.unimplemented md)
  | .mmap2 r =>
    (∀ g, v.mmap2 = some g → res = g r md) ∧
    (v.mmap2 = none → Falls v.mmap
      { pid := r.pid, tid := r.tid, addr := r.addr, len := r.len, pgoff := r.pgoff, filename := r.filename }
      md res (v.unimplemented md))
  | .aux r => Falls v.aux r md res (v.unimplemented md)
  | .itraceStart r => Falls v.itraceStart r md res (v.unimplemented md)
  | .lostSamples r => Falls v.lostSamples r md res (v.unimplemented md)
  | .switch => (∀ g, v.switch = some g → res = g md) ∧ (v.switch = none → res = v.unimplemented md)
  | .switchCpuWide r => Falls v.switchCpuWide r md res (v.unimplemented md)
  | .namespaces r => Falls v.namespaces r md res (v.unimplemented md)
  | .ksymbol r => Falls v.ksymbol r md res (v.unimplemented md)
  | .bpfEvent r => Falls v.bpfEvent r md res (v.unimplemented md)
  | .cgroup r => Falls v.cgroup r md res (v.unimplemented md)
  | .textPoke r => Falls v.textPoke r md res (v.unimplemented md)
  | .auxOutputHwId r => Falls v.auxOutputHwId r md res (v.unimplemented md)
  | .unknown _ data => Falls v.unknown data md res (v.unimplemented md)

theorem Visitor.apply_receives (v : Visitor Cow O) (md : Metadata) (r : Record Cow) : v.Receives md (v.apply r md) r := by
  cases r <;> simp only [Receives, Falls, apply, visitMmap, visitLost, visitComm, visitExit, visitThrottle,
    visitUnthrottle, visitFork, visitRead, visitSample, visitMmap2, visitAux, visitItraceStart, visitLostSamples,
    visitSwitch, visitSwitchCpuWide, visitNamespaces, visitKsymbol, visitBpfEvent, visitCgroup, visitTextPoke,
    visitAuxOutputHwId, visitUnknown]
  case mmap2 r =>
    refine ⟨fun g hg => by rw [hg], fun h => ⟨fun g hg => ?_, fun h' => ?_⟩⟩
    · rw [h, hg]; rfl
    · rw [h, h']
  all_goals exact ⟨fun g hg => by rw [hg], fun h => by rw [h]⟩

omit [ParseBuf β] in
/-- Parsing the body for the visitor, as an outcome of the body parser alone. -/
theorem P.recordImpl_res {γ : Type} [ParseBuf γ] (q : Parser γ) (v : Visitor Cow O) (md : Metadata) (st : Parser β) :
    (P.recordImpl q v md st).res =
      match ((parseBody md.ty : P (Tracking γ) (Record Cow)) (Parser.new q.data (q.config.withMisc md.misc))).res with
      | .ok r => v.apply r md
      | .error e => .error e := by
  unfold P.recordImpl
  rw [P.dispatch_eq]
  rcases hb : ((parseBody md.ty : P (Tracking γ) (Record Cow)) (Parser.new q.data (q.config.withMisc md.misc))).res with e | r
  · rw [P.bind_err (P.onChild_err (P.bind_err (P.run_eq _ hb)) st)]
  · have h1 := P.bind_ok (k := fun r => (P.ofExcept (v.apply r md) : P (Tracking γ) O)) (P.run_eq _ hb)
    simp only [P.ofExcept] at h1
    rcases hv : v.apply r md with e | o <;> rw [hv] at h1
    · rw [P.bind_err (P.onChild_err h1 st)]
      simp only [hv]
    · rw [P.bind_ok (P.onChild_ok h1 st)]
      simp only [hv]
      rfl

/-- The record types `parse_record_impl` knows about. -/
def knownTypes : List Nat := [1, 2, 3, 4, 5, 6, 7, 8, 9, 10, 11, 12, 13, 15, 16, 17, 18, 19, 20, 21]

/-- `r` is the variant of `Record` for a header type: the variant of that number, or the unknown record carrying it. -/
def Record.ForType (ty : U32) (r : Record Cow) : Prop :=
  if ty.toNat ∈ knownTypes then r.code = some ty.toNat else ∃ data, r = .unknown ty data

theorem Post.forType (ty : U32) : Post (Record.ForType ty) (parseBody ty : P β (Record Cow)) := by
  unfold parseBody
  split
  iterate 20
    · rename_i h
      refine Post.skip fun _ => Post.pure ?_
      unfold Record.ForType
      rw [h]
      rfl
  refine Post.skip fun d => Post.pure ?_
  unfold Record.ForType
  rw [if_neg]
  · exact ⟨d, rfl⟩
  · simp only [knownTypes, List.mem_cons, List.not_mem_nil, or_false]
    rintro (h | h | h | h | h | h | h | h | h | h | h | h | h | h | h | h | h | h | h | h) <;> simp_all

/-- The parser of the record's body, run for any visitor. -/
theorem P.record_res (p : Parser β) : ∃ body : Except Fault (Record Cow),
    (∀ c md r, (P.metadata p).res = .ok (c, md) → body = .ok r → Record.ForType md.ty r) ∧
    ∀ {O : Type} (v : Visitor Cow O), (P.record v p).res = match (P.metadata p).res with
      | .error e => .error e
      | .ok (_, md) => match body with
        | .ok r => v.apply r md
        | .error e => .error e := by
  unfold P.record P.metadata P.recordWithHeader
  rcases hh : ((parseHeader : P β Header) p).res with e | h
  · exact ⟨.error e, fun _ _ _ _ h => (by cases h), fun v => by rw [P.bind_err (P.run_eq _ hh), P.bind_err (P.run_eq _ hh)]⟩
  rcases hm : (P.metadataWithHeader h ((parseHeader : P β Header) p).st).res with e | ⟨c, md⟩
  · refine ⟨.error e, fun _ _ _ _ h => (by cases h), fun v => ?_⟩
    rw [P.bind_ok (P.run_eq _ hh), P.bind_ok (P.run_eq _ hh), P.bind_err (P.run_eq _ hm)]
    simp only [hm]
  · have hmd : ∀ {c' md'}, (((parseHeader : P β Header) >>= fun header => P.metadataWithHeader header) p).res = .ok (c', md') →
        md' = md := by
      intro c' md' h'
      rw [P.bind_ok (P.run_eq _ hh)] at h'
      simp only [hm] at h'
      cases h'; rfl
    cases hs : c.data.buf.asSlice with
    | some s =>
      refine ⟨((parseBody md.ty : P (Tracking Slice) (Record Cow))
        (Parser.new (Parser.new s c.config).data ((Parser.new s c.config).config.withMisc md.misc))).res, ?_, fun v => ?_⟩
      · intro c' md' r h1 h2
        rw [hmd h1]
        exact Post.forType _ _ _ h2
      rw [P.bind_ok (P.run_eq _ hh), P.bind_ok (P.run_eq _ hh), P.bind_ok (P.run_eq _ hm)]
      simp only [hm, hs]
      exact P.recordImpl_res (Parser.new s c.config) v md _
    | none =>
      refine ⟨((parseBody md.ty : P (Tracking Cursor) (Record Cow))
        (Parser.new c.data (c.config.withMisc md.misc))).res, ?_, fun v => ?_⟩
      · intro c' md' r h1 h2
        rw [hmd h1]
        exact Post.forType _ _ _ h2
      rw [P.bind_ok (P.run_eq _ hh), P.bind_ok (P.run_eq _ hh), P.bind_ok (P.run_eq _ hm)]
      simp only [hm, hs]
      exact P.recordImpl_res c v md _

theorem Record.ForType.ofType {ty : U32} {r : Record Cow} (h : r.ForType ty) : r.OfType ty := by
  unfold ForType at h
  split at h
  · cases r <;> first | trivial | cases h
  · obtain ⟨d, rfl⟩ := h; rfl

/-- **C37** For every input, every buffer and every visitor: if the metadata and the body parse, the answer of
`parse_record` is the answer of the visitor to the record `parse::<Record>` returns and the metadata `parse_metadata`
returns. If either does not parse no method is called and the answer is the error. -/
theorem c37_visit (p : Parser β) (v : Visitor Cow O) :
    match (P.metadata p).res, (P.parseRecord p).res with
    | .ok (_, md), .ok r => v.Receives md (P.record v p).res r
    | .error e, res => res = .error e ∧ (P.record v p).res = .error e
    | .ok _, .error e => (P.record v p).res = .error e := by
  obtain ⟨body, h1, h2⟩ := P.record_res p
  have h3 : (P.parseRecord p).res = _ := h2 (recordVisitor Cow)
  rw [h3, h2 v]
  rcases hm : (P.metadata p).res with e | ⟨c, md⟩
  · exact ⟨rfl, rfl⟩
  · rcases body with e | r
    · rfl
    · simp only [recordVisitor_apply r md (h1 c md r hm rfl).ofType]
      exact v.apply_receives md r

/-- **C37** The record handed over is the variant of the header's type, or the unknown record with that type. -/
theorem c37_type (p : Parser β) {c : Parser Cursor} {md : Metadata} {r : Record Cow}
    (hm : (P.metadata p).res = .ok (c, md)) (hr : (P.parseRecord p).res = .ok r) : r.ForType md.ty := by
  obtain ⟨body, h1, h2⟩ := P.record_res p
  have h3 : (P.parseRecord p).res = _ := h2 (recordVisitor Cow)
  rw [h3, hm] at hr
  rcases body with e | r'
  · cases hr
  · have h4 := h1 c md r' hm rfl
    simp only [recordVisitor_apply r' md h4.ofType] at hr
    cases hr
    exact h4

/-- The header values reach the visitor unchanged. -/
theorem c37_metadata [Lawful β] {p : Parser β} {f : Flat} (hp : RepP p f) {c : Parser Cursor} {md : Metadata}
    (hm : (P.metadata p).res = .ok (c, md)) : md.ty = (headerAt f).type_ ∧ md.misc = (headerAt f).misc := by
  rcases P.metadata_run hp with ⟨_, h⟩ | ⟨_, q, hq, h⟩
  · rw [h] at hm; cases hm
  · rw [h] at hm
    obtain ⟨_, _, h3⟩ := P.metadataWithHeader_run hq (headerAt f)
    rcases Spec.metadata_cases (headerAt f) (f.adv 8) with h | h | h | h | ⟨_, _, _, _, sid, g, _, h⟩
    · rw [h.2, hm] at h3; cases h3
    · rw [h.2.2, hm] at h3; cases h3
    · rw [h.2.2.2, hm] at h3
      obtain ⟨c', h4, _⟩ := h3
      cases h4; exact ⟨rfl, rfl⟩
    · rw [h.2.2.2.2, hm] at h3; cases h3
    · rw [h, hm] at h3
      obtain ⟨c', h4, _⟩ := h3
      cases h4; exact ⟨rfl, rfl⟩

variable [Lawful β] {p : Parser β} {f : Flat} {o : Order} {tl : List Byte}

theorem parseBody_other {M C : Type → Type} [ParserM M C] {ty : U32} (hty : ty.toNat ∉ knownTypes) :
    (parseBody ty : M (Record C)) = (do let d ← ParserM.rest; pure (.unknown ty d)) := by
  unfold parseBody
  simp only [knownTypes, List.mem_cons, List.not_mem_nil, or_false] at hty
  split <;> first | rfl | omega

/-- **C37** Full statement: also when the body is empty (see `c37_empty_false`). A type the crate does not know is
delivered as unknown with its whole body. -/
theorem c37_unknown_partial (hp : RepP p f) (hs : Src f.cfg o) (ty : U32) (misc : U16) (body : List Byte) (t : KTrailer)
    (hty : ty.toNat ∉ knownTypes) (hne : body ≠ [])
    (hsize : (KRecord.mk misc (.other ty body) t).size o f.cfg < 65536)
    (hb : f.s.bytes = (KRecord.mk misc (.other ty body) t).enc o f.cfg ++ tl) :
    ∃ c : Cow Byte, (P.parseRecord p).res = .ok (.unknown ty c) ∧ c.data = body := by
  obtain ⟨h0, h1, _⟩ := P.record_frame hp hs _ hsize hb (recordVisitor Cow)
  have hbody : ∀ g : Flat, g.s.bytes = body → g.s.fin = .eof →
      ∃ g', (parseBody ty : Spec (Record List)) g = .ok (.unknown ty body, g') := by
    intro g hg hf
    rw [parseBody_other hty]
    have h3 : (ParserM.rest : Spec (List Byte)) g = .ok (body, g.adv g.s.bytes.length) := by
      show Spec.rest g = _
      unfold Spec.rest
      rw [if_neg (by rw [hg]; exact hne), if_pos (by rw [hf]; rfl), hg]
    exact ⟨_, Spec.bind_ok (k := fun d => (pure (Record.unknown ty d) : Spec (Record List))) h3⟩
  obtain ⟨g', hg'⟩ := hbody _ (show ((((f.adv 8).region _).withMisc misc).s.bytes = body) from h0) rfl
  have h2 := h1.1
  simp only [KRecord.metadata, KBody.type] at h2
  rw [hg'] at h2
  obtain ⟨a, h3, h4⟩ := h2
  cases a <;> simp only [Record.view, reduceCtorEq, Record.unknown.injEq] at h3
  obtain ⟨rfl, h3⟩ := h3
  exact ⟨_, h4, h3⟩

/-- An unknown record without a body is an `Eof` error: `visit_unknown` is not called. -/
theorem c37_empty_false :
    isEof (P.parseRecord (Parser.new (⟨0, [99, 0, 0, 0, 0, 0, 8, 0, 1, 2]⟩ : Slice) demoCfg)).res = true := by
  decide +kernel

/-- A visitor that only overrides `visit_mmap` gets MMAP2 records, and `visit_unimplemented` for the others. -/
def demoVisitor : Visitor Cow (String × List Byte) :=
  { unimplemented := fun md => .ok ("unimplemented", [md.misc.setWidth 8])
    mmap := some fun r _ => .ok ("mmap", r.filename.data) }
example : (P.record demoVisitor (Parser.new (⟨8, demoMmap2.enc .little demoCfg⟩ : Slice) demoCfg)).res.toOption.map (·.1) =
    some "mmap" := by decide +kernel
example : (P.record demoVisitor demoLostParser).res.toOption = some ("unimplemented", [0]) := by decide +kernel
example : (match (P.metadata demoLostParser).res, (P.parseRecord demoLostParser).res with
  | .ok (_, md), .ok r => md.ty == 2#32 && r.code == some 2
  | _, _ => false) = true := by decide +kernel
example : (match (P.parseRecord (Parser.new (⟨0, [99, 0, 0, 0, 0, 0, 10, 0, 1, 2]⟩ : Slice) demoCfg)).res with
  | .ok (.unknown ty c) => ty == 99 && c.data == [1, 2]
  | _ => false) = true := by decide +kernel

/-! ## C38 -/

/-- No input whatsoever is parsed as `Record::Switch`. -/
theorem c38_never_false {β : Type} [ParseBuf β] (p : Parser β) : (P.parseRecord p).res ≠ .ok .switch := by
  intro hr
  have h := c37_visit p (recordVisitor Cow)
  rcases hm : (P.metadata p).res with e | ⟨c, md⟩
  · rw [hm, hr] at h; cases h.1
  · have h' := c37_type p hm hr
    unfold Record.ForType at h'
    split at h'
    · rename_i hk
      have : md.ty.toNat = 14 := (Option.some.inj h').symm
      rw [this] at hk
      exact absurd hk (by decide)
    · obtain ⟨_, h'⟩ := h'; cases h'

/-- In particular not a SWITCH record as the kernel writes it: header only, or header and trailer. Both are errors. -/
theorem c38_false :
    isEof (P.parseRecord (Parser.new (⟨0, [14, 0, 0, 0, 0, 0, 8, 0]⟩ : Slice) demoCfg)).res = true ∧
    isEof (P.parseRecord (Parser.new (⟨0, [14, 0, 0, 0, 0, 0, 24, 0, 1, 0, 0, 0, 2, 0, 0, 0, 3, 0, 0, 0, 0, 0, 0, 0]⟩ :
      Slice) demoAllCfg)).res = true := by
  decide +kernel

/-- **C38** Full statement: a SWITCH record, which has no body, is delivered to `visit_switch`. That is false
(`c38_false`). What holds is that a record of type 14 with a body is delivered to `visit_unknown`. -/
theorem c38_partial (hp : RepP p f) (hs : Src f.cfg o) (misc : U16) (body : List Byte) (t : KTrailer) (hne : body ≠ [])
    (hsize : (KRecord.mk misc (.other 14#32 body) t).size o f.cfg < 65536)
    (hb : f.s.bytes = (KRecord.mk misc (.other 14#32 body) t).enc o f.cfg ++ tl) :
    ∃ c : Cow Byte, (P.parseRecord p).res = .ok (.unknown 14#32 c) ∧ c.data = body :=
  c37_unknown_partial hp hs 14#32 misc body t (by decide) hne hsize hb

/-! ## C54 -/

/-- **C54** `parse_metadata` on a record of any type with any body: the header's values and the decoded trailer, a
parser over exactly the body (that ends with `Eof`), and the outer parser behind the record. -/
theorem c54_metadata (hp : RepP p f) (hs : Src f.cfg o) (ty : U32) (misc : U16) (body : List Byte) (t : KTrailer)
    (hsize : (KRecord.mk misc (.other ty body) t).size o f.cfg < 65536)
    (hb : f.s.bytes = (KRecord.mk misc (.other ty body) t).enc o f.cfg ++ tl) :
    ∃ c : Parser Cursor, (P.metadata p).res = .ok (c,
        { ty := ty, misc := misc
          sampleId := if f.cfg.sampleIdAll && ty != 1#32 && ty != 9#32 then t.value f.cfg.sampleType
            else ⟨none, none, none, none, none, none⟩ }) ∧
      RepP c ⟨⟨body, f.s.al.add 8, .eof⟩, 0, f.cfg⟩ ∧
      RepP (P.metadata p).st (f.adv ((KRecord.mk misc (.other ty body) t).enc o f.cfg).length) := by
  obtain ⟨h0, _, h1, _⟩ := P.record_frame hp hs _ hsize hb (recordVisitor Cow)
  generalize hr : KRecord.mk misc (.other ty body) t = r at *
  have hlen : (r.enc o f.cfg).length = r.size o f.cfg := r.enc_length
  have hs8 : 8 ≤ r.size o f.cfg := by unfold KRecord.size; omega
  have hhd := headerAt_enc hs r hb
  rcases P.metadata_run hp with ⟨h, _⟩ | ⟨h8, q, hq, h⟩
  · rw [hb, List.length_append, hlen] at h; omega
  · rw [h]
    obtain ⟨h1, h2, h3⟩ := P.metadataWithHeader_run hq (headerAt f)
    have hsz : (headerAt f).size.toNat = r.size o f.cfg := by rw [hhd]; exact toNat_ofNat_lt hsize
    have hb8 : (f.adv 8).s.bytes = r.body.enc o f.cfg ++ r.encTrailer o f.cfg ++ tl := by
      rw [Flat.adv_bytes, hb]
      unfold KRecord.enc
      have : 8 = (e32 o r.body.type ++ e16 o r.misc ++ e16 o (BitVec.ofNat 16 (r.size o f.cfg))).length := by simp
      simp only [List.append_assoc] at this ⊢
      rw [this]
      simp only [← List.append_assoc]
      rw [List.append_assoc _ _ tl, List.append_assoc _ _ (_ ++ tl), List.drop_left]
      simp
    have h4 := (h1 (by omega) (by rw [hsz, hb8]; unfold KRecord.size; simp; omega)).1
    rw [Flat.adv_adv, hsz, Nat.add_sub_cancel' hs8, ← hlen] at h4
    obtain ⟨f', hm⟩ := metadata_enc (f := f.adv 8) hs r hsize hb8
    simp only [Flat.adv_cfg] at hm
    rw [← hhd] at hm
    rw [hm] at h3
    obtain ⟨c, h5, h6⟩ := h3
    refine ⟨c, ?_, ?_, h4⟩
    · rw [h5, ← hr]; rfl
    · have h7 := h6.rep
      have h8 : (f.adv 8).region (r.body.enc o f.cfg).length = ⟨⟨body, f.s.al.add 8, .eof⟩, 0, f.cfg⟩ := by
        have h9 : ((f.adv 8).region (r.body.enc o f.cfg).length).s.bytes = body := by rw [h0, ← hr]; rfl
        show (⟨⟨((f.adv 8).region (r.body.enc o f.cfg).length).s.bytes, _, _⟩, _, _⟩ : Flat) = _
        rw [h9]; rfl
      rw [h8] at h7
      exact h7

/-- **C54** The returned parser yields the body's bytes in order, wherever they are cut, and nothing more. -/
theorem c54_use {c : Parser Cursor} {body : List Byte} {al : Al} {off : Nat} {cfg : ParseConfig}
    (hc : RepP c ⟨⟨body, al, .eof⟩, off, cfg⟩) (n : Nat) :
    (0 < n → n ≤ body.length → ∃ x : Cow Byte, (P.bytes n c).res = .ok x ∧ x.data = body.take n ∧
      RepP (P.bytes n c).st ⟨⟨body.drop n, al.add n, .eof⟩, off + n, cfg⟩) ∧
    (body.length < n → (P.bytes n c).res = .error (.err .eof)) := by
  have h := (P.bytes_takes hc n).1
  unfold TakesNe at h
  by_cases hne : body = []
  · rw [if_pos hne] at h
    refine ⟨fun h1 h2 => ?_, fun _ => h⟩
    rw [hne] at h2; simp at h2; omega
  · rw [if_neg hne] at h
    obtain ⟨x, h1, h2⟩ := h
    unfold Takes at h2
    constructor
    · intro _ hn
      rw [if_pos hn] at h2
      exact ⟨x, h2.1, h1, h2.2.1⟩
    · intro hn
      rw [if_neg (Nat.not_le.mpr hn)] at h2
      exact h2

example : (match P.metadata (Parser.new (⟨[⟨3, (demoComm.enc .little demoAllCfg).take 18⟩,
      ⟨77, (demoComm.enc .little demoAllCfg).drop 18⟩]⟩ : ChunkBuf) demoAllCfg) with
    | ⟨.ok (c, md), st, _⟩ => md.sampleId.time == some 3 && st.data.offset == (demoComm.enc .little demoAllCfg).length &&
        (match (P.bytes 13 c).res, (P.bytes 14 c).res with
        | .ok x, .error (.err e) => x.data == [1, 0, 0, 0, 2, 0, 0, 0, 0x61, 0, 0x62, 0, 0] && e == .eof
        | _, _ => false)
    | _ => false) = true := by decide +kernel

/-! ## C57, first half -/

/-- **C57** The reader delivers the nonempty pieces `ds` and then fails, before the record is complete: `parse_record`
returns that error, converted. -/
theorem c57_error (ds : List (List Byte)) (hne : ∀ d ∈ ds, d ≠ []) (e : IoError) (more : List ReadEvent) {cfg : ParseConfig}
    (hw : cfg.Wf) (v : Visitor Cow O)
    (hlt : ds.flatten.length < 8 ∨ 8 ≤ (cfg.endian.conv16 ((ds.flatten.drop 6).take 2)).toNat ∧
      ds.flatten.length < (cfg.endian.conv16 ((ds.flatten.drop 6).take 2)).toNat) :
    (P.record v (Parser.new (⟨[], ds.map ReadEvent.data ++ .error e :: more⟩ : BufReader) cfg)).res =
      .error (.err (.ofIo e)) := by
  have hb : ∀ ds : List (List Byte), (∀ d ∈ ds, d ≠ []) →
      scriptBytes (ds.map ReadEvent.data ++ .error e :: more) = ds.flatten ∧
      scriptFin (ds.map ReadEvent.data ++ .error e :: more) = .ofIo e := by
    intro ds h
    induction ds with
    | nil => exact ⟨rfl, rfl⟩
    | cons d ds ih =>
      obtain ⟨h1, h2⟩ := ih fun x hx => h x (List.mem_cons_of_mem _ hx)
      rcases d with - | ⟨b, bs⟩
      · exact absurd rfl (h [] List.mem_cons_self)
      · simp only [List.map_cons, List.cons_append, scriptBytes, scriptFin, h1, h2, List.flatten_cons]
        exact ⟨trivial, trivial⟩
  obtain ⟨h1, h2⟩ := hb ds hne
  have h := c06_truncated (RepP.reader (ds.map ReadEvent.data ++ .error e :: more) hw) v (by
    simp only [headerAt, h1]; exact hlt)
  rw [h]
  simp only [h2]

/-- The conversion keeps the text, and reports anything but `UnexpectedEof` as an external error. -/
theorem c57_converted (e : IoError) : (ParseError.ofIo e).source = some e.text ∧
    (ParseError.ofIo e).kind = if e.unexpectedEof then .eof else .external := by
  unfold ParseError.ofIo
  split <;> exact ⟨rfl, rfl⟩

example : (match (P.parseRecord (Parser.new (⟨[], [.data (demoLost.take 11), .error ⟨false, "disk on fire"⟩, .data (demoLost.drop 11)]⟩ :
      BufReader) demoCfg)).res with
  | .error (.err e) => e.kind == .external && e.source == some "disk on fire"
  | _ => false) = true := by decide +kernel

/-! ## C58 -/

/-- An MMAP record as the kernel writes it, with the sample_id trailer also here if `sample_id_all` is set. -/
def kernelMmap (o : Order) (cfg : ParseConfig) (misc : U16) (pid tid : U32) (addr len pgoff : U64) (name : KName)
    (t : KTrailer) : List Byte :=
  let body := e32 o pid ++ e32 o tid ++ e64 o addr ++ e64 o len ++ e64 o pgoff ++ name.enc
  let trailer := if cfg.sampleIdAll then t.enc o cfg.sampleType else []
  e32 o 1#32 ++ e16 o misc ++ e16 o (BitVec.ofNat 16 (8 + body.length + trailer.length)) ++ body ++ trailer

/-- What the crate returns instead: the trailer becomes part of the filename, and the metadata is empty. -/
theorem c58_contaminated_false (hp : RepP p f) (hs : Src f.cfg o) (misc : U16) (pid tid : U32) (addr len pgoff : U64)
    (name : KName) (hn : name.Ok) (t : KTrailer) (hall : f.cfg.sampleIdAll = true)
    (hsize : (kernelMmap o f.cfg misc pid tid addr len pgoff name t).length < 65536)
    (hb : f.s.bytes = kernelMmap o f.cfg misc pid tid addr len pgoff name t ++ tl) :
    ∃ c : Cow Byte, (P.parseRecord p).res = .ok (.mmap ⟨pid, tid, addr, len, pgoff, c⟩) ∧
      c.data = trimNul (name.enc ++ t.enc o f.cfg.sampleType) := by
  obtain ⟨⟨k, hk⟩, h2⟩ := trimNul_spec (name.enc ++ t.enc o f.cfg.sampleType)
  generalize hx : trimNul (name.enc ++ t.enc o f.cfg.sampleType) = x at *
  have henc : KName.enc ⟨x, k⟩ = name.enc ++ t.enc o f.cfg.sampleType := hk.symm
  have heq : kernelMmap o f.cfg misc pid tid addr len pgoff name t =
      (KRecord.mk misc (.mmap pid tid addr len pgoff ⟨x, k⟩) t).enc o f.cfg := by
    unfold kernelMmap KRecord.enc KRecord.size KRecord.encTrailer
    simp only [KBody.enc, KBody.type, hall, henc, if_true]
    simp [Nat.add_assoc]
  rw [heq] at hb hsize
  rw [KRecord.enc_length] at hsize
  refine c12_mmap hp hs misc t pid tid addr len pgoff ⟨x, k⟩ ⟨h2, ?_⟩ hsize hb
  rw [henc]
  intro h
  exact hn.2 (List.append_eq_nil_iff.mp h).1

/-- **C58** Full statement: for every `sample_type`. That is false (`c58_false`); what holds is the case in which no
trailer is written, because `sample_id_all` is off or `sample_type` has none of its fields. -/
theorem c58_partial (hp : RepP p f) (hs : Src f.cfg o) (misc : U16) (pid tid : U32) (addr len pgoff : U64)
    (name : KName) (hn : name.Ok) (t : KTrailer)
    (hall : f.cfg.sampleIdAll = false ∨ trailerLen f.cfg.sampleType = 0)
    (hsize : (kernelMmap o f.cfg misc pid tid addr len pgoff name t).length < 65536)
    (hb : f.s.bytes = kernelMmap o f.cfg misc pid tid addr len pgoff name t ++ tl) :
    ∃ c : Cow Byte, (P.parseRecord p).res = .ok (.mmap ⟨pid, tid, addr, len, pgoff, c⟩) ∧ c.data = name.text := by
  have h0 : (if f.cfg.sampleIdAll then t.enc o f.cfg.sampleType else []) = [] := by
    rcases hall with h | h
    · rw [h]; rfl
    · split
      · exact List.length_eq_zero_iff.mp (by rw [KTrailer.enc_length, h])
      · rfl
  have heq : kernelMmap o f.cfg misc pid tid addr len pgoff name t =
      (KRecord.mk misc (.mmap pid tid addr len pgoff name) t).enc o f.cfg := by
    unfold kernelMmap KRecord.enc KRecord.size KRecord.encTrailer
    rw [h0]
    simp [KBody.enc, KBody.type]
  rw [heq] at hb hsize
  rw [KRecord.enc_length] at hsize
  exact c12_mmap hp hs misc t pid tid addr len pgoff name hn hsize hb

/-- The file "/a" with TID and TIME in the trailer: the filename comes back with 14 more bytes. -/
def demoKernelMmap : List Byte := kernelMmap .little demoAllCfg 0 1 1 0x1000 0x1000 0 ⟨[0x2f, 0x61], 6⟩ ⟨1, 1, 0x0102, 0, 0, 0, 0, 0⟩
theorem c58_false : (match (P.parseRecord (Parser.new (⟨0, demoKernelMmap⟩ : Slice) demoAllCfg)).res with
    | .ok (.mmap r) => r.filename.data == [0x2f, 0x61, 0, 0, 0, 0, 0, 0, 1, 0, 0, 0, 1, 0, 0, 0, 2, 1]
    | _ => false) = true := by decide +kernel
example : (match (P.parseRecord (Parser.new (⟨0, kernelMmap .little demoCfg 0 1 1 0x1000 0x1000 0 ⟨[0x2f, 0x61], 6⟩
      ⟨1, 1, 0x0102, 0, 0, 0, 0, 0⟩⟩ : Slice) demoCfg)).res with
    | .ok (.mmap r) => r.filename.data == [0x2f, 0x61]
    | _ => false) = true := by decide +kernel

end Perf
