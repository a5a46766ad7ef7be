import Verif.Proof.SoundBody
import Verif.Props.Chunking
/-!
# C62: nothing is accepted that the kernel could not have written

The converse of the round trips C10 to C17: if `parse_record` yields a record, its bytes are the kernel's layout of that
record and of the metadata handed to the visitor, apart from ignored bytes between body and trailer.
-/
namespace Perf
variable {β : Type} [ParseBuf β] [Lawful β] {O : Type} {p : Parser β} {f : Flat} {o : Order}

/-- `struct perf_event_header`, body, bytes that belong to nothing, trailer. -/
def KRecord.encWith (o : Order) (cfg : ParseConfig) (r : KRecord) (extra : List Byte) : List Byte :=
  e32 o r.body.type ++ e16 o r.misc ++ e16 o (BitVec.ofNat 16 (r.size o cfg + extra.length)) ++ r.body.enc o cfg ++ extra ++ r.encTrailer o cfg

/-- Without extra bytes this is the layout of the round trips. -/
theorem KRecord.encWith_nil (cfg : ParseConfig) (r : KRecord) : r.encWith o cfg [] = r.enc o cfg := by
  simp [KRecord.encWith, KRecord.enc]

/-- The record starts the bytes `bs`; there is nothing between body and trailer if the body has no length of its own. -/
structure KRecord.Starts (o : Order) (cfg : ParseConfig) (r : KRecord) (extra bs : List Byte) : Prop where
  small : r.size o cfg + extra.length < 65536
  bytes : ∃ tl, bs = r.encWith o cfg extra ++ tl
  toEnd : r.body.toEnd = true → extra = []

theorem KBody.formed_withMisc (b : KBody) (cfg : ParseConfig) (m m' : U16) : b.Formed (cfg.withMisc m) m' ↔ b.Formed cfg m' := by
  cases b <;> simp only [KBody.Formed, ParseConfig.withMisc_readFormat, ParseConfig.withMisc_sampleType, withMisc_regsUser, withMisc_regsIntr]

theorem header_layout (hs : Src f.cfg o) (h8 : 8 ≤ f.s.bytes.length) :
    f.s.bytes = e32 o (headerAt f).type_ ++ e16 o (headerAt f).misc ++ e16 o (headerAt f).size ++ f.s.bytes.drop 8 := by
  have h : ∀ (i n : Nat), f.s.bytes.drop i = (f.s.bytes.drop i).take n ++ f.s.bytes.drop (i + n) := by
    intro i n; rw [← List.drop_drop, List.take_append_drop]
  have l : ∀ (i n : Nat), i + n ≤ 8 → ((f.s.bytes.drop i).take n).length = n := by
    intro i n hi; rw [List.length_take, List.length_drop]; omega
  have h0 : f.s.bytes = f.s.bytes.take 4 ++ f.s.bytes.drop 4 := (List.take_append_drop 4 _).symm
  obtain ⟨x, hx⟩ := enc_surj o 4 (f.s.bytes.take 4) (l 0 4 (by omega))
  obtain ⟨y, hy⟩ := enc_surj o 2 ((f.s.bytes.drop 4).take 2) (l 4 2 (by omega))
  obtain ⟨z, hz⟩ := enc_surj o 2 ((f.s.bytes.drop 6).take 2) (l 6 2 (by omega))
  have hx' : f.s.bytes.take 4 = e32 o x := hx
  have hy' : (f.s.bytes.drop 4).take 2 = e16 o y := hy
  have hz' : (f.s.bytes.drop 6).take 2 = e16 o z := hz
  have hh : headerAt f = ⟨x, y, z⟩ := by
    unfold headerAt
    rw [hx', hy', hz', hs.conv32, hs.conv16, hs.conv16]
  rw [hh]
  show f.s.bytes = e32 o x ++ e16 o y ++ e16 o z ++ f.s.bytes.drop 8
  rw [← hx', ← hy', ← hz', List.append_assoc, List.append_assoc, ← h 6 2, ← h 4 2, ← h0]

/-- **C62** as far as it holds, for any visitor. If it is called at all, then with a record and metadata that the kernel
would have written exactly as they were found. Full statement: without `hset` (the outcome depends on alignment or on the
variant of a `Cow`, see C02), without `h24` (`WEIGHT_STRUCT`, see C50) and without `RegsGiven` (see C49). -/
theorem c62_visit_partial (hp : RepP p f) (hs : Src f.cfg o) (hset : Settled f)
    (h24 : (headerAt f).type_.toNat = 9 → f.cfg.sampleType.getLsbD 24 = false) (v : Visitor Cow O) :
    (∃ e, (P.record v p).res = .error (.err e)) ∨
    ∃ (r : KRecord) (a : Record Cow), (P.record v p).res = v.apply a (r.metadata f.cfg) ∧ a.view = r.body.value f.cfg r.misc ∧
      r.body.Formed f.cfg r.misc ∧ r.body.type = (headerAt f).type_ ∧
      ((∀ s : Sample Cow, a = .sample s → s.view.RegsGiven) → ∃ extra, r.Starts o f.cfg extra f.s.bytes ∧
        RepP (P.record v p).st (f.adv (r.size o f.cfg + extra.length))) := by
  rcases P.record_run hp v with ⟨_, h, _⟩ | ⟨h8, q, hq, _, h⟩
  · exact .inl ⟨_, h⟩
  rw [h]
  obtain ⟨hst, _, h3⟩ := P.recordWithHeader_run hq v (headerAt f)
  have hlay := header_layout hs h8
  have hcfg : ((f.adv 8).region 0).cfg = f.cfg := rfl
  generalize hres : P.recordWithHeader v (headerAt f) q = res at *
  unfold Settled Spec.recordWithHeader at hset
  have hlt := (headerAt f).size_lt
  -- what remains once the framing is known
  have key : ∀ (len : Nat) (sid : SampleId) (t : KTrailer), len ≤ (headerAt f).size.toNat - 8 → 8 ≤ (headerAt f).size.toNat →
      (headerAt f).size.toNat - 8 ≤ (f.adv 8).s.bytes.length →
      (∀ b : KBody, b.type = (headerAt f).type_ → (KRecord.mk (headerAt f).misc b t).metadata f.cfg = Metadata.new (headerAt f) sid ∧
        ((f.adv 8).s.bytes.take ((headerAt f).size.toNat - 8)).drop len = (KRecord.mk (headerAt f).misc b t).encTrailer o f.cfg) →
      (parseBody (headerAt f).type_ : Spec (Record List)) (((f.adv 8).region len).withMisc (headerAt f).misc) ≠ .error .stuck →
      BodyOk v (Metadata.new (headerAt f) sid) ((f.adv 8).region len) res.res →
      (∃ e, res.res = .error (.err e)) ∨
      ∃ (r : KRecord) (a : Record Cow), res.res = v.apply a (r.metadata f.cfg) ∧ a.view = r.body.value f.cfg r.misc ∧
        r.body.Formed f.cfg r.misc ∧ r.body.type = (headerAt f).type_ ∧
        ((∀ s : Sample Cow, a = .sample s → s.view.RegsGiven) → ∃ extra, r.Starts o f.cfg extra f.s.bytes ∧
          RepP res.st (f.adv (r.size o f.cfg + extra.length))) := by
    intro len sid t hlen hsz hle htr hns hbody
    have hb1 := hbody.1
    rcases hpar : (parseBody (headerAt f).type_ : Spec (Record List)) (((f.adv 8).region len).withMisc (headerAt f).misc) with e | ⟨rec, g⟩
    · rw [show (parseBody (Metadata.new (headerAt f) sid).ty : Spec (Record List)) = parseBody (headerAt f).type_ from rfl,
        show (Metadata.new (headerAt f) sid).misc = (headerAt f).misc from rfl, hpar] at hb1
      cases e with
      | stuck => exact absurd hpar hns
      | err e => exact .inl ⟨e, hb1⟩
    · rw [show (parseBody (Metadata.new (headerAt f) sid).ty : Spec (Record List)) = parseBody (headerAt f).type_ from rfl,
        show (Metadata.new (headerAt f) sid).misc = (headerAt f).misc from rfl, hpar] at hb1
      obtain ⟨a, ha, hr⟩ := hb1
      obtain ⟨bs, e1, e2, b, e3, e4, e5, e6⟩ := Sound.body (hs.withMisc (headerAt f).misc) (headerAt f).type_
        (fun h => by rw [ParseConfig.withMisc_sampleType]; exact h24 h) _ _ _ rfl hpar
      obtain ⟨m1, m2⟩ := htr b e3
      have hmisc : (f.cfg.withMisc (headerAt f).misc).misc = (headerAt f).misc := ParseConfig.withMisc_misc _ _
      have e5' : b.Formed f.cfg (headerAt f).misc := by
        rw [hmisc] at e5
        exact (b.formed_withMisc f.cfg (headerAt f).misc (headerAt f).misc).1 e5
      refine .inr ⟨⟨(headerAt f).misc, b, t⟩, a, by rw [hr, m1], ?_, ?_, e3, ?_⟩
      · rw [ha, e4, hmisc]
        exact b.value_withMisc _ _
      · exact e5'
      · intro hg
        have hbs := e6 fun s hs' => by
          cases a with
          | sample s' => 
            have h1 : Record.sample s'.view = Record.sample s := ha.trans hs'
            cases h1
            exact hg s' rfl
          | _ => 
            have h1 := ha.trans hs'
            cases h1
        rw [KBody.enc_withMisc] at hbs
        have hreg : (f.adv 8).s.bytes.take len = bs ++ g.s.bytes := e1
        have hbytes : (f.adv 8).s.bytes = b.enc o f.cfg ++ g.s.bytes ++ (KRecord.mk (headerAt f).misc b t).encTrailer o f.cfg ++
            (f.adv 8).s.bytes.drop ((headerAt f).size.toNat - 8) := by
          rw [← m2, ← hbs, ← hreg]
          have : (f.adv 8).s.bytes.take len = ((f.adv 8).s.bytes.take ((headerAt f).size.toNat - 8)).take len := by
            rw [List.take_take, Nat.min_eq_left hlen]
          rw [this, List.take_append_drop, List.take_append_drop]
        have hsize : (headerAt f).size.toNat = (KRecord.mk (headerAt f).misc b t).size o f.cfg + g.s.bytes.length := by
          have h1 := congrArg List.length hbytes
          simp only [List.length_append, List.length_drop] at h1
          unfold KRecord.size
          show _ = 8 + (b.enc o f.cfg).length + _ + _
          omega
        generalize (f.adv 8).s.bytes.drop ((headerAt f).size.toNat - 8) = tl at hbytes
        refine ⟨g.s.bytes, ⟨by omega, ⟨tl, ?_⟩, fun he => ?_⟩, ?_⟩
        · rw [hlay]
          unfold KRecord.encWith
          have h1 : BitVec.ofNat 16 ((KRecord.mk (headerAt f).misc b t).size o f.cfg + g.s.bytes.length) = (headerAt f).size := by
            rw [← hsize]; simp
          rw [h1]
          show _ ++ (f.adv 8).s.bytes = _
          rw [hbytes]
          simp only [e3, List.append_assoc]
        · have := Drains.body b he e5
          rw [e3] at this
          exact this _ _ _ hpar
        · have := (hst hsz hle).1
          rw [Flat.adv_adv] at this
          rw [← hsize]
          rwa [show 8 + ((headerAt f).size.toNat - 8) = (headerAt f).size.toNat by omega] at this
  have dflt : KTrailer := ⟨0, 0, 0, 0, 0, 0, 0, 0⟩
  have hns : ∀ (r : Flat) (md : Metadata) (g : Flat), Spec.metadataWithHeader (headerAt f) (f.adv 8) = .ok ((r, md), g) →
      (parseBody md.ty : Spec (Record List)) (r.withMisc md.misc) ≠ .error .stuck := by
    intro r md g hm hst'
    rw [hm] at hset
    exact hset (by simp only [hst'])
  rcases Spec.metadata_cases (headerAt f) (f.adv 8) with m | m | m | m | ⟨m1, m2, m3, m4, sid, g, m5, m6⟩
  · rw [m.2] at h3; exact .inl ⟨_, h3⟩
  · rw [m.2.2] at h3; exact .inl ⟨_, h3⟩
  · obtain ⟨m1, m2, m3, m4⟩ := m
    rw [m4] at h3
    refine key _ SampleId.default dflt (Nat.le_refl _) m1 m2 ?_ (hns _ _ _ m4) h3
    intro b hb
    have hty : (f.cfg.sampleIdAll && (headerAt f).type_ != 1#32 && (headerAt f).type_ != 9#32) = false := by
      rcases m3 with h | h
      · have : (headerAt f).type_ = 1#32 := BitVec.eq_of_toNat_eq h
        simp [this]
      · have : (headerAt f).type_ = 9#32 := BitVec.eq_of_toNat_eq h
        simp [this]
    refine ⟨?_, ?_⟩
    · simp only [KRecord.metadata, Metadata.new, hb, hty]; rfl
    · simp only [KRecord.encTrailer, hb, hty, Bool.false_eq_true, if_false]
      rw [List.drop_of_length_le]
      rw [List.length_take]; omega
  · rw [m.2.2.2.2] at h3; exact .inl ⟨_, h3⟩
  · rw [m6] at h3
    have h1 : ((headerAt f).type_ != 1#32) = true := by
      simp only [bne_iff_ne, ne_eq]; intro h; exact m3 (.inl (by rw [h]; rfl))
    have h9 : ((headerAt f).type_ != 9#32) = true := by
      simp only [bne_iff_ne, ne_eq]; intro h; exact m3 (.inr (by rw [h]; rfl))
    have hcfg' : (f.adv 8).cfg = f.cfg := rfl
    rw [estimateLen_eq, hcfg'] at m4 m5 m6 h3
    cases hall : f.cfg.sampleIdAll with
    | false =>
      simp only [hall, Bool.false_eq_true, if_false, Nat.sub_zero] at m4 m5 m6 h3
      have hsid : sid = SampleId.default := by
        have hpar : ∀ g : Flat, g.cfg = f.cfg → (parseSampleId : Spec SampleId) g = .ok (SampleId.default, g) := by
          intro g hg
          unfold parseSampleId
          show (if !g.cfg.sampleIdAll then (pure SampleId.default : Spec SampleId) else _) g = _
          rw [hg, hall]; rfl
        rw [hpar (((f.adv 8).region ((headerAt f).size.toNat - 8)).adv ((headerAt f).size.toNat - 8)) rfl] at m5
        cases m5; rfl
      subst hsid
      refine key _ SampleId.default dflt (Nat.le_refl _) m1 m2 ?_ (hns _ _ _ m6) h3
      intro b hb
      refine ⟨?_, ?_⟩
      · simp only [KRecord.metadata, Metadata.new, hall, hb, Bool.false_and]; rfl
      · simp only [KRecord.encTrailer, hall, Bool.false_and, Bool.false_eq_true, if_false]
        rw [List.drop_of_length_le]
        rw [List.length_take]; omega
    | true =>
      simp only [hall, if_true] at m4 m5 m6 h3
      obtain ⟨bs, e1, e2, t, e3, e4⟩ := Sound.trailer hs hall
        (((f.adv 8).region ((headerAt f).size.toNat - 8)).adv ((headerAt f).size.toNat - 8 - trailerLen f.cfg.sampleType)) _ _ rfl m5
      have hlb : bs.length = trailerLen f.cfg.sampleType := by rw [e4, KTrailer.enc_length]
      have hbs : ((f.adv 8).s.bytes.take ((headerAt f).size.toNat - 8)).drop ((headerAt f).size.toNat - 8 - trailerLen f.cfg.sampleType) =
          bs ++ g.s.bytes := e1
      have hg : g.s.bytes = [] := by
        have := congrArg List.length hbs
        rw [List.length_drop, List.length_take, List.length_append] at this
        exact List.length_eq_zero_iff.1 (by omega)
      rw [hg, List.append_nil] at hbs
      refine key _ sid t (Nat.sub_le _ _) m1 m2 ?_ (hns _ _ _ m6) h3
      intro b hb
      refine ⟨?_, ?_⟩
      · simp only [KRecord.metadata, Metadata.new, hall, hb, h1, h9, Bool.and_self, if_true, e3]
      · simp only [KRecord.encTrailer, hall, hb, h1, h9, Bool.and_self, if_true]
        rw [hbs, e4]

/-- **C62** for `Parse for Record`: a record that is returned was written as the kernel writes it. -/
theorem c62_record_partial (hp : RepP p f) (hs : Src f.cfg o) (hset : Settled f)
    (h24 : (headerAt f).type_.toNat = 9 → f.cfg.sampleType.getLsbD 24 = false) {a : Record Cow} (ha : (P.parseRecord p).res = .ok a)
    (hg : (headerAt f).type_.toNat = 9 → ∀ s : Sample Cow, a = .sample s → s.view.RegsGiven) :
    ∃ (r : KRecord) (extra : List Byte), r.Starts o f.cfg extra f.s.bytes ∧ a.view = r.body.value f.cfg r.misc ∧ r.body.Formed f.cfg r.misc ∧
      RepP (P.parseRecord p).st (f.adv (r.size o f.cfg + extra.length)) := by
  have ha' : (P.record (recordVisitor Cow) p).res = .ok a := ha
  rcases c62_visit_partial hp hs hset h24 (recordVisitor Cow) with ⟨e, h⟩ | ⟨r, b, h1, h2, h3, hty, h4⟩
  · rw [ha'] at h; cases h
  · rw [ha'] at h1
    obtain ⟨a', h5, h6⟩ := recordVisitor_view b (r.metadata f.cfg)
    rw [h5] at h1
    cases h1
    have hv : a.view = r.body.value f.cfg r.misc := by
      rw [h6, h2]
      cases hb : r.body with
      | other ty d =>
        have : (r.metadata f.cfg).ty = ty := by show r.body.type = ty; rw [hb]; rfl
        show Record.unknown (r.metadata f.cfg).ty d = Record.unknown ty d
        rw [this]
      | _ => rfl
    obtain ⟨extra, h7, h8⟩ := h4 fun s hs' => by
      subst hs'
      have : (recordVisitor Cow).apply (.sample s) (r.metadata f.cfg) = .ok (.sample s) := rfl
      rw [this] at h5
      cases h5
      refine hg ?_ s rfl
      have h9 : Record.sample s.view = r.body.value f.cfg r.misc := h2
      rw [← hty]
      cases hb : r.body <;> rw [hb] at h9 <;> first
        | rfl
        | cases h9
    exact ⟨r, extra, h7, hv, h3, h8⟩

/-- **C62** for all types but SAMPLE, NAMESPACES and TEXT_POKE needs nothing else. -/
theorem c62_plain_partial (hp : RepP p f) (hs : Src f.cfg o) (h9 : (headerAt f).type_.toNat ≠ 9) (h16 : (headerAt f).type_.toNat ≠ 16)
    (h20 : (headerAt f).type_.toNat ≠ 20) {a : Record Cow} (ha : (P.parseRecord p).res = .ok a) :
    ∃ (r : KRecord) (extra : List Byte), r.Starts o f.cfg extra f.s.bytes ∧ a.view = r.body.value f.cfg r.misc ∧ r.body.Formed f.cfg r.misc ∧
      RepP (P.parseRecord p).st (f.adv (r.size o f.cfg + extra.length)) := by
  exact c62_record_partial hp hs (.plain h9 h16 h20) (fun h => absurd h h9) ha fun h => absurd h h9

/-- **C62** for SAMPLE and NAMESPACES when borrowed data is aligned, or the byte order is not the reader's. -/
theorem c62_aligned_partial (hp : RepP p f) (hs : Src f.cfg o) (h20 : (headerAt f).type_.toNat ≠ 20)
    (hal : f.cfg.endian.isNative = false ∨ AlAt 0 f ∧ ((headerAt f).type_.toNat = 9 →
      ¬ (contains f.cfg.sampleType SampleFlags.STACK_USER = true ∧ contains f.cfg.sampleType SampleFlags.REGS_INTR = true)))
    (h24 : (headerAt f).type_.toNat = 9 → f.cfg.sampleType.getLsbD 24 = false) {a : Record Cow} (ha : (P.parseRecord p).res = .ok a)
    (hg : (headerAt f).type_.toNat = 9 → ∀ s : Sample Cow, a = .sample s → s.view.RegsGiven) :
    ∃ (r : KRecord) (extra : List Byte), r.Starts o f.cfg extra f.s.bytes ∧ a.view = r.body.value f.cfg r.misc ∧ r.body.Formed f.cfg r.misc ∧
      RepP (P.parseRecord p).st (f.adv (r.size o f.cfg + extra.length)) := by
  refine c62_record_partial hp hs ?_ h24 ha hg
  rcases hal with h | ⟨h, h'⟩
  · exact .foreign h20 h
  · exact .aligned h20 h h'

/-- **C62** for TEXT_POKE, if `old_len` is neither 0 nor the length of the padded code (see B7). -/
theorem c62_text_poke_partial (hp : RepP p f) (hs : Src f.cfg o) (h20 : (headerAt f).type_.toNat = 20)
    (hlen : ∀ x y, f.cfg.endian.conv16 ((f.s.bytes.drop 16).take 2) = x → f.cfg.endian.conv16 ((f.s.bytes.drop 18).take 2) = y →
      x.toNat ≠ 0 ∧ (y.toNat ≠ 0 ∨ x.toNat % 8 ≠ 4)) {a : Record Cow} (ha : (P.parseRecord p).res = .ok a) :
    ∃ (r : KRecord) (extra : List Byte), r.Starts o f.cfg extra f.s.bytes ∧ a.view = r.body.value f.cfg r.misc ∧ r.body.Formed f.cfg r.misc ∧
      RepP (P.parseRecord p).st (f.adv (r.size o f.cfg + extra.length)) :=
  c62_record_partial hp hs (.textPoke h20 hlen) (fun h => by omega) ha fun h => by omega

/-! ## Cases -/

/-- A LOST record whose header claims 3 bytes more than the body has. -/
def extraLost : List Byte := [2, 0, 0, 0, 0, 0, 27, 0, 7, 0, 0, 0, 0, 0, 0, 0, 3, 0, 0, 0, 0, 0, 0, 0, 0xaa, 0xbb, 0xcc, 0xdd]
def extraLostFlat : Flat := ⟨⟨extraLost, .at 4096, .eof⟩, 0, demoCfg⟩

/-- It is accepted: the hypotheses of `c62_plain_partial` hold of it … -/
example : ∃ a : Record Cow, (P.parseRecord (Parser.new (⟨4096, extraLost⟩ : Slice) demoCfg)).res = .ok a ∧
    ∃ (r : KRecord) (extra : List Byte), r.Starts .little demoCfg extra extraLost ∧ a.view = r.body.value demoCfg r.misc ∧ r.body.Formed demoCfg r.misc ∧
      RepP (P.parseRecord (Parser.new (⟨4096, extraLost⟩ : Slice) demoCfg)).st (extraLostFlat.adv (r.size .little demoCfg + extra.length)) := by
  have h : (match (P.parseRecord (Parser.new (⟨4096, extraLost⟩ : Slice) demoCfg)).res with
    | .ok _ => true
    | _ => false) = true := by decide +kernel
  cases ha : (P.parseRecord (Parser.new (⟨4096, extraLost⟩ : Slice) demoCfg)).res with
  | error e => rw [ha] at h; cases h
  | ok a => exact ⟨a, rfl, c62_plain_partial (f := extraLostFlat) (RepP.slice _ _ demoCfg_wf) (Src.little _ _) (by decide +kernel)
      (by decide +kernel) (by decide +kernel) ha⟩

/-- … and what it was taken for is this record with three bytes nobody reads. -/
example : (KRecord.mk 0 (.lost ⟨7, 3⟩) ⟨1, 2, 3, 4, 5, 6, 7, 8⟩).Starts .little demoCfg [0xaa, 0xbb, 0xcc] extraLost :=
  ⟨by decide +kernel, ⟨[0xdd], by decide +kernel⟩, fun h => by cases h⟩

/-- The sample of `c50_weight_struct_false`. -/
def weightBytes : List Byte := (KRecord.mk 0 (.sample { demoSampleBody with weight := 111, dataSrc := 222 })
  ⟨1, 2, 3, 4, 5, 6, 7, 8⟩).enc .little (demoEmptyCfg (SampleFlags.WEIGHT_STRUCT ||| SampleFlags.DATA_SRC))

/-- Without `h24` C62 is false: this sample is accepted, but the value returned belongs to no record the kernel can write. -/
theorem c62_weight_struct_false : ∃ a : Record Cow,
    (P.parseRecord (Parser.new (⟨0, weightBytes⟩ : Slice) (demoEmptyCfg (SampleFlags.WEIGHT_STRUCT ||| SampleFlags.DATA_SRC)))).res = .ok a ∧
    ¬ ∃ (r : KRecord) (extra : List Byte),
      r.Starts .little (demoEmptyCfg (SampleFlags.WEIGHT_STRUCT ||| SampleFlags.DATA_SRC)) extra weightBytes ∧
      a.view = r.body.value (demoEmptyCfg (SampleFlags.WEIGHT_STRUCT ||| SampleFlags.DATA_SRC)) r.misc := by
  have h : (match (P.parseRecord (Parser.new (⟨0, weightBytes⟩ : Slice)
      (demoEmptyCfg (SampleFlags.WEIGHT_STRUCT ||| SampleFlags.DATA_SRC)))).res with
    | .ok (.sample s) => s.weight == none
    | _ => false) = true := by decide +kernel
  cases ha : (P.parseRecord (Parser.new (⟨0, weightBytes⟩ : Slice) (demoEmptyCfg (SampleFlags.WEIGHT_STRUCT ||| SampleFlags.DATA_SRC)))).res with
  | error e => rw [ha] at h; cases h
  | ok a =>
    rw [ha] at h
    refine ⟨a, rfl, fun ⟨r, extra, _, hv⟩ => ?_⟩
    cases a with
    | sample s =>
      have hw : s.weight = none := by simpa using h
      cases hb : r.body with
      | sample k =>
        rw [hb] at hv
        have h1 : s.view = _ := Record.sample.inj hv
        have h2 : s.view.weight = s.weight := rfl
        rw [h1, hw] at h2
        have h3 : ((demoEmptyCfg (SampleFlags.WEIGHT_STRUCT ||| SampleFlags.DATA_SRC)).sampleType.getLsbD 14 ||
          (demoEmptyCfg (SampleFlags.WEIGHT_STRUCT ||| SampleFlags.DATA_SRC)).sampleType.getLsbD 24) = true := by decide +kernel
        simp only [KSample.value, h3, optv, if_true] at h2
        cases h2
      | _ => rw [hb] at hv; cases hv
    | _ => cases h

/-- Nor can `RegsGiven` go: after a dump with ABI 0 (`NONE`) the kernel goes on to the next field, here `CODE_PAGE_SIZE`, but
the bytes of that field are taken for a register. -/
theorem c62_abi_none_false :
    let cfg := { demoCfg with config := ⟨ConfigFlags.new 0#64 (SampleFlags.REGS_USER ||| SampleFlags.CODE_PAGE_SIZE) false false 0#16, 1#64, 0#64⟩ }
    let bs : List Byte := [9, 0, 0, 0, 0, 0, 32, 0] ++ [0, 0, 0, 0, 0, 0, 0, 0] ++ [1, 0, 0, 0, 0, 0, 0, 0] ++ [2, 0, 0, 0, 0, 0, 0, 0]
    ∃ a : Record Cow, (P.parseRecord (Parser.new (⟨0, bs⟩ : Slice) cfg)).res = .ok a ∧
      ¬ ∃ (r : KRecord) (extra : List Byte), r.Starts .little cfg extra bs ∧ a.view = r.body.value cfg r.misc := by
  intro cfg bs
  have h : (match (P.parseRecord (Parser.new (⟨0, bs⟩ : Slice) cfg)).res with
    | .ok (.sample s) => s.codePageSize == some 2 && s.regsUser.any fun r => r.abi == 0
    | _ => false) = true := by decide +kernel
  cases ha : (P.parseRecord (Parser.new (⟨0, bs⟩ : Slice) cfg)).res with
  | error e => rw [ha] at h; cases h
  | ok a =>
    rw [ha] at h
    refine ⟨a, rfl, fun ⟨r, extra, hs, hv⟩ => ?_⟩
    obtain ⟨tl, hs⟩ := hs.bytes
    cases a with
    | sample s =>
      simp only [Bool.and_eq_true, beq_iff_eq] at h
      cases hb : r.body with
      | sample k =>
        rw [hb] at hv
        have h1 : s.view = _ := Record.sample.inj hv
        have h12 : cfg.sampleType.getLsbD 12 = true := by decide +kernel
        have h23 : cfg.sampleType.getLsbD 23 = true := by decide +kernel
        have hc : k.codePageSize = 2 := by
          have h2 : s.view.codePageSize = s.codePageSize := rfl
          rw [h1, h.1] at h2
          simp only [KSample.value, h23, optv, if_true] at h2
          exact Option.some.inj h2
        have hr : k.regsUser.abi = 0 := by
          have h2 : s.view.regsUser = s.regsUser.map Registers.view := rfl
          rw [h1] at h2
          simp only [KSample.value, h12, optv, if_true] at h2
          cases h3 : s.regsUser with
          | none => rw [h3] at h2; cases h2
          | some x =>
            rw [h3] at h2 h
            have h4 : x.abi = 0 := by simpa using h.2
            have h5 := congrArg Registers.abi (Option.some.inj h2)
            exact h5.trans h4
        have henc : r.body.enc .little cfg = e64 .little 0 ++ e64 .little 2 := by
          rw [hb]
          show k.enc .little cfg.sampleType cfg.readFormat cfg.branchHwIndex = _
          have off : ∀ i ∈ [16, 0, 1, 2, 3, 6, 9, 7, 8, 4, 5, 10, 11, 13, 14, 24, 15, 17, 18, 19, 21, 22, 20], cfg.sampleType.getLsbD i = false := by decide +kernel
          simp only [KSample.enc, KSample.parts, KRegs.enc, hc, hr, h12, h23, opt, off 16 (by decide), off 0 (by
            decide), off 1 (by decide), off 2 (by decide), off 3 (by decide), off 6 (by decide), off 9 (by decide), off
            7 (by decide), off 8 (by decide), off 4 (by decide), off 5 (by decide), off 10 (by decide), off 11 (by
            decide), off 13 (by decide), off 14 (by decide), off 24 (by decide), off 15 (by decide), off 17 (by decide),
            off 18 (by decide), off 19 (by decide), off 21 (by decide), off 22 (by decide), off 20 (by decide)]
          rfl
        unfold KRecord.encWith at hs
        rw [henc] at hs
        have h6 := congrArg (fun l => (l.drop 16).take 1) hs
        have hl : (e32 .little r.body.type ++ e16 .little r.misc ++ e16 .little (BitVec.ofNat 16 (r.size .little cfg + extra.length)) ++
          e64 .little 0).length = 16 := by simp
        simp only [← List.append_assoc] at h6
        simp only [List.append_assoc (_ ++ e64 .little 0), List.drop_left' hl] at h6
        exact absurd h6 (by
          show ¬ [1#8] = List.take 1 (e64 .little 2 ++ _)
          rw [List.take_append_of_le_length (by simp)]
          decide)
      | _ => rw [hb] at hv; cases hv
    | _ => cases h

end Perf
