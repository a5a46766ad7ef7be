import Verif.Proof.PExactBody
import Verif.Props.Piped
import Verif.Props.Sound
import Verif.Props.MendedExact
/-!
# C95: through a reader, exactly these bytes are accepted

The crate as it is, with its defects. Spec/CodeLayout.lean writes down which bytes are taken for a record and what is then reported; here
it is shown that this is exactly what `parse_record` does with bytes that come through a reader, whatever the bytes, the portions, the
configuration and the visitor.
-/
namespace Perf
variable {β γ : Type} [ParseBuf β] [Lawful β] [ParseBuf γ] [Lawful γ] {O : Type} {p : Parser β} {q : Parser γ} {f g : Flat} {o : Order}
  {cfg : ParseConfig}

/-! ## The frame -/

/-- What a framing that succeeds says about the bytes. -/
theorem Spec.metadata_inv (hs : Src f.cfg o) {h : Header} {reg : Flat} {md : Metadata} (hm : Spec.metadataWithHeader h f = .ok ((reg, md), g)) :
    ∃ (len : Nat) (t : KTrailer), reg = f.region len ∧ g = f.adv (h.size.toNat - 8) ∧ 8 ≤ h.size.toNat ∧ len ≤ h.size.toNat - 8 ∧
      h.size.toNat - 8 ≤ f.s.bytes.length ∧ ∀ b : KBody, b.type = h.type_ → md = (KRecord.mk h.misc b t).metadata f.cfg ∧
        (f.s.bytes.take (h.size.toNat - 8)).drop len = (KRecord.mk h.misc b t).encTrailer o f.cfg := by
  rcases Spec.metadata_cases h f with m | m | m | m | ⟨m1, m2, m3, m4, sid, g', m5, m6⟩
  · rw [m.2] at hm; cases hm
  · rw [m.2.2] at hm; cases hm
  · obtain ⟨m1, m2, m3, m4⟩ := m
    rw [m4] at hm
    cases hm
    refine ⟨_, ⟨0, 0, 0, 0, 0, 0, 0, 0⟩, rfl, rfl, m1, Nat.le_refl _, m2, fun b hb => ?_⟩
    have hty : (f.cfg.sampleIdAll && h.type_ != 1#32 && h.type_ != 9#32) = false := by
      rcases m3 with h' | h'
      · have : h.type_ = 1#32 := BitVec.eq_of_toNat_eq h'
        simp [this]
      · have : h.type_ = 9#32 := BitVec.eq_of_toNat_eq h'
        simp [this]
    refine ⟨?_, ?_⟩
    · simp only [KRecord.metadata, Metadata.new, hb, hty]; rfl
    · simp only [KRecord.encTrailer, hb, hty, Bool.false_eq_true, if_false]
      rw [List.drop_of_length_le]
      rw [List.length_take]; omega
  · rw [m.2.2.2.2] at hm; cases hm
  · rw [m6] at hm
    cases hm
    have h1 : (h.type_ != 1#32) = true := by
      simp only [bne_iff_ne, ne_eq]; intro h'; exact m3 (.inl (by rw [h']; rfl))
    have h9 : (h.type_ != 9#32) = true := by
      simp only [bne_iff_ne, ne_eq]; intro h'; exact m3 (.inr (by rw [h']; rfl))
    rw [estimateLen_eq] at m4 m5 ⊢
    cases hall : f.cfg.sampleIdAll with
    | false =>
      simp only [hall, Bool.false_eq_true, if_false, Nat.sub_zero] at m4 m5 ⊢
      have hsid : sid = SampleId.default := by
        have hpar : ∀ g : Flat, g.cfg = f.cfg → (parseSampleId : Spec SampleId) g = .ok (SampleId.default, g) := by
          intro g hg
          unfold parseSampleId
          show (if !g.cfg.sampleIdAll then (pure SampleId.default : Spec SampleId) else _) g = _
          rw [hg, hall]; rfl
        rw [hpar ((f.region (h.size.toNat - 8)).adv (h.size.toNat - 8)) rfl] at m5
        cases m5; rfl
      subst hsid
      refine ⟨_, ⟨0, 0, 0, 0, 0, 0, 0, 0⟩, rfl, trivial, m1, Nat.le_refl _, m2, fun b hb => ⟨?_, ?_⟩⟩
      · simp only [KRecord.metadata, Metadata.new, hall, hb, Bool.false_and]; rfl
      · simp only [KRecord.encTrailer, hall, Bool.false_and, Bool.false_eq_true, if_false]
        rw [List.drop_of_length_le]
        rw [List.length_take]; omega
    | true =>
      simp only [hall, if_true] at m4 m5 ⊢
      obtain ⟨bs, e1, e2, t, e3, e4⟩ := Sound.trailer hs hall
        ((f.region (h.size.toNat - 8)).adv (h.size.toNat - 8 - trailerLen f.cfg.sampleType)) _ _ rfl m5
      have hlb : bs.length = trailerLen f.cfg.sampleType := by rw [e4, KTrailer.enc_length]
      have hbs : (f.s.bytes.take (h.size.toNat - 8)).drop (h.size.toNat - 8 - trailerLen f.cfg.sampleType) = bs ++ g'.s.bytes := e1
      have hg : g'.s.bytes = [] := by
        have := congrArg List.length hbs
        rw [List.length_drop, List.length_take, List.length_append] at this
        exact List.length_eq_zero_iff.1 (by omega)
      rw [hg, List.append_nil] at hbs
      refine ⟨_, t, rfl, trivial, m1, Nat.sub_le _ _, m2, fun b hb => ⟨?_, ?_⟩⟩
      · simp only [KRecord.metadata, Metadata.new, hall, hb, h1, h9, Bool.and_self, if_true, e3]
      · simp only [KRecord.encTrailer, hall, hb, h1, h9, Bool.and_self, if_true]
        rw [hbs, e4]

/-! ## The record -/

set_option linter.unusedSimpArgs false in
theorem KBody.encTaken_withMisc (b : KBody) (m : U16) : b.encTaken o (cfg.withMisc m) = b.encTaken o cfg := by
  cases b <;> simp only [KBody.encTaken, KBody.enc, ParseConfig.withMisc_readFormat, ParseConfig.withMisc_sampleType,
    ParseConfig.withMisc_branchHwIndex, withMisc_regsUser, withMisc_regsIntr]

theorem KBody.taken_withMisc (b : KBody) (m m' : U16) {extra : List Byte} : b.Taken o (cfg.withMisc m) m' extra ↔ b.Taken o cfg m' extra := by
  cases b <;> simp only [KBody.Taken, ParseConfig.withMisc_readFormat, ParseConfig.withMisc_sampleType,
    ParseConfig.withMisc_branchHwIndex, withMisc_regsUser, withMisc_regsIntr, withMisc_endian]

theorem KBody.copy_withMisc (b : KBody) (m m' : U16) : b.copy (cfg.withMisc m) m' = b.copy cfg m' := by
  cases b <;> simp only [KBody.copy, ParseConfig.withMisc_readFormat, ParseConfig.withMisc_sampleType,
    ParseConfig.withMisc_branchHwIndex, withMisc_regsUser, withMisc_regsIntr]

theorem KRecord.encTaken_length (r : KRecord) (extra : List Byte) : (r.encTaken o cfg extra).length = r.sizeTaken o cfg + extra.length := by
  unfold KRecord.encTaken KRecord.sizeTaken
  simp
  omega

/-- A record that is taken is reported, as a copy, and the parser stands behind it. -/
theorem Piped.record_taken (hs : Src f.cfg o) (v : Visitor Cow O) {r : KRecord} {extra : List Byte} (h : r.TakenFrom o f.cfg extra f.s.bytes) :
    Piped.record v f = (v.apply (r.body.copy f.cfg r.misc) (r.metadata f.cfg)).map fun x => (x, f.adv (r.encTaken o f.cfg extra).length) := by
  obtain ⟨hT, hsmall, hend, tl, hb⟩ := h
  -- the same bytes as an unknown record, for the sake of the frame
  let r' : KRecord := ⟨r.misc, .other r.body.type (r.body.encTaken o f.cfg ++ extra), r.trailer⟩
  have htr : r'.encTrailer o f.cfg = r.encTrailer o f.cfg := rfl
  have hsz : r'.size o f.cfg = r.sizeTaken o f.cfg + extra.length := by
    unfold KRecord.size KRecord.sizeTaken
    rw [htr]
    show 8 + (r.body.encTaken o f.cfg ++ extra).length + _ = _
    rw [List.length_append]
    omega
  have hb' : f.s.bytes = r'.enc o f.cfg ++ tl := by
    rw [← hb]
    unfold KRecord.encTaken KRecord.enc
    rw [hsz, htr]
    show _ = e32 o r.body.type ++ e16 o r.misc ++ _ ++ (r.body.encTaken o f.cfg ++ extra) ++ _ ++ _
    simp only [List.append_assoc]
  have hh := headerAt_enc hs r' hb'
  have hl8 : 8 ≤ f.s.bytes.length := by
    rw [hb', List.length_append, KRecord.enc_length]
    unfold KRecord.size
    omega
  have hb8 : (f.adv 8).s.bytes = r'.body.enc o f.cfg ++ r'.encTrailer o f.cfg ++ tl := by
    rw [Flat.adv_bytes, hb']
    unfold KRecord.enc
    have : 8 = (e32 o r'.body.type ++ e16 o r'.misc ++ e16 o (BitVec.ofNat 16 (r'.size o f.cfg))).length := by simp
    generalize e32 o r'.body.type ++ e16 o r'.misc ++ e16 o (BitVec.ofNat 16 (r'.size o f.cfg)) = X at this ⊢
    rw [this, List.append_assoc, List.append_assoc, List.drop_left, List.append_assoc]
  obtain ⟨f', hm⟩ := metadata_enc (f := f.adv 8) (o := o) hs r' (by rw [show (f.adv 8).cfg = f.cfg from rfl, hsz]; exact hsmall) hb8
  rw [show (f.adv 8).cfg = f.cfg from rfl] at hm
  obtain ⟨_, _, _, hg, _, _, _, _⟩ := Spec.metadata_inv (f := f.adv 8) (o := o) hs hm
  have hf' : f' = f.adv (r.encTaken o f.cfg extra).length := by
    have h8 : 8 ≤ r'.size o f.cfg := by unfold KRecord.size; omega
    rw [hg, Flat.adv_adv, KRecord.encTaken_length, ← hsz]
    dsimp only
    rw [toNat_ofNat_lt (by rw [hsz]; exact hsmall)]
    congr 1
    omega
  have hmd : r'.metadata f.cfg = r.metadata f.cfg := rfl
  have hreg : ((f.adv 8).region (r'.body.enc o f.cfg).length).s.bytes = r.body.encTaken o f.cfg ++ extra := by
    show (f.adv 8).s.bytes.take _ = _
    rw [hb8, List.append_assoc, List.take_left]
    rfl
  have hbody : (parseBody r.body.type : Piped (Record Cow)) (((f.adv 8).region (r'.body.enc o f.cfg).length).withMisc r.misc) =
      .ok (r.body.copy f.cfg r.misc, (((f.adv 8).region (r'.body.enc o f.cfg).length).withMisc r.misc).adv (r.body.encTaken o f.cfg).length) := by
    refine (PEnc.body (hs.withMisc r.misc) r.body.type _ rfl rfl ?_ _ _).2 ⟨r.body, extra, ?_, ?_, ?_, rfl, ?_, hend⟩
    · show ((f.adv 8).region (r'.body.enc o f.cfg).length).s.bytes.length < _
      rw [hreg, List.length_append]
      unfold KRecord.sizeTaken at hsmall
      omega
    · dsimp only; rw [KBody.encTaken_withMisc]; exact hreg
    · dsimp only; rw [KBody.encTaken_withMisc]
    · dsimp only; rw [ParseConfig.withMisc_misc, KBody.copy_withMisc]
    · rw [ParseConfig.withMisc_misc, KBody.taken_withMisc]; exact hT
  unfold Piped.record
  rw [Piped.bind_run (Piped.header_run hl8), hh]
  unfold Piped.recordWithHeader
  rw [hm, hmd]
  show (match (parseBody r.body.type : Piped (Record Cow)) (((f.adv 8).region (r'.body.enc o f.cfg).length).withMisc r.misc) with
    | .error e => .error e
    | .ok (a, _) => (v.apply a (r.metadata f.cfg)).map fun o => (o, f') : Except Fault (O × Flat)) = _
  rw [hbody, hf']

/-- Where no record is taken there is an error, and the visitor is not asked. -/
theorem Piped.record_refused (hs : Src f.cfg o) (h : ∀ (r : KRecord) (extra : List Byte), ¬ r.TakenFrom o f.cfg extra f.s.bytes) :
    ∃ e, ∀ {O : Type} (v : Visitor Cow O), Piped.record v f = .error e := by
  by_cases h8 : 8 ≤ f.s.bytes.length
  case neg => exact ⟨_, fun v => Piped.bind_stop (Piped.header_short (by omega))⟩
  have hrun : ∀ {O : Type} (v : Visitor Cow O), Piped.record v f = Piped.recordWithHeader v (headerAt f) (f.adv 8) := fun v =>
    Piped.bind_run (Piped.header_run h8)
  rcases hm : Spec.metadataWithHeader (headerAt f) (f.adv 8) with (e | _) | ⟨⟨reg, md⟩, g⟩
  · exact ⟨.err e, fun v => by rw [hrun]; unfold Piped.recordWithHeader; rw [hm]⟩
  · exact ⟨.panic, fun v => by rw [hrun]; unfold Piped.recordWithHeader; rw [hm]⟩
  obtain ⟨len, t, rfl, rfl, m1, m2, m3, m4⟩ := Spec.metadata_inv (f := f.adv 8) (o := o) hs hm
  have hty : md.ty = (headerAt f).type_ ∧ md.misc = (headerAt f).misc := by
    rw [(m4 (.other (headerAt f).type_ []) rfl).1]
    exact ⟨rfl, rfl⟩
  rcases hb : (parseBody md.ty : Piped (Record Cow)) (((f.adv 8).region len).withMisc md.misc) with e | ⟨a, g'⟩
  · exact ⟨e, fun v => by rw [hrun]; unfold Piped.recordWithHeader; rw [hm]; dsimp only; rw [hb]⟩
  exfalso
  rw [hty.1, hty.2] at hb
  have hlt := (headerAt f).size_lt
  obtain ⟨b, tl, e1, e2, e3, e4, e5, e6⟩ := (PEnc.body (hs.withMisc (headerAt f).misc) (headerAt f).type_ _ rfl rfl (by
    show ((f.adv 8).s.bytes.take len).length < _
    rw [List.length_take]
    omega) _ _).1 hb
  obtain ⟨-, m5⟩ := m4 b e4
  rw [show (f.adv 8).cfg = f.cfg from rfl] at m5
  rw [ParseConfig.withMisc_misc, KBody.taken_withMisc] at e5
  dsimp only at e1
  rw [KBody.encTaken_withMisc] at e1
  have e1 : (f.adv 8).s.bytes.take len = b.encTaken o f.cfg ++ tl := e1
  have hbytes : (f.adv 8).s.bytes = b.encTaken o f.cfg ++ tl ++ (KRecord.mk (headerAt f).misc b t).encTrailer o f.cfg ++
      (f.adv 8).s.bytes.drop ((headerAt f).size.toNat - 8) := by
    have h1 : (f.adv 8).s.bytes.take len = ((f.adv 8).s.bytes.take ((headerAt f).size.toNat - 8)).take len := by
      rw [List.take_take, Nat.min_eq_left m2]
    rw [← e1, ← m5, h1, List.take_append_drop, List.take_append_drop]
  have hsize : (headerAt f).size.toNat = (KRecord.mk (headerAt f).misc b t).sizeTaken o f.cfg + tl.length := by
    have h1 := congrArg List.length hbytes
    simp only [List.length_append, List.length_drop] at h1
    unfold KRecord.sizeTaken
    show _ = 8 + (b.encTaken o f.cfg).length + _ + _
    omega
  refine h ⟨(headerAt f).misc, b, t⟩ tl ⟨e5, by omega, e6, (f.adv 8).s.bytes.drop ((headerAt f).size.toNat - 8), ?_⟩
  have hlay := header_layout hs h8
  rw [hlay]
  have h1 : BitVec.ofNat 16 ((KRecord.mk (headerAt f).misc b t).sizeTaken o f.cfg + tl.length) = (headerAt f).size := by
    rw [← hsize]; simp
  unfold KRecord.encTaken
  rw [h1]
  show _ = _ ++ (f.adv 8).s.bytes
  generalize (f.adv 8).s.bytes.drop ((headerAt f).size.toNat - 8) = X at hbytes ⊢
  rw [hbytes]
  simp only [e4, List.append_assoc]

/-! ## The theorems -/

/-- **C95** For every input that comes through a reader, whatever the visitor: either the input starts with a record that is taken, in
which case the visitor is given a copy of its contents and its metadata, and the parser then stands behind it; or it does not, and
there is an error, which does not depend on the visitor. -/
theorem c95_visit (hp : RepP p f) (ht : f.s.al = .temp) (hs : Src f.cfg o) :
    (∃ (r : KRecord) (extra : List Byte), r.TakenFrom o f.cfg extra f.s.bytes ∧ ∀ {O : Type} (v : Visitor Cow O),
      (∃ a : Record Cow, a.view = r.body.valueTaken f.cfg r.misc ∧ (P.record v p).res = v.apply a (r.metadata f.cfg)) ∧
      ((∃ x, (P.record v p).res = .ok x) → RepP (P.record v p).st (f.adv (r.encTaken o f.cfg extra).length))) ∨
    ((∀ (r : KRecord) (extra : List Byte), ¬ r.TakenFrom o f.cfg extra f.s.bytes) ∧
      ∃ e, ∀ {O : Type} (v : Visitor Cow O), (P.record v p).res = .error e) := by
  by_cases h : ∃ (r : KRecord) (extra : List Byte), r.TakenFrom o f.cfg extra f.s.bytes
  · obtain ⟨r, extra, h⟩ := h
    refine .inl ⟨r, extra, h, fun v => ?_⟩
    obtain ⟨h1, h2⟩ := c86_temporary hp ht v
    have h3 := Piped.record_taken hs v h
    have h4 : (P.record v p).res = v.apply (r.body.copy f.cfg r.misc) (r.metadata f.cfg) := by
      rw [h1]
      unfold Piped.result
      rw [h3]
      cases v.apply (r.body.copy f.cfg r.misc) (r.metadata f.cfg) <;> rfl
    refine ⟨⟨_, KBody.copy_view _ _, h4⟩, ?_⟩
    rintro ⟨x, hx⟩
    rw [h4] at hx
    rw [hx] at h3
    exact h2 x _ h3
  · have h : ∀ (r : KRecord) (extra : List Byte), ¬ r.TakenFrom o f.cfg extra f.s.bytes := fun r extra h' => h ⟨r, extra, h'⟩
    obtain ⟨e, he⟩ := Piped.record_refused hs h
    refine .inr ⟨h, e, fun v => ?_⟩
    rw [(c86_temporary hp ht v).1]
    unfold Piped.result
    rw [he v]
    rfl

theorem pairVisitor_taken {r : KRecord} {a : Record Cow} (ha : a.view = r.body.valueTaken cfg r.misc) :
    ∃ b : Record Cow, (pairVisitor : Visitor Cow _).apply a (r.metadata cfg) = .ok (b, r.metadata cfg) ∧ b.view = r.body.valueTaken cfg r.misc := by
  obtain ⟨b, h1, h2⟩ := pairVisitor_apply a (r.metadata cfg)
  refine ⟨b, h1, ?_⟩
  rw [h2, ha]
  cases hb : r.body with
  | other ty d => simp only [KBody.valueTaken, KBody.value, KRecord.metadata, hb, KBody.type]
  | textPoke addr old new pad =>
    by_cases h3 : old = []
    · simp only [KBody.valueTaken, if_pos h3]
    · by_cases h4 : new ++ pad = []
      · simp only [KBody.valueTaken, if_neg h3, if_pos h4]
      · simp only [KBody.valueTaken, if_neg h3, if_neg h4]
  | _ => rfl

/-- **C95** What `parse_record` returns, exactly: `(x, md)` if and only if the input starts with a record that is taken, whose contents are
`x` and whose metadata is `md`. -/
theorem c95_exact (hp : RepP p f) (ht : f.s.al = .temp) (hs : Src f.cfg o) (x : Record List) (md : Metadata) :
    (∃ a : Record Cow, (P.record pairVisitor p).res = .ok (a, md) ∧ a.view = x) ↔
    ∃ (r : KRecord) (extra : List Byte), r.TakenFrom o f.cfg extra f.s.bytes ∧ x = r.body.valueTaken f.cfg r.misc ∧ md = r.metadata f.cfg := by
  constructor
  · rintro ⟨a, ha, rfl⟩
    rcases c95_visit hp ht hs with ⟨r, extra, h, hv⟩ | ⟨_, e, he⟩
    · obtain ⟨⟨b, h1, h2⟩, _⟩ := hv pairVisitor
      obtain ⟨c, h3, h4⟩ := pairVisitor_taken h1
      rw [ha, h3] at h2
      cases h2
      exact ⟨r, extra, h, h4, rfl⟩
    · rw [he] at ha
      cases ha
  · rintro ⟨r, extra, h, rfl, rfl⟩
    obtain ⟨b, h4, h5⟩ := pairVisitor_taken (KBody.copy_view (cfg := f.cfg) r.body r.misc)
    refine ⟨b, ?_, h5⟩
    rw [(c86_temporary hp ht pairVisitor).1]
    unfold Piped.result
    rw [Piped.record_taken hs pairVisitor h, h4]
    rfl

/-- **C95** A record is returned if and only if the input starts with one that is taken. -/
theorem c95_accepts (hp : RepP p f) (ht : f.s.al = .temp) (hs : Src f.cfg o) :
    (∃ y, (P.record pairVisitor p).res = .ok y) ↔ ∃ (r : KRecord) (extra : List Byte), r.TakenFrom o f.cfg extra f.s.bytes := by
  constructor
  · rintro ⟨⟨a, md⟩, h⟩
    obtain ⟨r, extra, h, _⟩ := (c95_exact hp ht hs a.view md).1 ⟨a, h, rfl⟩
    exact ⟨r, extra, h⟩
  · rintro ⟨r, extra, h⟩
    obtain ⟨a, h, _⟩ := (c95_exact hp ht hs _ _).2 ⟨r, extra, h, rfl, rfl⟩
    exact ⟨_, h⟩

/-- **C95** The layout the code expects is unambiguous: however the start of some bytes is taken for a record, it is equally long and means
the same. -/
theorem c95_unambiguous (hs : Src cfg o) {bs extra extra' : List Byte} {r r' : KRecord} (h : r.TakenFrom o cfg extra bs)
    (h' : r'.TakenFrom o cfg extra' bs) : r.body.valueTaken cfg r.misc = r'.body.valueTaken cfg r'.misc ∧ r.metadata cfg = r'.metadata cfg ∧
      r.encTaken o cfg extra = r'.encTaken o cfg extra' := by
  have e1 := Piped.record_taken (f := .through bs .eof cfg) hs pairVisitor h
  have e2 := Piped.record_taken (f := .through bs .eof cfg) hs pairVisitor h'
  obtain ⟨b, h4, h5⟩ := pairVisitor_taken (KBody.copy_view (cfg := cfg) r.body r.misc)
  obtain ⟨b', h4', h5'⟩ := pairVisitor_taken (KBody.copy_view (cfg := cfg) r'.body r'.misc)
  rw [e1, show (Flat.through bs .eof cfg).cfg = cfg from rfl, h4, h4'] at e2
  have e3 := Except.ok.inj e2
  have e4 : b = b' := congrArg (fun y => y.1.1) e3
  have e5 : (r.encTaken o cfg extra).length = (r'.encTaken o cfg extra').length := by
    have := congrArg (fun y => y.2.off) e3
    simpa [Flat.adv, Flat.through] using this
  refine ⟨by rw [← h5, e4, h5'], congrArg (fun y => y.1.2) e3, ?_⟩
  obtain ⟨tl, ht⟩ := h.bytes
  obtain ⟨tl', ht'⟩ := h'.bytes
  exact (List.append_inj (ht.trans ht'.symm) e5).1

/-! ## Many records -/

/-- The bytes start with these records, each with its extra bytes. -/
def TakenAll (o : Order) (cfg : ParseConfig) : List (KRecord × List Byte) → List Byte → Prop
  | [], _ => True
  | (r, extra) :: rs, bs => r.TakenFrom o cfg extra bs ∧ TakenAll o cfg rs (bs.drop (r.encTaken o cfg extra).length)

/-- The same in one line. -/
theorem TakenAll.bytes : ∀ {rs : List (KRecord × List Byte)} {bs : List Byte}, TakenAll o cfg rs bs →
    ∃ tl, bs = (rs.flatMap fun x => x.1.encTaken o cfg x.2) ++ tl
  | [], bs, _ => ⟨bs, rfl⟩
  | (r, extra) :: rs, bs, h => by
    obtain ⟨h1, h2⟩ := h
    obtain ⟨tl, h3⟩ := TakenAll.bytes h2
    obtain ⟨x, rfl⟩ := h1.bytes
    rw [List.drop_left] at h3
    exact ⟨tl, by rw [h3, List.flatMap_cons, List.append_assoc]⟩

/-- A result without the distinction between borrowed and owned. -/
def seenAs (x : Except Fault (Record Cow × Metadata)) : Except Fault (Record List × Metadata) := x.map fun y => (y.1.view, y.2)

/-- **C95** Any number of calls: they return these values if and only if the input starts with that many records that are taken, with
these contents. -/
theorem c95_calls (xs : List (Record List × Metadata)) (hp : RepP p f) (ht : f.s.al = .temp) (hs : Src f.cfg o) :
    (visitMany pairVisitor xs.length p).1.map seenAs = xs.map .ok ↔
    ∃ rs, TakenAll o f.cfg rs f.s.bytes ∧ xs = rs.map fun x => (x.1.body.valueTaken f.cfg x.1.misc, x.1.metadata f.cfg) := by
  induction xs generalizing p f with
  | nil =>
    constructor
    · exact fun _ => ⟨[], trivial, rfl⟩
    · exact fun _ => rfl
  | cons x xs ih =>
    have hv : (visitMany pairVisitor (x :: xs).length p).1.map seenAs =
        seenAs (P.record pairVisitor p).res :: (visitMany pairVisitor xs.length (P.record pairVisitor p).st).1.map seenAs := rfl
    rw [hv, List.map_cons, List.cons.injEq]
    have hst : ∀ (r : KRecord) (extra : List Byte), r.TakenFrom o f.cfg extra f.s.bytes →
        RepP (P.record pairVisitor p).st (f.adv (r.encTaken o f.cfg extra).length) := by
      intro r extra h
      obtain ⟨b, h4, _⟩ := pairVisitor_taken (KBody.copy_view (cfg := f.cfg) r.body r.misc)
      refine (c86_temporary hp ht pairVisitor).2 (b, r.metadata f.cfg) _ ?_
      rw [Piped.record_taken hs pairVisitor h, h4]
      rfl
    constructor
    · rintro ⟨h1, h2⟩
      obtain ⟨a, ha⟩ : ∃ a, (P.record pairVisitor p).res = .ok (a, x.2) ∧ a.view = x.1 := by
        rcases hres : (P.record pairVisitor p).res with e | ⟨a, md⟩
        · rw [hres] at h1; cases h1
        · rw [hres] at h1
          have h1 := Except.ok.inj h1
          subst h1
          exact ⟨a, rfl, rfl⟩
      obtain ⟨r, extra, h, h3, h4⟩ := (c95_exact hp ht hs _ _).1 ⟨a, ha⟩
      obtain ⟨rs, h5, h6⟩ := (ih (hst r extra h) (by rw [Flat.adv_al, ht]; rfl) hs).1 h2
      refine ⟨(r, extra) :: rs, ⟨h, by rwa [Flat.adv_bytes] at h5⟩, ?_⟩
      rw [List.map_cons, h6, ← h3, ← h4]
      rfl
    · rintro ⟨rs, h1, h2⟩
      rcases rs with _ | ⟨⟨r, extra⟩, rs⟩
      · cases h2
      obtain ⟨h, h5⟩ := h1
      rw [List.map_cons, List.cons.injEq] at h2
      obtain ⟨rfl, h6⟩ := h2
      refine ⟨?_, (ih (hst r extra h) (by rw [Flat.adv_al, ht]; rfl) hs).2 ⟨rs, by rw [Flat.adv_bytes]; exact h5, h6⟩⟩
      obtain ⟨a, ha, hx⟩ := (c95_exact hp ht hs _ _).2 ⟨r, extra, h, rfl, rfl⟩
      rw [ha]
      unfold seenAs
      rw [← hx]
      rfl

/-- **C95** For a reader, whatever the portions. -/
theorem c95_reader (es : List ReadEvent) (hw : cfg.Wf) (hs : Src cfg o) (xs : List (Record List × Metadata)) :
    (visitMany pairVisitor xs.length (Parser.new (⟨[], es⟩ : BufReader) cfg)).1.map seenAs = xs.map .ok ↔
    ∃ rs, TakenAll o cfg rs (scriptBytes es) ∧ xs = rs.map fun x => (x.1.body.valueTaken cfg x.1.misc, x.1.metadata cfg) :=
  c95_calls xs (RepP.reader es hw) rfl hs

/-! ## In memory -/

/-- **C95** In any other buffer, too, wherever the outcome depends on the bytes alone (C02): for every type but SAMPLE, NAMESPACES and
TEXT_POKE, and for many of these. -/
theorem c95_settled (hp : RepP p f) (hs : Src f.cfg o) (hf : Settled f) (hg : Settled (.through f.s.bytes .eof f.cfg)) (he : f.s.fin = .eof)
    (x : Record List) (md : Metadata) : (∃ a : Record Cow, (P.record pairVisitor p).res = .ok (a, md) ∧ a.view = x) ↔
    ∃ (r : KRecord) (extra : List Byte), r.TakenFrom o f.cfg extra f.s.bytes ∧ x = r.body.valueTaken f.cfg r.misc ∧ md = r.metadata f.cfg := by
  let es : List ReadEvent := if f.s.bytes = [] then [] else [.data f.s.bytes]
  have h1 : scriptBytes es = f.s.bytes := by
    show scriptBytes (if _ then _ else _) = _
    split
    · rename_i h; rw [h]; rfl
    · rename_i h
      rcases hb : f.s.bytes with _ | ⟨b, bs⟩
      · exact absurd hb h
      · simp [scriptBytes]
  have h2 : scriptFin es = .eof := by
    show scriptFin (if _ then _ else _) = _
    split
    · rfl
    · rename_i h
      rcases hb : f.s.bytes with _ | ⟨b, bs⟩
      · exact absurd hb h
      · rfl
  have hq := RepP.reader es hp.wf
  rw [h1, h2] at hq
  have hv : ∀ y : Except Fault (Record Cow × Metadata), (∃ a : Record Cow, y = .ok (a, md) ∧ a.view = x) ↔ seenAs y = .ok (x, md) := by
    intro y
    constructor
    · rintro ⟨a, rfl, rfl⟩; rfl
    · intro h
      rcases y with e | ⟨a, md'⟩
      · cases h
      · have h := Except.ok.inj h
        have e1 : a.view = x := congrArg Prod.fst h
        have e2 : md' = md := congrArg Prod.snd h
        subst e2
        exact ⟨a, rfl, e1⟩
  refine Iff.trans ?_ (c95_exact hq rfl hs x md)
  rw [hv, hv]
  rcases c02_chunking_partial hp hq ⟨rfl, he, rfl⟩ hf hg pairVisitor with ⟨e, e1, e2⟩ | ⟨a, b, m, e1, e2, e3⟩
  · rw [e1, e2]
  · rw [e2, e3]
    obtain ⟨a', a1, a2⟩ := pairVisitor_apply a m
    obtain ⟨b', b1, b2⟩ := pairVisitor_apply b m
    have : a'.view = b'.view := by rw [a2, b2, e1]
    rw [a1, b1]
    unfold seenAs
    simp only [Except.map, this]

/-- **C95** In memory at any address, for every type but SAMPLE, NAMESPACES and TEXT_POKE. -/
theorem c95_plain (a : Nat) (bs : List Byte) (hw : cfg.Wf) (hs : Src cfg o) (hty : (cfg.endian.conv32 (bs.take 4)).toNat ∉ [9, 16, 20])
    (x : Record List) (md : Metadata) :
    (∃ a' : Record Cow, (P.record pairVisitor (Parser.new (⟨a, bs⟩ : Slice) cfg)).res = .ok (a', md) ∧ a'.view = x) ↔
    ∃ (r : KRecord) (extra : List Byte), r.TakenFrom o cfg extra bs ∧ x = r.body.valueTaken cfg r.misc ∧ md = r.metadata cfg := by
  simp only [List.mem_cons, List.not_mem_nil, or_false, not_or] at hty
  exact c95_settled (RepP.slice a bs hw) hs (.plain hty.1 hty.2.1 hty.2.2) (.plain hty.1 hty.2.1 hty.2.2) rfl x md

/-- **C95** In memory at a multiple of 8, or in the other byte order at any address, for every type but TEXT_POKE; a native sample must
not have both a user stack and interrupt registers. -/
theorem c95_memory (a : Nat) (bs : List Byte) (hw : cfg.Wf) (hs : Src cfg o) (hty : (cfg.endian.conv32 (bs.take 4)).toNat ≠ 20)
    (hal : cfg.endian.isNative = false ∨ (a % 8 = 0 ∧ ((cfg.endian.conv32 (bs.take 4)).toNat = 9 →
      ¬ (contains cfg.sampleType SampleFlags.STACK_USER = true ∧ contains cfg.sampleType SampleFlags.REGS_INTR = true))))
    (x : Record List) (md : Metadata) :
    (∃ a' : Record Cow, (P.record pairVisitor (Parser.new (⟨a, bs⟩ : Slice) cfg)).res = .ok (a', md) ∧ a'.view = x) ↔
    ∃ (r : KRecord) (extra : List Byte), r.TakenFrom o cfg extra bs ∧ x = r.body.valueTaken cfg r.misc ∧ md = r.metadata cfg := by
  rcases hal with hn | ⟨ha, hst⟩
  · exact c95_settled (RepP.slice a bs hw) hs (.foreign hty hn) (.foreign hty hn) rfl x md
  · exact c95_settled (RepP.slice a bs hw) hs (.aligned hty ha hst) (.aligned hty trivial hst) rfl x md

/-! ## Where this is the layout of the kernel, and where it is not -/

/-- **C95** Apart from weights and registers of a sample and from a TEXT_POKE without old code or with nothing else, what is taken for a body
has the kernel's layout and the kernel's meaning. -/
theorem c95_kernel {b : KBody} {misc : U16}
    (h1 : ∀ s, b = .sample s → cfg.sampleType.getLsbD 24 = false ∧
      (cfg.sampleType.getLsbD 12 = true → s.regsUser.abi ≠ 0#64 ∨ s.regsUser.values = []) ∧
      (cfg.sampleType.getLsbD 18 = true → s.regsIntr.abi ≠ 0#64 ∨ s.regsIntr.values = []))
    (h2 : ∀ addr old new pad, b = .textPoke addr old new pad → old ≠ [] ∧ new ++ pad ≠ []) :
    b.encTaken o cfg = b.enc o cfg ∧ b.valueTaken cfg misc = b.value cfg misc := by
  cases b with
  | sample s =>
    obtain ⟨h24, h12, h18⟩ := h1 s rfl
    have hr : ∀ r : KRegs, r.abi ≠ 0#64 ∨ r.values = [] → r.encTaken o = r.enc o := by
      intro r hr
      unfold KRegs.encTaken KRegs.enc
      rcases hr with hr | hr
      · rw [if_neg hr]
      · rw [hr]; split <;> rfl
    have ho : ∀ (c : Bool) (r : KRegs), (c = true → r.abi ≠ 0#64 ∨ r.values = []) → opt c (r.encTaken o) = opt c (r.enc o) := by
      intro c r h
      cases c
      · rfl
      · rw [hr r (h rfl)]
    refine ⟨?_, ?_⟩
    · show (s.partsTaken _ _ _ _).flatten = (s.parts _ _ _ _).flatten
      unfold KSample.partsTaken KSample.parts
      rw [ho _ _ h12, ho _ _ h18, h24, Bool.or_false]
    · show Record.sample _ = Record.sample _
      unfold KSample.valueTaken KSample.value
      rw [h24, Bool.or_false]
  | textPoke addr old new pad =>
    obtain ⟨h3, h4⟩ := h2 addr old new pad rfl
    refine ⟨rfl, ?_⟩
    simp only [KBody.valueTaken, if_neg h3, if_neg h4]
    rfl
  | _ => exact ⟨rfl, rfl⟩

/-! ## Examples -/

/-- A sample with user registers of which the kernel says that there are none (`abi` 0), for a mask of two registers, and then 16 bytes that
belong to something else; and a TEXT_POKE that only has new code. -/
def demoTakenCfg : ParseConfig := partsCfg 0 0x1000 false false 3 0
def demoTakenSample : KRecord := ⟨0, .sample { demoSampleBody with regsUser := ⟨0, [7, 8]⟩ }, ⟨0, 0, 0, 0, 0, 0, 0, 0⟩⟩
def demoTakenPoke : KRecord := ⟨0, .textPoke 5 [] [1, 2, 3] [0], ⟨0, 0, 0, 0, 0, 0, 0, 0⟩⟩
def demoTakenBytes : List Byte := demoTakenSample.encTaken .little demoTakenCfg [] ++ (demoTakenPoke.encTaken .little demoTakenCfg [9, 9] ++ [1])

/-- Both are taken. -/
theorem demoTaken : TakenAll .little demoTakenCfg [(demoTakenSample, []), (demoTakenPoke, [9, 9])] demoTakenBytes := by
  refine ⟨⟨?_, by decide +kernel, fun h => (by cases h), ⟨_, rfl⟩⟩, ⟨⟨?_, ?_, ?_, ?_⟩, by decide +kernel, fun h => (by cases h), ?_⟩, trivial⟩
  · constructor <;> first | (intro h; revert h; decide +kernel) | decide +kernel
  · decide
  · decide
  · decide
  · decide
  · unfold demoTakenBytes
    rw [List.drop_left]
    exact ⟨_, rfl⟩

/-- And so the code reads registers that are not there, and new code as old code, in whatever portions the bytes arrive. -/
example (es : List ReadEvent) (hb : scriptBytes es = demoTakenBytes) :
    (visitMany pairVisitor 2 (Parser.new (⟨[], es⟩ : BufReader) demoTakenCfg)).1.map seenAs =
      [.ok (demoTakenSample.body.valueTaken demoTakenCfg 0, demoTakenSample.metadata demoTakenCfg),
       .ok (.textPoke ⟨5, [1, 2, 3, 0], []⟩, demoTakenPoke.metadata demoTakenCfg)] :=
  (c95_reader (cfg := demoTakenCfg) es demoCfg_wf (Src.little _ _) [(demoTakenSample.body.valueTaken demoTakenCfg 0, demoTakenSample.metadata demoTakenCfg),
    (.textPoke ⟨5, [1, 2, 3, 0], []⟩, demoTakenPoke.metadata demoTakenCfg)]).2 ⟨_, hb.symm ▸ demoTaken, rfl⟩

/-- The first one as it comes out of the model, run on two portions. -/
theorem c95_example :
    (match (P.record pairVisitor (Parser.new (⟨[], [.data (demoTakenBytes.take 20), .data (demoTakenBytes.drop 20)]⟩ : BufReader) demoTakenCfg)).res with
    | .ok (.sample s, _) => s.view.regsUser.map (fun r => r.regs) == some [7, 8]
    | _ => false) = true := by decide +kernel

/-- Not taken: a size smaller than the header; a LOST record that is too short; a callchain of no frames at the very end (B9). -/
example : ∀ bs ∈ ([[2, 0, 0, 0, 0, 0, 4, 0], [2, 0, 0, 0, 0, 0, 16, 0, 1, 2, 3, 4, 5, 6, 7, 8],
    [9, 0, 0, 0, 0, 0, 16, 0, 0, 0, 0, 0, 0, 0, 0, 0]] : List (List Byte)),
    ∀ (r : KRecord) (extra : List Byte), ¬ r.TakenFrom .little (partsCfg 0 0x20 false false 0 0) extra bs := by
  intro bs hbs r extra h
  have h1 : ∀ bs ∈ ([[2, 0, 0, 0, 0, 0, 4, 0], [2, 0, 0, 0, 0, 0, 16, 0, 1, 2, 3, 4, 5, 6, 7, 8],
      [9, 0, 0, 0, 0, 0, 16, 0, 0, 0, 0, 0, 0, 0, 0, 0]] : List (List Byte)),
      (match (P.record pairVisitor (Parser.new (⟨[], [.data bs]⟩ : BufReader) (partsCfg 0 0x20 false false 0 0))).res with
      | .ok _ => false
      | _ => true) = true := by decide +kernel
  have hsb : scriptBytes [.data bs] = bs := by
    rcases bs with _ | ⟨b, bs⟩
    · rfl
    · simp [scriptBytes]
  obtain ⟨y, hy⟩ := (c95_accepts (RepP.reader (cfg := partsCfg 0 0x20 false false 0 0) [.data bs] demoCfg_wf) rfl (Src.little _ _)).2 ⟨r, extra, by
    show r.TakenFrom _ _ _ (scriptBytes [.data bs])
    rw [hsb]; exact h⟩
  have h2 := h1 bs hbs
  rw [hy] at h2
  cases h2

end Perf
