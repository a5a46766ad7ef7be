import Verif.Proof.LExactBody
import Verif.Props.PipedExact
/-!
# C96: in memory, exactly these bytes are accepted

The crate as it is, with its defects, on one piece of memory at any address. Spec/MemoryLayout.lean writes down which bytes are taken for a
record and what is then reported; here it is shown that this is exactly what `parse_record` does, whatever the bytes, the address, the
configuration and the visitor.
-/
namespace Perf
variable {β : Type} [ParseBuf β] [LawfulEof β] {F : List Byte → β → Prop} {O : Type} {p : Parser β} {f : Flat} {o : Order} {cfg : ParseConfig}

/-! ## The header -/

namespace Contig
variable {α γ : Type}

theorem bind_run {m : Contig α} {k : α → Contig γ} {f f' : Flat} {a : α} (h : m f = .ok (a, f')) : (m >>= k) f = k a f' := by
  show Contig.bind m k f = _
  unfold Contig.bind
  rw [h]

theorem bind_stop {m : Contig α} {k : α → Contig γ} {f : Flat} {e : Fault} (h : m f = .error e) : (m >>= k) f = .error e := by
  show Contig.bind m k f = _
  unfold Contig.bind
  rw [h]

theorem array_run {n : Nat} {f : Flat} (h : n ≤ f.s.bytes.length) (hn : n ≠ 0) :
    (ParserM.array n : Contig (List Byte)) f = .ok (f.s.bytes.take n, f.adv n) := by
  show Contig.array n f = _
  unfold Contig.array
  rw [if_neg (by intro h0; rw [h0] at h; exact hn (Nat.le_zero.1 h))]
  unfold Contig.take
  rw [if_pos h]

theorem array_short {n : Nat} {f : Flat} (h : f.s.bytes.length < n) : (ParserM.array n : Contig (List Byte)) f = .error (.err .eof) := by
  show Contig.array n f = _
  unfold Contig.array
  split
  · rfl
  · unfold Contig.take
    rw [if_neg (by omega)]

theorem u32_run {f : Flat} (h : 4 ≤ f.s.bytes.length) : (parseU32 : Contig U32) f = .ok (f.cfg.endian.conv32 (f.s.bytes.take 4), f.adv 4) :=
  bind_run (array_run h (by decide))

theorem u16_run {f : Flat} (h : 2 ≤ f.s.bytes.length) : (parseU16 : Contig U16) f = .ok (f.cfg.endian.conv16 (f.s.bytes.take 2), f.adv 2) :=
  bind_run (array_run h (by decide))

theorem header_run {f : Flat} (h : 8 ≤ f.s.bytes.length) : (parseHeader : Contig Header) f = .ok (headerAt f, f.adv 8) := by
  unfold parseHeader
  rw [bind_run (u32_run (by omega)), bind_run (u16_run (by rw [Flat.adv_bytes, List.length_drop]; omega)),
    bind_run (u16_run (by rw [Flat.adv_adv, Flat.adv_bytes, List.length_drop]; omega)), Flat.adv_adv, Flat.adv_adv]
  rfl

theorem header_short {f : Flat} (h : f.s.bytes.length < 8) : (parseHeader : Contig Header) f = .error (.err .eof) := by
  unfold parseHeader
  rcases Nat.lt_or_ge f.s.bytes.length 4 with h4 | h4
  · exact bind_stop (bind_stop (array_short h4))
  rw [bind_run (u32_run h4)]
  rcases Nat.lt_or_ge f.s.bytes.length 6 with h6 | h6
  · exact bind_stop (bind_stop (array_short (by rw [Flat.adv_bytes, List.length_drop]; omega)))
  rw [bind_run (u16_run (by rw [Flat.adv_bytes, List.length_drop]; omega))]
  exact bind_stop (bind_stop (array_short (by rw [Flat.adv_adv, Flat.adv_bytes, List.length_drop]; omega)))

end Contig

/-! ## The record -/

set_option linter.unusedSimpArgs false in
theorem KBody.encHeld_withMisc (b : KBody) (m : U16) (d : Dropped) : b.encHeld o (cfg.withMisc m) d = b.encHeld o cfg d := by
  cases b <;> simp only [KBody.encHeld, KBody.enc, ParseConfig.withMisc_readFormat, ParseConfig.withMisc_sampleType,
    ParseConfig.withMisc_branchHwIndex, withMisc_regsUser, withMisc_regsIntr]

theorem KBody.held_withMisc (b : KBody) (m m' : U16) {a : Nat} {d : Dropped} {extra : List Byte} :
    b.Held o (cfg.withMisc m) m' a d extra ↔ b.Held o cfg m' a d extra := by
  cases b <;> simp only [KBody.Held, KBody.Taken, ParseConfig.withMisc_readFormat, ParseConfig.withMisc_sampleType,
    ParseConfig.withMisc_branchHwIndex, withMisc_regsUser, withMisc_regsIntr, withMisc_endian]

theorem KBody.valueHeld_withMisc (b : KBody) (m m' : U16) : b.valueHeld (cfg.withMisc m) m' = b.valueHeld cfg m' := by
  cases b <;> simp only [KBody.valueHeld, KBody.value, ParseConfig.withMisc_readFormat, ParseConfig.withMisc_sampleType,
    ParseConfig.withMisc_branchHwIndex, withMisc_regsUser, withMisc_regsIntr]

theorem KRecord.encHeld_length (r : KRecord) (d : Dropped) (extra : List Byte) : (r.encHeld o cfg d extra).length = r.sizeHeld o cfg d + extra.length := by
  unfold KRecord.encHeld KRecord.sizeHeld
  simp
  omega

/-- What the parser over memory makes of a body, and what the one with lists makes of it. -/
theorem Contig.body_view {ty : U32} {g : Flat} {x : Record List} {g' : Flat} (h : (parseBody ty : Inplace (Record List)) g = .ok (x, g')) :
    ∃ a : Record Cow, a.view = x ∧ (parseBody ty : Contig (Record Cow)) g = .ok (a, g') := by
  rw [Displays.body ty g] at h
  rcases hb : (parseBody ty : Contig (Record Cow)) g with e | ⟨a, g''⟩ <;> rw [hb] at h
  · cases h
  · have h := Except.ok.inj h
    have h1 : a.view = x := congrArg Prod.fst h
    have h2 : g'' = g' := congrArg Prod.snd h
    subst h2
    exact ⟨a, h1, rfl⟩

/-- A record that is taken is reported, and the parser stands behind it. -/
theorem Contig.record_held {k : Nat} (hw : f.cfg.Wf) (hal : f.s.al = .at k) (hfin : f.s.fin = .eof) (hs : Src f.cfg o) {r : KRecord} {d : Dropped}
    {extra : List Byte} (h : r.HeldFrom o f.cfg k d extra f.s.bytes) :
    ∃ a : Record Cow, a.view = r.body.valueHeld f.cfg r.misc ∧ ∀ {O : Type} (v : Visitor Cow O),
      Contig.record v f = (v.apply a (r.metadata f.cfg)).map fun x => (x, f.adv (r.encHeld o f.cfg d extra).length) := by
  obtain ⟨hT, hsmall, hend, tl, hb⟩ := h
  -- the same bytes as an unknown record, for the sake of the frame
  let r' : KRecord := ⟨r.misc, .other r.body.type (r.body.encHeld o f.cfg d ++ extra), r.trailer⟩
  have htr : r'.encTrailer o f.cfg = r.encTrailer o f.cfg := rfl
  have hsz : r'.size o f.cfg = r.sizeHeld o f.cfg d + extra.length := by
    unfold KRecord.size KRecord.sizeHeld
    rw [htr]
    show 8 + (r.body.encHeld o f.cfg d ++ extra).length + _ = _
    rw [List.length_append]
    omega
  have hb' : f.s.bytes = r'.enc o f.cfg ++ tl := by
    rw [← hb]
    unfold KRecord.encHeld KRecord.enc
    rw [hsz, htr]
    show _ = e32 o r.body.type ++ e16 o r.misc ++ _ ++ (r.body.encHeld o f.cfg d ++ extra) ++ _ ++ _
    simp only [List.append_assoc]
  have hh := headerAt_enc hs r' hb'
  have hl8 : 8 ≤ f.s.bytes.length := by
    rw [hb', List.length_append, KRecord.enc_length]
    unfold KRecord.size
    omega
  have hb8 : (f.adv 8).s.bytes = r'.body.enc o f.cfg ++ r'.encTrailer o f.cfg ++ tl := by
    rw [Flat.adv_bytes, hb']
    unfold KRecord.enc
    have : 8 = (e32 o r'.body.type ++ e16 o r'.misc ++ e16 o (BitVec.ofNat 16 (r'.size o f.cfg))).length := by simp
    generalize e32 o r'.body.type ++ e16 o r'.misc ++ e16 o (BitVec.ofNat 16 (r'.size o f.cfg)) = X at this ⊢
    rw [this, List.append_assoc, List.append_assoc, List.drop_left, List.append_assoc]
  obtain ⟨f', hm⟩ := metadata_enc (f := f.adv 8) (o := o) hs r' (by rw [show (f.adv 8).cfg = f.cfg from rfl, hsz]; exact hsmall) hb8
  rw [show (f.adv 8).cfg = f.cfg from rfl] at hm
  obtain ⟨_, _, _, hg, _, _, _, _⟩ := Spec.metadata_inv (f := f.adv 8) (o := o) hs hm
  have hf' : f' = f.adv (r.encHeld o f.cfg d extra).length := by
    have h8 : 8 ≤ r'.size o f.cfg := by unfold KRecord.size; omega
    rw [hg, Flat.adv_adv, KRecord.encHeld_length, ← hsz]
    dsimp only
    rw [toNat_ofNat_lt (by rw [hsz]; exact hsmall)]
    congr 1
    omega
  have hmd : r'.metadata f.cfg = r.metadata f.cfg := rfl
  have hreg : ((f.adv 8).region (r'.body.enc o f.cfg).length).s.bytes = r.body.encHeld o f.cfg d ++ extra := by
    show (f.adv 8).s.bytes.take _ = _
    rw [hb8, List.append_assoc, List.take_left]
    rfl
  have hbody : (parseBody r.body.type : Inplace (Record List)) (((f.adv 8).region (r'.body.enc o f.cfg).length).withMisc r.misc) =
      .ok (r.body.valueHeld f.cfg r.misc, (((f.adv 8).region (r'.body.enc o f.cfg).length).withMisc r.misc).adv (r.body.encHeld o f.cfg d).length) := by
    refine (LEnc.body (hs.withMisc r.misc) (hw.withMisc r.misc) r.body.type (((f.adv 8).region (r'.body.enc o f.cfg).length).withMisc r.misc) k (k + 8) rfl
      (Flat.adv_at hal 8) (by omega) ?_ _ _).2
      ⟨(r.body, d), extra, ?_, ?_, ?_, rfl, ?_, hend⟩
    · show ((f.adv 8).region (r'.body.enc o f.cfg).length).s.bytes.length < _
      rw [hreg, List.length_append]
      unfold KRecord.sizeHeld at hsmall
      omega
    · dsimp only; rw [KBody.encHeld_withMisc]; exact hreg
    · dsimp only; rw [KBody.encHeld_withMisc]
    · dsimp only; rw [ParseConfig.withMisc_misc, KBody.valueHeld_withMisc]
    · dsimp only; rw [ParseConfig.withMisc_misc, KBody.held_withMisc]; exact hT
  obtain ⟨a, ha, hbody⟩ := Contig.body_view hbody
  refine ⟨a, ha, fun {O} v => ?_⟩
  have hm' : Contig.metadataWithHeader ⟨r'.body.type, r'.misc, BitVec.ofNat 16 (r'.size o f.cfg)⟩ (f.adv 8) = _ :=
    Meets.metadata_flat _ (f := f.adv 8) hw (Flat.adv_at hal 8) hfin
  unfold Contig.record
  rw [Contig.bind_run (Contig.header_run hl8), hh]
  unfold Contig.recordWithHeader
  rw [hm', hm, hmd]
  show (match (parseBody r.body.type : Contig (Record Cow)) (((f.adv 8).region (r'.body.enc o f.cfg).length).withMisc r.misc) with
    | .error e => .error e
    | .ok (a, _) => (v.apply a (r.metadata f.cfg)).map fun o => (o, f') : Except Fault (O × Flat)) = _
  rw [hbody, hf']

/-- Where no record is taken there is an error, and the visitor is not asked. -/
theorem Contig.record_refused {k : Nat} (hw : f.cfg.Wf) (hal : f.s.al = .at k) (hfin : f.s.fin = .eof) (hs : Src f.cfg o)
    (h : ∀ (r : KRecord) (d : Dropped) (extra : List Byte), ¬ r.HeldFrom o f.cfg k d extra f.s.bytes) :
    ∃ e, ∀ {O : Type} (v : Visitor Cow O), Contig.record v f = .error e := by
  by_cases h8 : 8 ≤ f.s.bytes.length
  case neg => exact ⟨_, fun v => Contig.bind_stop (Contig.header_short (by omega))⟩
  have hrun : ∀ {O : Type} (v : Visitor Cow O), Contig.record v f = Contig.recordWithHeader v (headerAt f) (f.adv 8) := fun v =>
    Contig.bind_run (Contig.header_run h8)
  have hm' := Meets.metadata_flat (headerAt f) (f := f.adv 8) hw (Flat.adv_at hal 8) hfin
  rcases hm : Spec.metadataWithHeader (headerAt f) (f.adv 8) with (e | _) | ⟨⟨reg, md⟩, g⟩
  · exact ⟨.err e, fun v => by rw [hrun]; unfold Contig.recordWithHeader; rw [hm', hm]⟩
  · exact ⟨.panic, fun v => by rw [hrun]; unfold Contig.recordWithHeader; rw [hm', hm]⟩
  obtain ⟨len, t, rfl, rfl, m1, m2, m3, m4⟩ := Spec.metadata_inv (f := f.adv 8) (o := o) hs hm
  have hty : md.ty = (headerAt f).type_ ∧ md.misc = (headerAt f).misc := by
    rw [(m4 (.other (headerAt f).type_ []) rfl).1]
    exact ⟨rfl, rfl⟩
  rcases hb : (parseBody md.ty : Contig (Record Cow)) (((f.adv 8).region len).withMisc md.misc) with e | ⟨a, g'⟩
  · exact ⟨e, fun v => by rw [hrun]; unfold Contig.recordWithHeader; rw [hm', hm]; dsimp only; rw [hb]⟩
  exfalso
  rw [hty.1, hty.2] at hb
  have hlt := (headerAt f).size_lt
  have hb' : (parseBody (headerAt f).type_ : Inplace (Record List)) (((f.adv 8).region len).withMisc (headerAt f).misc) = .ok (a.view, g') := by
    rw [Displays.body, hb]; rfl
  obtain ⟨⟨b, d⟩, tl, e1, e2, e3, e4, e5, e6⟩ := (LEnc.body (hs.withMisc (headerAt f).misc) (hw.withMisc (headerAt f).misc) (headerAt f).type_
    (((f.adv 8).region len).withMisc (headerAt f).misc) k (k + 8) rfl (Flat.adv_at hal 8) (by omega) (by
    show ((f.adv 8).s.bytes.take len).length < _
    rw [List.length_take]
    omega) _ _).1 hb'
  dsimp only at e1 e4 e5 e6
  obtain ⟨-, m5⟩ := m4 b e4
  rw [show (f.adv 8).cfg = f.cfg from rfl] at m5
  rw [ParseConfig.withMisc_misc, KBody.held_withMisc] at e5
  rw [KBody.encHeld_withMisc] at e1
  have e1 : (f.adv 8).s.bytes.take len = b.encHeld o f.cfg d ++ tl := e1
  have hbytes : (f.adv 8).s.bytes = b.encHeld o f.cfg d ++ tl ++ (KRecord.mk (headerAt f).misc b t).encTrailer o f.cfg ++
      (f.adv 8).s.bytes.drop ((headerAt f).size.toNat - 8) := by
    have h1 : (f.adv 8).s.bytes.take len = ((f.adv 8).s.bytes.take ((headerAt f).size.toNat - 8)).take len := by
      rw [List.take_take, Nat.min_eq_left m2]
    rw [← e1, ← m5, h1, List.take_append_drop, List.take_append_drop]
  have hsize : (headerAt f).size.toNat = (KRecord.mk (headerAt f).misc b t).sizeHeld o f.cfg d + tl.length := by
    have h1 := congrArg List.length hbytes
    simp only [List.length_append, List.length_drop] at h1
    unfold KRecord.sizeHeld
    show _ = 8 + (b.encHeld o f.cfg d).length + _ + _
    omega
  refine h ⟨(headerAt f).misc, b, t⟩ d tl ⟨e5, by omega, e6, (f.adv 8).s.bytes.drop ((headerAt f).size.toNat - 8), ?_⟩
  have hlay := header_layout hs h8
  rw [hlay]
  have h1 : BitVec.ofNat 16 ((KRecord.mk (headerAt f).misc b t).sizeHeld o f.cfg d + tl.length) = (headerAt f).size := by
    rw [← hsize]; simp
  unfold KRecord.encHeld
  rw [h1]
  show _ = _ ++ (f.adv 8).s.bytes
  generalize (f.adv 8).s.bytes.drop ((headerAt f).size.toNat - 8) = X at hbytes ⊢
  rw [hbytes]
  simp only [e4, List.append_assoc]

/-! ## The theorems -/

/-- **C96** For every input in one piece of memory, at every address `k`: either the input starts with a record that is taken, in which case
every visitor is given its contents and its metadata, and the parser then stands behind it; or it does not, and there is an error, which
does not depend on the visitor. -/
theorem c96_visit (hF : OneBuf F) (hp : At F p f) {k : Nat} (hk : f.s.al = .at k) (hs : Src f.cfg o) :
    (∃ (r : KRecord) (d : Dropped) (extra : List Byte), r.HeldFrom o f.cfg k d extra f.s.bytes ∧
      ∃ a : Record Cow, a.view = r.body.valueHeld f.cfg r.misc ∧ ∀ {O : Type} (v : Visitor Cow O),
        (P.record v p).res = v.apply a (r.metadata f.cfg) ∧
        ((∃ x, (P.record v p).res = .ok x) → At F (P.record v p).st (f.adv (r.encHeld o f.cfg d extra).length))) ∨
    ((∀ (r : KRecord) (d : Dropped) (extra : List Byte), ¬ r.HeldFrom o f.cfg k d extra f.s.bytes) ∧
      ∃ e, ∀ {O : Type} (v : Visitor Cow O), (P.record v p).res = .error e) := by
  by_cases h : ∃ (r : KRecord) (d : Dropped) (extra : List Byte), r.HeldFrom o f.cfg k d extra f.s.bytes
  · obtain ⟨r, d, extra, h⟩ := h
    obtain ⟨a, ha, hv⟩ := Contig.record_held hp.rep.wf hk hp.fin hs h
    refine .inl ⟨r, d, extra, h, a, ha, fun v => ?_⟩
    obtain ⟨h1, h2⟩ := c70_one_piece hF v hp
    have h3 := hv v
    have h4 : (P.record v p).res = v.apply a (r.metadata f.cfg) := by
      rw [h1]
      unfold Contig.result
      rw [h3]
      cases v.apply a (r.metadata f.cfg) <;> rfl
    refine ⟨h4, ?_⟩
    rintro ⟨x, hx⟩
    rw [h4] at hx
    rw [hx] at h3
    exact h2 x _ h3
  · have h : ∀ (r : KRecord) (d : Dropped) (extra : List Byte), ¬ r.HeldFrom o f.cfg k d extra f.s.bytes := fun r d extra h' => h ⟨r, d, extra, h'⟩
    obtain ⟨e, he⟩ := Contig.record_refused hp.rep.wf hk hp.fin hs h
    refine .inr ⟨h, e, fun v => ?_⟩
    rw [(c70_one_piece hF v hp).1]
    unfold Contig.result
    rw [he v]
    rfl

theorem pairVisitor_held {r : KRecord} {a : Record Cow} (ha : a.view = r.body.valueHeld cfg r.misc) :
    ∃ b : Record Cow, (pairVisitor : Visitor Cow _).apply a (r.metadata cfg) = .ok (b, r.metadata cfg) ∧ b.view = r.body.valueHeld cfg r.misc := by
  obtain ⟨b, h1, h2⟩ := pairVisitor_apply a (r.metadata cfg)
  refine ⟨b, h1, ?_⟩
  rw [h2, ha]
  cases hb : r.body with
  | other ty d => simp only [KBody.valueHeld, KBody.value, KRecord.metadata, hb, KBody.type]
  | _ => rfl

/-- **C96** What `parse_record` returns, exactly: `(x, md)` if and only if the input starts with a record that is taken, whose contents are
`x` and whose metadata is `md`. -/
theorem c96_exact (hF : OneBuf F) (hp : At F p f) {k : Nat} (hk : f.s.al = .at k) (hs : Src f.cfg o) (x : Record List) (md : Metadata) :
    (∃ a : Record Cow, (P.record pairVisitor p).res = .ok (a, md) ∧ a.view = x) ↔
    ∃ (r : KRecord) (d : Dropped) (extra : List Byte), r.HeldFrom o f.cfg k d extra f.s.bytes ∧ x = r.body.valueHeld f.cfg r.misc ∧
      md = r.metadata f.cfg := by
  constructor
  · rintro ⟨a, ha, rfl⟩
    rcases c96_visit hF hp hk hs with ⟨r, d, extra, h, b, h1, hv⟩ | ⟨_, e, he⟩
    · obtain ⟨h2, _⟩ := hv pairVisitor
      obtain ⟨c, h3, h4⟩ := pairVisitor_held h1
      rw [ha, h3] at h2
      cases h2
      exact ⟨r, d, extra, h, h4, rfl⟩
    · rw [he] at ha
      cases ha
  · rintro ⟨r, d, extra, h, rfl, rfl⟩
    obtain ⟨a, ha, hv⟩ := Contig.record_held hp.rep.wf hk hp.fin hs h
    obtain ⟨b, h4, h5⟩ := pairVisitor_held ha
    refine ⟨b, ?_, h5⟩
    rw [(c70_one_piece hF pairVisitor hp).1]
    unfold Contig.result
    rw [hv pairVisitor, h4]
    rfl

/-- **C96** A record is returned if and only if the input starts with one that is taken. -/
theorem c96_accepts (hF : OneBuf F) (hp : At F p f) {k : Nat} (hk : f.s.al = .at k) (hs : Src f.cfg o) :
    (∃ y, (P.record pairVisitor p).res = .ok y) ↔
    ∃ (r : KRecord) (d : Dropped) (extra : List Byte), r.HeldFrom o f.cfg k d extra f.s.bytes := by
  constructor
  · rintro ⟨⟨a, md⟩, h⟩
    obtain ⟨r, d, extra, h, _⟩ := (c96_exact hF hp hk hs a.view md).1 ⟨a, h, rfl⟩
    exact ⟨r, d, extra, h⟩
  · rintro ⟨r, d, extra, h⟩
    obtain ⟨a, h, _⟩ := (c96_exact hF hp hk hs _ _).2 ⟨r, d, extra, h, rfl, rfl⟩
    exact ⟨_, h⟩

/-- **C96** The layout the code expects at an address is unambiguous: however the start of some bytes is taken for a record, it is equally
long and means the same. -/
theorem c96_unambiguous (hw : cfg.Wf) (hs : Src cfg o) {k : Nat} {bs extra extra' : List Byte} {d d' : Dropped} {r r' : KRecord}
    (h : r.HeldFrom o cfg k d extra bs) (h' : r'.HeldFrom o cfg k d' extra' bs) :
    r.body.valueHeld cfg r.misc = r'.body.valueHeld cfg r'.misc ∧ r.metadata cfg = r'.metadata cfg ∧
      r.encHeld o cfg d extra = r'.encHeld o cfg d' extra' := by
  obtain ⟨a, ha, e1⟩ := Contig.record_held (f := .here k bs cfg) hw rfl rfl hs h
  obtain ⟨a', ha', e2⟩ := Contig.record_held (f := .here k bs cfg) hw rfl rfl hs h'
  have e1 := e1 pairVisitor
  have e2 := e2 pairVisitor
  obtain ⟨b, h4, h5⟩ := pairVisitor_held ha
  obtain ⟨b', h4', h5'⟩ := pairVisitor_held ha'
  rw [e1, h4, h4'] at e2
  have e3 := Except.ok.inj e2
  have e4 : b = b' := congrArg (fun y => y.1.1) e3
  have e5 : (r.encHeld o cfg d extra).length = (r'.encHeld o cfg d' extra').length := by
    have := congrArg (fun y => y.2.off) e3
    simpa [Flat.adv, Flat.here] using this
  refine ⟨h5.symm.trans (by rw [e4]; exact h5'), congrArg (fun y => y.1.2) e3, ?_⟩
  obtain ⟨tl, ht⟩ := h.bytes
  obtain ⟨tl', ht'⟩ := h'.bytes
  exact (List.append_inj (ht.trans ht'.symm) e5).1

/-! ## Many records -/

/-- At the address `k` the bytes start with these records. -/
def HeldAll (o : Order) (cfg : ParseConfig) : Nat → List (KRecord × Dropped × List Byte) → List Byte → Prop
  | _, [], _ => True
  | k, (r, d, extra) :: rs, bs => r.HeldFrom o cfg k d extra bs ∧
      HeldAll o cfg (k + (r.encHeld o cfg d extra).length) rs (bs.drop (r.encHeld o cfg d extra).length)

/-- **C96** Any number of calls: they return these values if and only if the input starts with that many records that are taken, with
these contents. The address of each is that behind the one before. -/
theorem c96_calls (xs : List (Record List × Metadata)) (hF : OneBuf F) (hp : At F p f) {k : Nat} (hk : f.s.al = .at k) (hs : Src f.cfg o) :
    (visitMany pairVisitor xs.length p).1.map seenAs = xs.map .ok ↔
    ∃ rs, HeldAll o f.cfg k rs f.s.bytes ∧ xs = rs.map fun x => (x.1.body.valueHeld f.cfg x.1.misc, x.1.metadata f.cfg) := by
  induction xs generalizing p f k with
  | nil =>
    constructor
    · exact fun _ => ⟨[], trivial, rfl⟩
    · exact fun _ => rfl
  | cons x xs ih =>
    have hv : (visitMany pairVisitor (x :: xs).length p).1.map seenAs =
        seenAs (P.record pairVisitor p).res :: (visitMany pairVisitor xs.length (P.record pairVisitor p).st).1.map seenAs := rfl
    rw [hv, List.map_cons, List.cons.injEq]
    have hst : ∀ (r : KRecord) (d : Dropped) (extra : List Byte), r.HeldFrom o f.cfg k d extra f.s.bytes →
        At F (P.record pairVisitor p).st (f.adv (r.encHeld o f.cfg d extra).length) := by
      intro r d extra h
      obtain ⟨a, ha, hv⟩ := Contig.record_held hp.rep.wf hk hp.fin hs h
      obtain ⟨b, h4, _⟩ := pairVisitor_held ha
      refine (c70_one_piece hF pairVisitor hp).2 (b, r.metadata f.cfg) _ ?_
      rw [hv pairVisitor, h4]
      rfl
    constructor
    · rintro ⟨h1, h2⟩
      obtain ⟨a, ha⟩ : ∃ a, (P.record pairVisitor p).res = .ok (a, x.2) ∧ a.view = x.1 := by
        rcases hres : (P.record pairVisitor p).res with e | ⟨a, md⟩
        · rw [hres] at h1; cases h1
        · rw [hres] at h1
          have h1 := Except.ok.inj h1
          subst h1
          exact ⟨a, rfl, rfl⟩
      obtain ⟨r, d, extra, h, h3, h4⟩ := (c96_exact hF hp hk hs _ _).1 ⟨a, ha⟩
      obtain ⟨rs, h5, h6⟩ := (ih (hst r d extra h) (Flat.adv_at hk _) hs).1 h2
      refine ⟨(r, d, extra) :: rs, ⟨h, by rwa [Flat.adv_bytes] at h5⟩, ?_⟩
      rw [List.map_cons, h6, ← h3, ← h4]
      rfl
    · rintro ⟨rs, h1, h2⟩
      rcases rs with _ | ⟨⟨r, d, extra⟩, rs⟩
      · cases h2
      obtain ⟨h, h5⟩ := h1
      rw [List.map_cons, List.cons.injEq] at h2
      obtain ⟨rfl, h6⟩ := h2
      refine ⟨?_, (ih (hst r d extra h) (Flat.adv_at hk _) hs).2 ⟨rs, by rw [Flat.adv_bytes]; exact h5, h6⟩⟩
      obtain ⟨a, ha, hx⟩ := (c96_exact hF hp hk hs _ _).2 ⟨r, d, extra, h, rfl, rfl⟩
      rw [ha]
      unfold seenAs
      rw [← hx]
      rfl

/-- **C96** For a slice at any address. -/
theorem c96_slice (a : Nat) (bs : List Byte) (hw : cfg.Wf) (hs : Src cfg o) (xs : List (Record List × Metadata)) :
    (visitMany pairVisitor xs.length (Parser.new (⟨a, bs⟩ : Slice) cfg)).1.map seenAs = xs.map .ok ↔
    ∃ rs, HeldAll o cfg a rs bs ∧ xs = rs.map fun x => (x.1.body.valueHeld cfg x.1.misc, x.1.metadata cfg) :=
  c96_calls xs OneBuf.slice (At.slice a bs hw) rfl hs

/-! ## Where this is the layout for readers, and where it is not -/

theorem dropLen_zero {native : Bool} {a n : Nat} (h : native = false ∨ a % 8 = 0) : dropLen native a n = 0 := by
  unfold dropLen
  rw [if_neg]
  rintro ⟨h1, h2⟩
  rcases h with h | h
  · rw [h1] at h; cases h
  · exact h2 h

/-- Nothing can be dropped in front of this body: its bytes are in the other order, or its lists are at multiples of 8. -/
def KBody.Even (cfg : ParseConfig) (a : Nat) (b : KBody) : Prop := cfg.endian.isNative = false ∨
  (a % 8 = 0 ∧ ∀ s, b = .sample s → cfg.sampleType.getLsbD 13 = true → cfg.sampleType.getLsbD 18 = true → s.stack.length % 8 = 0)

/-- **C96** Where nothing can be dropped, exactly that is taken which is taken from a reader, and apart from TEXT_POKE it means the same. -/
theorem c96_even {b : KBody} {misc : U16} {a : Nat} {d : Dropped} {extra : List Byte} (he : b.Even cfg a) :
    (b.Held o cfg misc a d extra → b.Taken o cfg misc extra ∧ b.encHeld o cfg d = b.encTaken o cfg) ∧
    (b.Taken o cfg misc extra → b.Held o cfg misc a {} extra ∧ b.encHeld o cfg {} = b.encTaken o cfg) ∧
    ((∀ addr old new pad, b ≠ .textPoke addr old new pad) → b.valueHeld cfg misc = b.valueTaken cfg misc) := by
  cases b with
  | sample s =>
    have h1 : ∀ n, dropLen cfg.endian.isNative a n = 0 := fun n => dropLen_zero (he.imp id fun h => h.1)
    have h2 : cfg.sampleType.getLsbD 18 = true → ∀ n,
        dropLen cfg.endian.isNative (a + if cfg.sampleType.getLsbD 13 then s.stack.length else 0) n = 0 := by
      intro h18 n
      apply dropLen_zero
      rcases he with he | ⟨he, hst⟩
      · exact .inl he
      · refine .inr ?_
        split
        · rename_i h13
          have := hst s rfl h13 h18
          omega
        · exact he
    have hparts : ∀ d : Dropped, (cfg.sampleType.getLsbD 4 = true → cfg.readFormat.getLsbD 3 = true → d.values = []) →
        (cfg.sampleType.getLsbD 5 = true → d.callchain = []) → (cfg.sampleType.getLsbD 11 = true → d.lbr = []) →
        (cfg.sampleType.getLsbD 12 = true → d.regsUser = []) → (cfg.sampleType.getLsbD 18 = true → d.regsIntr = []) →
        s.partsHeld o cfg.sampleType cfg.readFormat cfg.branchHwIndex d = s.partsTaken o cfg.sampleType cfg.readFormat cfg.branchHwIndex := by
      intro d d4 d5 d11 d12 d18
      unfold KSample.partsHeld KSample.partsTaken
      have ho : ∀ (c : Bool) (x y : List Byte), (c = true → x = y) → opt c x = opt c y := by
        intro c x y h
        cases c
        · rfl
        · rw [h rfl]
      rw [ho (cfg.sampleType.getLsbD 4) _ (s.encValues o cfg.readFormat) ?_, ho (cfg.sampleType.getLsbD 5) _ (s.encCallchain o) ?_,
        ho (cfg.sampleType.getLsbD 11) _ (s.encLbr o cfg.branchHwIndex) ?_, ho (cfg.sampleType.getLsbD 12) (s.regsUser.encHeld o d.regsUser) (s.regsUser.encTaken o) ?_,
        ho (cfg.sampleType.getLsbD 18) (s.regsIntr.encHeld o d.regsIntr) (s.regsIntr.encTaken o) ?_]
      · intro h; simp only [KRegs.encHeld, KRegs.encTaken, d18 h, List.append_nil]
      · intro h; simp only [KRegs.encHeld, KRegs.encTaken, d12 h, List.append_nil]
      · intro h; simp only [KSample.encLbr, d11 h, List.append_nil]
      · intro h; simp only [KSample.encCallchain, d5 h, List.append_nil]
      · intro h
        unfold KSample.encValues
        by_cases h3 : cfg.readFormat.getLsbD 3 = true
        · simp only [h3, if_true, KGroup.encHeld, KGroup.enc, d4 h h3, List.append_nil]
        · rw [if_neg h3, if_neg h3]
    have hafter : ∀ d i, s.partsHeld o cfg.sampleType cfg.readFormat cfg.branchHwIndex d = s.partsTaken o cfg.sampleType cfg.readFormat cfg.branchHwIndex →
        s.afterHeld o cfg.sampleType cfg.readFormat cfg.branchHwIndex d i = s.afterTaken o cfg.sampleType cfg.readFormat cfg.branchHwIndex i := by
      intro d i h
      unfold KSample.afterHeld KSample.afterTaken
      rw [h]
    refine ⟨fun h => ?_, fun h => ?_, fun _ => rfl⟩
    · have h : s.Held _ _ _ _ _ _ _ _ _ _ := h
      have hp := hparts d (fun i j => List.length_eq_zero_iff.1 ((h.dropValues i j).trans (h1 _)))
        (fun i => List.length_eq_zero_iff.1 ((h.dropCallchain i).trans (h1 _))) (fun i => List.length_eq_zero_iff.1 ((h.dropLbr i).trans (h1 _)))
        (fun i => List.length_eq_zero_iff.1 ((h.dropRegsUser i).trans (h1 _))) (fun i => List.length_eq_zero_iff.1 ((h.dropRegsIntr i).trans (h2 i _)))
      have ha := fun i => hafter d i hp
      refine ⟨?_, ?_⟩
      · obtain ⟨k1, k2, k3, k4, k5, -, -, -, -, -, k6, k7, k8, k9, k10, k11, k12⟩ := h
        simp only [ha] at k6 k7 k8 k9 k10 k11
        exact ⟨k1, k2, k3, k4, k5, k6, k7, k8, k9, k10, k11, k12⟩
      · show (KSample.partsHeld _ _ _ _ _ _).flatten = (KSample.partsTaken _ _ _ _ _).flatten
        rw [hp]
    · have h : s.Taken _ _ _ _ _ _ _ _ := h
      have hp := hparts {} (fun _ _ => rfl) (fun _ => rfl) (fun _ => rfl) (fun _ => rfl) fun _ => rfl
      have ha := fun i => hafter {} i hp
      refine ⟨?_, ?_⟩
      · obtain ⟨k1, k2, k3, k4, k5, k6, k7, k8, k9, k10, k11, k12⟩ := h
        simp only [← ha] at k6 k7 k8 k9 k10 k11
        exact ⟨k1, k2, k3, k4, k5, fun _ _ => (h1 _).symm, fun _ => (h1 _).symm, fun _ => (h1 _).symm, fun _ => (h1 _).symm, fun i => (h2 i _).symm,
          k6, k7, k8, k9, k10, k11, k12⟩
      · show (KSample.partsHeld _ _ _ _ _ _).flatten = (KSample.partsTaken _ _ _ _ _).flatten
        rw [hp]
  | namespaces pid tid es =>
    have h1 : ∀ n, dropLen cfg.endian.isNative a n = 0 := fun n => dropLen_zero (he.imp id fun h => h.1)
    refine ⟨?_, ?_, fun _ => rfl⟩
    · rintro ⟨h2, h3⟩
      have hd : d.entries = [] := List.length_eq_zero_iff.1 (h2.trans (h1 _))
      refine ⟨h3, ?_⟩
      simp only [KBody.encHeld, KBody.encTaken, KBody.enc, hd, List.append_nil]
    · intro h
      refine ⟨⟨(h1 _).symm, h⟩, ?_⟩
      simp only [KBody.encHeld, KBody.encTaken, KBody.enc, List.append_nil]
  | textPoke addr old new pad => exact ⟨fun h => ⟨h, rfl⟩, fun h => ⟨h, rfl⟩, fun h => absurd rfl (h addr old new pad)⟩
  | _ => exact ⟨fun h => ⟨h, rfl⟩, fun h => ⟨h, rfl⟩, fun _ => rfl⟩

/-- **C96** There, apart from weights and registers of a sample, what is taken for a body has the kernel's layout and the kernel's meaning:
borrowed, a TEXT_POKE is right (compare `c95_kernel`). -/
theorem c96_kernel {b : KBody} {misc : U16} {a : Nat} {d : Dropped} {extra : List Byte} (he : b.Even cfg a) (h : b.Held o cfg misc a d extra)
    (h1 : ∀ s, b = .sample s → cfg.sampleType.getLsbD 24 = false ∧
      (cfg.sampleType.getLsbD 12 = true → s.regsUser.abi ≠ 0#64 ∨ s.regsUser.values = []) ∧
      (cfg.sampleType.getLsbD 18 = true → s.regsIntr.abi ≠ 0#64 ∨ s.regsIntr.values = [])) :
    b.encHeld o cfg d = b.enc o cfg ∧ b.valueHeld cfg misc = b.value cfg misc := by
  cases b with
  | textPoke addr old new pad => exact ⟨rfl, rfl⟩
  | sample s =>
    obtain ⟨k1, k2⟩ := c95_kernel (o := o) (misc := misc) h1 (by rintro _ _ _ _ h; cases h)
    exact ⟨((c96_even he).1 h).2.trans k1, ((c96_even (o := o) (d := d) (extra := extra) he).2.2 (by rintro _ _ _ _ h; cases h)).trans k2⟩
  | namespaces pid tid es => exact ⟨((c96_even he).1 h).2, rfl⟩
  | _ => exact ⟨rfl, rfl⟩

/-! ## Examples -/

/-- A sample with a call chain of one frame, at an odd address, in the host's byte order; then a TEXT_POKE that only has new code. -/
def demoHeldCfg : ParseConfig := partsCfg 0 0x20 false false 0 0
def demoHeldSample : KRecord := ⟨0, .sample { demoSampleBody with callchain := [7] }, ⟨0, 0, 0, 0, 0, 0, 0, 0⟩⟩
def demoHeldPoke : KRecord := ⟨0, .textPoke 5 [] [1, 2, 3] [0], ⟨0, 0, 0, 0, 0, 0, 0, 0⟩⟩
/-- What the code skips: the frame the kernel wrote. -/
def demoHeldDropped : Dropped := { callchain := [1, 2, 3, 4, 5, 6, 7, 8] }
def demoHeldBytes : List Byte :=
  demoHeldSample.encHeld .little demoHeldCfg demoHeldDropped [] ++ (demoHeldPoke.encHeld .little demoHeldCfg {} [9, 9] ++ [1])

/-- Both are taken. -/
theorem demoHeld : HeldAll .little demoHeldCfg 1 [(demoHeldSample, demoHeldDropped, []), (demoHeldPoke, {}, [9, 9])] demoHeldBytes := by
  refine ⟨⟨?_, by decide +kernel, fun h => (by cases h), ⟨_, rfl⟩⟩, ⟨⟨?_, ?_, ?_, ?_⟩, by decide +kernel, fun h => (by cases h), ?_⟩, trivial⟩
  · constructor <;> first | (intro h; revert h; decide +kernel) | decide +kernel
  · decide
  · decide
  · decide
  · decide
  · unfold demoHeldBytes
    rw [List.drop_left]
    exact ⟨_, rfl⟩

/-- And so the code takes what follows the frame for the frame (B2), and reads the TEXT_POKE right, which it does not do with a copy (B7). -/
example : (visitMany pairVisitor 2 (Parser.new (⟨1, demoHeldBytes⟩ : Slice) demoHeldCfg)).1.map seenAs =
      [.ok (demoHeldSample.body.valueHeld demoHeldCfg 0, demoHeldSample.metadata demoHeldCfg),
       .ok (.textPoke ⟨5, [], [1, 2, 3]⟩, demoHeldPoke.metadata demoHeldCfg)] :=
  (c96_slice (cfg := demoHeldCfg) 1 demoHeldBytes demoCfg_wf (Src.little _ _) [(demoHeldSample.body.valueHeld demoHeldCfg 0, demoHeldSample.metadata demoHeldCfg),
    (.textPoke ⟨5, [], [1, 2, 3]⟩, demoHeldPoke.metadata demoHeldCfg)]).2 ⟨_, demoHeld, rfl⟩

/-- The first one as it comes out of the model, and the same bytes at a multiple of 8. -/
theorem c96_example :
    (match (P.record pairVisitor (Parser.new (⟨1, demoHeldBytes⟩ : Slice) demoHeldCfg)).res with
    | .ok (.sample s, _) => s.view.callchain == some [7]
    | _ => false) = true ∧
    (match (P.record pairVisitor (Parser.new (⟨8, demoHeldBytes⟩ : Slice) demoHeldCfg)).res with
    | .ok (.sample s, _) => s.view.callchain == some [0x0807060504030201#64]
    | _ => false) = true := by decide +kernel

/-- Not taken at an odd address: a call chain of one frame with nothing behind it (B2). At a multiple of 8 it is. -/
example : (∀ (r : KRecord) (d : Dropped) (extra : List Byte),
      ¬ r.HeldFrom .little demoHeldCfg 3 d extra (demoHeldSample.encHeld .little demoHeldCfg {} [])) ∧
    demoHeldSample.HeldFrom .little demoHeldCfg 16 {} [] (demoHeldSample.encHeld .little demoHeldCfg {} []) := by
  constructor
  · intro r d extra h
    have h1 : (match (P.record pairVisitor (Parser.new (⟨3, demoHeldSample.encHeld .little demoHeldCfg {} []⟩ : Slice) demoHeldCfg)).res with
        | .ok _ => false
        | _ => true) = true := by decide +kernel
    obtain ⟨y, hy⟩ := (c96_accepts OneBuf.slice (At.slice (cfg := demoHeldCfg) 3 (demoHeldSample.encHeld .little demoHeldCfg {} []) demoCfg_wf) rfl
      (Src.little _ _)).2 ⟨r, d, extra, h⟩
    rw [hy] at h1
    cases h1
  · refine ⟨?_, by decide +kernel, fun h => (by cases h), ⟨[], List.append_nil _⟩⟩
    constructor <;> first | (intro h; revert h; decide +kernel) | decide +kernel

end Perf
