import Verif.Proof.Weave
import Verif.Proof.WExactBody
import Verif.Props.MemoryExact
/-!
# C97: in several pieces of memory, exactly these bytes are accepted

The crate as it is, with its defects, on input in any number of pieces, borrowed or not, at any addresses: a ring buffer that has wrapped around,
or any other user buffer that hands out its pieces one after the other. Spec/PieceLayout.lean writes down which bytes are taken for a record
and what is then reported; here it is shown that this is exactly what `parse_record` does, whatever the bytes, the pieces, the addresses, the
configuration and the visitor.
-/
namespace Perf
variable {β : Type} [ParseBuf β] [LawfulEof β] {F : List Chunk → β → Prop} {cs : List Chunk} {p : Parser β} {f : Flat} {o : Order} {cfg : ParseConfig}

/-- The input of the parser is in these pieces. -/
structure Lies (F : List Chunk → β → Prop) (cs : List Chunk) (p : Parser β) (f : Flat) : Prop where
  rep : RepP p f
  sewn : F cs p.data.buf
  bytes : f.s.bytes = cs.flatMap Chunk.data
  fin : f.s.fin = .eof

/-! ## The record, as the parser over pieces of memory reads it -/

/-- The contents, the metadata and the length of the record the input starts with. -/
def Woven.record (cs : List Chunk) (f : Flat) : Except Fault (Record List × Metadata × Nat) :=
  if f.s.bytes.length < 8 then .error (.err .eof)
  else match Spec.metadataWithHeader (headerAt f) (f.adv 8) with
    | .error (.err e) => .error (.err e)
    | .error .stuck => .error .panic
    | .ok ((r, md), _) => match (parseBody md.ty : Woven (bodyLie cs) (Record List)) (r.withMisc md.misc) with
      | .error e => .error e
      | .ok (x, _) => .ok (x, md, (headerAt f).size.toNat)

/-- What `parse_record` does, given what the parser over pieces of memory reads. -/
def Lies.Does (F : List Chunk → β → Prop) (cs : List Chunk) (p : Parser β) (f : Flat) : Except Fault (Record List × Metadata × Nat) → Prop
  | .error e => ∀ {O : Type} (v : Visitor Cow O), (P.record v p).res = .error e
  | .ok (x, md, n) => ∃ a : Record Cow, a.view = x ∧ ∀ {O : Type} (v : Visitor Cow O), (P.record v p).res = v.apply a md ∧
      Lies F (dropPieces cs n) (P.record v p).st (f.adv n)

theorem Lies.adv (hp : Lies F cs p f) {n : Nat} {q : Parser β} (hq : RepP q (f.adv n)) (hs : SewnP F cs f.off q) :
    Lies F (dropPieces cs n) q (f.adv n) where
  rep := hq
  sewn := by
    have h1 := hs.2
    rw [hq.off, show (f.adv n).off - f.off = n from Nat.add_sub_cancel_left ..] at h1
    exact h1
  bytes := by rw [Flat.adv_bytes, hp.bytes, ← chunksData_flatMap, ← chunksData_flatMap, dropPieces_data]
  fin := hp.fin

theorem Lies.record (h : SewnBuf F) (hp : Lies F cs p f) : Lies.Does F cs p f (Woven.record cs f) := by
  unfold Woven.record
  by_cases h8 : f.s.bytes.length < 8
  · rw [if_pos h8]
    intro O v
    have h1 := P.header_short hp.rep h8
    unfold P.record
    rw [P.bind_err h1, hp.fin]
  rw [if_neg h8]
  obtain ⟨q, hq, hrep, -⟩ := P.header_run hp.rep (by omega)
  have hst := h.stable cs f.off
  have hs0 : SewnP F cs f.off p := by
    refine ⟨Nat.le_of_eq hp.rep.off.symm, ?_⟩
    rw [hp.rep.off, Nat.sub_self, dropPieces_zero (h.nonempty _ _ hp.sewn)]
    exact hp.sewn
  have hsq : SewnP F cs f.off q := by
    have hhd : Inv (SewnP F cs f.off) (fun _ => True) (parseHeader : P β Header) :=
      Inv.skip (Inv.u32 hst) fun _ => Inv.skip (Inv.u16 hst) fun _ => Inv.skip (Inv.u16 hst) fun _ => Inv.pure trivial
    have := (hhd p hs0).1
    rw [hq] at this
    exact this
  have hrun : ∀ {O : Type} (v : Visitor Cow O), (P.record v p).res = (P.recordWithHeader v (headerAt f) q).res ∧
      (P.record v p).st = (P.recordWithHeader v (headerAt f) q).st := by
    intro O v
    unfold P.record
    rw [P.bind_nil hq]
    exact ⟨rfl, rfl⟩
  obtain ⟨h1, -, h3⟩ := P.metadataWithHeader_run hrep (headerAt f)
  rcases hm : Spec.metadataWithHeader (headerAt f) (f.adv 8) with (e | _) | ⟨⟨r, md⟩, g⟩ <;> rw [hm] at h3
  · intro O v
    rw [(hrun v).1]
    unfold P.recordWithHeader
    rw [P.bind_err (P.run_eq _ h3)]
  · exact h3.elim
  · obtain ⟨c, hc, hreg⟩ := h3
    dsimp only
    obtain ⟨a1, a2, rfl, n, rfl⟩ := Meets.metadata_region hm
    have hq8 := (hp.adv hrep hsq).sewn
    have hfrom := h.region hq8 hc
    have hsewn : Cursor.Sewn c.data.buf.chunks c.data.buf := by
      have h7 := hfrom.offset
      have h8 := hfrom.nonempty
      rcases hb : c.data.buf with ⟨chunks, off, len⟩
      rw [hb] at h7 h8
      cases h7
      exact .fresh h8
    have hat : SewnAt (β := Tracking Cursor) (fun cs t => Cursor.Sewn cs t.buf) c.data.buf.chunks (Parser.new c.data (c.config.withMisc md.misc))
        (((f.adv 8).region n).withMisc md.misc) := by
      refine ⟨hreg.rep.withMisc rfl md.misc, ⟨Nat.le_refl _, ?_⟩, ?_, rfl⟩
      · show Cursor.Sewn (dropPieces c.data.buf.chunks 0) c.data.buf
        rw [dropPieces_zero hfrom.nonempty]
        exact hsewn
      · exact hreg.pieces.data.symm
    have htells : Tells (bodyLie cs) c.data.buf.chunks := by
      intro i n hi hn
      rw [hfrom.lie i n hi hn]
      exact (lie_drop cs 8 i n).symm
    have hbody := Weaves.body SewnBuf.cursor.tracking htells md.ty _ _ hat
    have hinv : SewnP F cs f.off (P.metadataWithHeader (headerAt f) q).st :=
      (Inv.regionOf (G := fun _ => True) (I := SewnP F cs f.off) (fun n p hp => ⟨(Inv.splitAt hst n p hp).1, fun _ _ => trivial⟩) (fun _ _ _ _ _ => trivial)
        (headerAt f) q hsq).1
    have hend : ∀ {O : Type} (v : Visitor Cow O), Lies F (dropPieces cs (headerAt f).size.toNat) (P.record v p).st (f.adv (headerAt f).size.toNat) := by
      intro O v
      rw [(hrun v).2, (c03_fast_path v _ q).2]
      unfold P.recordWithHeaderGeneral
      rw [P.bind_ok (P.run_eq _ hc)]
      show Lies F _ (P.recordImpl c v md _).st _
      rw [P.recordImpl_st]
      have h9 := (h1 a1 a2).1
      rw [Flat.adv_adv, show 8 + ((headerAt f).size.toNat - 8) = (headerAt f).size.toNat by omega] at h9
      exact hp.adv h9 hinv
    have hres : ∀ {O : Type} (v : Visitor Cow O), (P.record v p).res =
        (P.dispatch v md (Parser.new c.data (c.config.withMisc md.misc))).res := by
      intro O v
      rw [(hrun v).1, (c03_fast_path v _ q).1]
      unfold P.recordWithHeaderGeneral
      rw [P.bind_ok (P.run_eq _ hc)]
      show (P.recordImpl c v md _).res = _
      unfold P.recordImpl
      rcases hdd : P.dispatch v md (Parser.new c.data (c.config.withMisc md.misc)) with ⟨res, q', l⟩
      cases res with
      | error e => rw [P.bind_err (P.onChild_err hdd _)]
      | ok a => rw [P.bind_ok (P.onChild_ok hdd _)]; rfl
    rcases hb : (parseBody md.ty : Woven (bodyLie cs) (Record List)) (((f.adv 8).region n).withMisc md.misc) with e | ⟨x, g⟩ <;> rw [hb] at hbody
    · intro O v
      rw [hres v, P.dispatch_eq, P.bind_err (P.run_eq _ hbody)]
    · obtain ⟨a, ha, hx, -⟩ := hbody
      refine ⟨a, hx, fun v => ⟨?_, hend v⟩⟩
      rw [hres v, P.dispatch_eq, P.bind_ok (P.run_eq _ ha)]
      rfl

/-! ## The layout -/

theorem KBody.strewn_withMisc (b : KBody) (m m' : U16) {w : Nat → Nat → Option Nat} {d : Dropped} {extra : List Byte} :
    b.Strewn o (cfg.withMisc m) m' w d extra ↔ b.Strewn o cfg m' w d extra := by
  cases b <;> simp only [KBody.Strewn, KBody.Taken, ParseConfig.withMisc_readFormat, ParseConfig.withMisc_sampleType,
    ParseConfig.withMisc_branchHwIndex, withMisc_regsUser, withMisc_regsIntr, withMisc_endian]

theorem KBody.valueTaken_withMisc (b : KBody) (m m' : U16) : b.valueTaken (cfg.withMisc m) m' = b.valueTaken cfg m' := by
  cases b <;> simp only [KBody.valueTaken, KBody.value, ParseConfig.withMisc_readFormat, ParseConfig.withMisc_sampleType,
    ParseConfig.withMisc_branchHwIndex, withMisc_regsUser, withMisc_regsIntr]

/-- A record that is taken is read. -/
theorem Woven.record_strewn (hw : f.cfg.Wf) (hcs : f.s.bytes = cs.flatMap Chunk.data) (hs : Src f.cfg o) {r : KRecord} {d : Dropped}
    {extra : List Byte} (h : r.StrewnFrom o f.cfg cs d extra) :
    Woven.record cs f = .ok (r.body.valueStrewn f.cfg r.misc (bodyLie cs), r.metadata f.cfg, (r.encHeld o f.cfg d extra).length) := by
  obtain ⟨hT, hsmall, hend, tl, hb⟩ := h
  rw [← hcs] at hb
  -- the same bytes as an unknown record, for the sake of the frame
  let r' : KRecord := ⟨r.misc, .other r.body.type (r.body.encHeld o f.cfg d ++ extra), r.trailer⟩
  have htr : r'.encTrailer o f.cfg = r.encTrailer o f.cfg := rfl
  have hsz : r'.size o f.cfg = r.sizeHeld o f.cfg d + extra.length := by
    unfold KRecord.size KRecord.sizeHeld
    rw [htr]
    show 8 + (r.body.encHeld o f.cfg d ++ extra).length + _ = _
    rw [List.length_append]
    omega
  have hb' : f.s.bytes = r'.enc o f.cfg ++ tl := by
    rw [← hb]
    unfold KRecord.encHeld KRecord.enc
    rw [hsz, htr]
    show _ = e32 o r.body.type ++ e16 o r.misc ++ _ ++ (r.body.encHeld o f.cfg d ++ extra) ++ _ ++ _
    simp only [List.append_assoc]
  have hh := headerAt_enc hs r' hb'
  have hl8 : 8 ≤ f.s.bytes.length := by
    rw [hb', List.length_append, KRecord.enc_length]
    unfold KRecord.size
    omega
  have hb8 : (f.adv 8).s.bytes = r'.body.enc o f.cfg ++ r'.encTrailer o f.cfg ++ tl := by
    rw [Flat.adv_bytes, hb']
    unfold KRecord.enc
    have : 8 = (e32 o r'.body.type ++ e16 o r'.misc ++ e16 o (BitVec.ofNat 16 (r'.size o f.cfg))).length := by simp
    generalize e32 o r'.body.type ++ e16 o r'.misc ++ e16 o (BitVec.ofNat 16 (r'.size o f.cfg)) = X at this ⊢
    rw [this, List.append_assoc, List.append_assoc, List.drop_left, List.append_assoc]
  obtain ⟨f', hm⟩ := metadata_enc (f := f.adv 8) (o := o) hs r' (by rw [show (f.adv 8).cfg = f.cfg from rfl, hsz]; exact hsmall) hb8
  rw [show (f.adv 8).cfg = f.cfg from rfl] at hm
  have hmd : r'.metadata f.cfg = r.metadata f.cfg := rfl
  have hreg : ((f.adv 8).region (r'.body.enc o f.cfg).length).s.bytes = r.body.encHeld o f.cfg d ++ extra := by
    show (f.adv 8).s.bytes.take _ = _
    rw [hb8, List.append_assoc, List.take_left]
    rfl
  have hbody : (parseBody r.body.type : Woven (bodyLie cs) (Record List)) (((f.adv 8).region (r'.body.enc o f.cfg).length).withMisc r.misc) =
      .ok (r.body.valueStrewn f.cfg r.misc (bodyLie cs),
        (((f.adv 8).region (r'.body.enc o f.cfg).length).withMisc r.misc).adv (r.body.encHeld o f.cfg d).length) := by
    refine (WEnc.body (w := bodyLie cs) (hs.withMisc r.misc) (hw.withMisc r.misc) r.body.type
      (((f.adv 8).region (r'.body.enc o f.cfg).length).withMisc r.misc) rfl ?_ _ _).2 ⟨(r.body, d, r.body.whole (bodyLie cs)), extra, ?_, ?_, ?_, ?_, rfl, ?_, hend⟩
    · show ((f.adv 8).region (r'.body.enc o f.cfg).length).s.bytes.length < _
      rw [hreg, List.length_append]
      unfold KRecord.sizeHeld at hsmall
      omega
    · dsimp only; rw [KBody.encHeld_withMisc]; exact hreg
    · dsimp only; rw [KBody.encHeld_withMisc]
    · dsimp only; rw [ParseConfig.withMisc_misc, KBody.valueHeld_withMisc, KBody.valueTaken_withMisc]; rfl
    · show _ = r.body.whole (fun i n => bodyLie cs (0 + i) n)
      simp only [Nat.zero_add]
    · show r.body.Strewn o _ _ (fun i n => bodyLie cs (0 + i) n) _ _
      rw [ParseConfig.withMisc_misc, KBody.strewn_withMisc]
      simp only [Nat.zero_add]
      exact hT
  unfold Woven.record
  rw [if_neg (by omega), hh, hm, hmd]
  show (match (parseBody r.body.type : Woven (bodyLie cs) (Record List)) (((f.adv 8).region (r'.body.enc o f.cfg).length).withMisc r.misc) with
    | .error e => .error e
    | .ok (x, _) => .ok (x, r.metadata f.cfg, (BitVec.ofNat 16 (r'.size o f.cfg)).toNat) : Except Fault _) = _
  rw [hbody, toNat_ofNat_lt (by rw [hsz]; exact hsmall), hsz, KRecord.encHeld_length]

/-- Where no record is taken there is an error. -/
theorem Woven.record_refused (hw : f.cfg.Wf) (hcs : f.s.bytes = cs.flatMap Chunk.data) (hs : Src f.cfg o)
    (h : ∀ (r : KRecord) (d : Dropped) (extra : List Byte), ¬ r.StrewnFrom o f.cfg cs d extra) : ∃ e, Woven.record cs f = .error e := by
  unfold Woven.record
  by_cases h8 : f.s.bytes.length < 8
  · exact ⟨_, if_pos h8⟩
  simp only [if_neg h8]
  rcases hm : Spec.metadataWithHeader (headerAt f) (f.adv 8) with (e | _) | ⟨⟨reg, md⟩, g⟩
  · exact ⟨_, rfl⟩
  · exact ⟨_, rfl⟩
  obtain ⟨len, t, rfl, rfl, m1, m2, m3, m4⟩ := Spec.metadata_inv (f := f.adv 8) (o := o) hs hm
  have hty : md.ty = (headerAt f).type_ ∧ md.misc = (headerAt f).misc := by
    rw [(m4 (.other (headerAt f).type_ []) rfl).1]
    exact ⟨rfl, rfl⟩
  dsimp only
  rcases hb : (parseBody md.ty : Woven (bodyLie cs) (Record List)) (((f.adv 8).region len).withMisc md.misc) with e | ⟨a, g'⟩
  · exact ⟨e, rfl⟩
  exfalso
  rw [hty.1, hty.2] at hb
  have hlt := (headerAt f).size_lt
  obtain ⟨⟨b, d, bw⟩, tl, e1, e2, e3, e0, e4, e5, e6⟩ := (WEnc.body (w := bodyLie cs) (hs.withMisc (headerAt f).misc) (hw.withMisc (headerAt f).misc) (headerAt f).type_
    (((f.adv 8).region len).withMisc (headerAt f).misc) rfl (by
    show ((f.adv 8).s.bytes.take len).length < _
    rw [List.length_take]
    omega) _ _).1 hb
  dsimp only at e1 e4 e5 e6
  obtain ⟨-, m5⟩ := m4 b e4
  rw [show (f.adv 8).cfg = f.cfg from rfl] at m5
  have e5 : b.Strewn o (f.cfg.withMisc (headerAt f).misc) (f.cfg.withMisc (headerAt f).misc).misc (fun i n => bodyLie cs (0 + i) n) d tl := e5
  rw [ParseConfig.withMisc_misc, KBody.strewn_withMisc] at e5
  simp only [Nat.zero_add] at e5
  rw [KBody.encHeld_withMisc] at e1
  have e1 : (f.adv 8).s.bytes.take len = b.encHeld o f.cfg d ++ tl := e1
  have hbytes : (f.adv 8).s.bytes = b.encHeld o f.cfg d ++ tl ++ (KRecord.mk (headerAt f).misc b t).encTrailer o f.cfg ++
      (f.adv 8).s.bytes.drop ((headerAt f).size.toNat - 8) := by
    have h1 : (f.adv 8).s.bytes.take len = ((f.adv 8).s.bytes.take ((headerAt f).size.toNat - 8)).take len := by
      rw [List.take_take, Nat.min_eq_left m2]
    rw [← e1, ← m5, h1, List.take_append_drop, List.take_append_drop]
  have hsize : (headerAt f).size.toNat = (KRecord.mk (headerAt f).misc b t).sizeHeld o f.cfg d + tl.length := by
    have h1 := congrArg List.length hbytes
    simp only [List.length_append, List.length_drop] at h1
    unfold KRecord.sizeHeld
    show _ = 8 + (b.encHeld o f.cfg d).length + _ + _
    omega
  refine h ⟨(headerAt f).misc, b, t⟩ d tl ⟨e5, by omega, e6, (f.adv 8).s.bytes.drop ((headerAt f).size.toNat - 8), ?_⟩
  have hlay := header_layout hs (by omega : 8 ≤ f.s.bytes.length)
  rw [← hcs, hlay]
  have h1 : BitVec.ofNat 16 ((KRecord.mk (headerAt f).misc b t).sizeHeld o f.cfg d + tl.length) = (headerAt f).size := by
    rw [← hsize]; simp
  unfold KRecord.encHeld
  rw [h1]
  show _ = _ ++ (f.adv 8).s.bytes
  generalize (f.adv 8).s.bytes.drop ((headerAt f).size.toNat - 8) = X at hbytes ⊢
  rw [hbytes]
  simp only [e4, List.append_assoc]

/-! ## The theorems -/

/-- **C97** For every input in any number of pieces: either it starts with a record that is taken, in which case every visitor is given its
contents and its metadata, and, whatever the visitor says, the parser then stands behind it, with the rest of the pieces ahead; or it does not,
and there is an error, which does not depend on the visitor. -/
theorem c97_visit (hF : SewnBuf F) (hp : Lies F cs p f) (hs : Src f.cfg o) :
    (∃ (r : KRecord) (d : Dropped) (extra : List Byte), r.StrewnFrom o f.cfg cs d extra ∧
      ∃ a : Record Cow, a.view = r.body.valueStrewn f.cfg r.misc (bodyLie cs) ∧ ∀ {O : Type} (v : Visitor Cow O),
        (P.record v p).res = v.apply a (r.metadata f.cfg) ∧
        Lies F (dropPieces cs (r.encHeld o f.cfg d extra).length) (P.record v p).st (f.adv (r.encHeld o f.cfg d extra).length)) ∨
    ((∀ (r : KRecord) (d : Dropped) (extra : List Byte), ¬ r.StrewnFrom o f.cfg cs d extra) ∧
      ∃ e, ∀ {O : Type} (v : Visitor Cow O), (P.record v p).res = .error e) := by
  have hd := hp.record hF
  by_cases h : ∃ (r : KRecord) (d : Dropped) (extra : List Byte), r.StrewnFrom o f.cfg cs d extra
  · obtain ⟨r, d, extra, h⟩ := h
    rw [Woven.record_strewn hp.rep.wf hp.bytes hs h] at hd
    obtain ⟨a, ha, hv⟩ := hd
    exact .inl ⟨r, d, extra, h, a, ha, hv⟩
  · have h : ∀ (r : KRecord) (d : Dropped) (extra : List Byte), ¬ r.StrewnFrom o f.cfg cs d extra := fun r d extra h' => h ⟨r, d, extra, h'⟩
    obtain ⟨e, he⟩ := Woven.record_refused hp.rep.wf hp.bytes hs h
    rw [he] at hd
    exact .inr ⟨h, e, hd⟩

theorem pairVisitor_strewn {r : KRecord} {w : Nat → Nat → Option Nat} {a : Record Cow} (ha : a.view = r.body.valueStrewn cfg r.misc w) :
    ∃ b : Record Cow, (pairVisitor : Visitor Cow _).apply a (r.metadata cfg) = .ok (b, r.metadata cfg) ∧ b.view = r.body.valueStrewn cfg r.misc w := by
  unfold KBody.valueStrewn at ha ⊢
  split at ha
  · rename_i h
    rw [if_pos h]
    exact pairVisitor_held ha
  · rename_i h
    rw [if_neg h]
    exact pairVisitor_taken ha

/-- A record that is taken is returned. -/
theorem Lies.returned (hF : SewnBuf F) (hp : Lies F cs p f) (hs : Src f.cfg o) {r : KRecord} {d : Dropped} {extra : List Byte}
    (h : r.StrewnFrom o f.cfg cs d extra) :
    (∃ a : Record Cow, (P.record pairVisitor p).res = .ok (a, r.metadata f.cfg) ∧ a.view = r.body.valueStrewn f.cfg r.misc (bodyLie cs)) ∧
    Lies F (dropPieces cs (r.encHeld o f.cfg d extra).length) (P.record pairVisitor p).st (f.adv (r.encHeld o f.cfg d extra).length) := by
  have hd := hp.record hF
  rw [Woven.record_strewn hp.rep.wf hp.bytes hs h] at hd
  obtain ⟨a, ha, hv⟩ := hd
  obtain ⟨h1, h2⟩ := hv pairVisitor
  obtain ⟨b, h3, h4⟩ := pairVisitor_strewn ha
  exact ⟨⟨b, h1.trans h3, h4⟩, h2⟩

/-- **C97** What `parse_record` returns, exactly: `(x, md)` if and only if the input starts with a record that is taken, whose contents are
`x` and whose metadata is `md`. -/
theorem c97_exact (hF : SewnBuf F) (hp : Lies F cs p f) (hs : Src f.cfg o) (x : Record List) (md : Metadata) :
    (∃ a : Record Cow, (P.record pairVisitor p).res = .ok (a, md) ∧ a.view = x) ↔
    ∃ (r : KRecord) (d : Dropped) (extra : List Byte), r.StrewnFrom o f.cfg cs d extra ∧ x = r.body.valueStrewn f.cfg r.misc (bodyLie cs) ∧
      md = r.metadata f.cfg := by
  constructor
  · rintro ⟨a, ha, rfl⟩
    rcases c97_visit hF hp hs with ⟨r, d, extra, h, _⟩ | ⟨_, e, he⟩
    · obtain ⟨⟨b, h1, h2⟩, _⟩ := hp.returned hF hs h
      rw [ha] at h1
      cases h1
      exact ⟨r, d, extra, h, h2, rfl⟩
    · rw [he] at ha
      cases ha
  · rintro ⟨r, d, extra, h, rfl, rfl⟩
    exact (hp.returned hF hs h).1

/-- **C97** A record is returned if and only if the input starts with one that is taken. -/
theorem c97_accepts (hF : SewnBuf F) (hp : Lies F cs p f) (hs : Src f.cfg o) :
    (∃ y, (P.record pairVisitor p).res = .ok y) ↔ ∃ (r : KRecord) (d : Dropped) (extra : List Byte), r.StrewnFrom o f.cfg cs d extra := by
  constructor
  · rintro ⟨⟨a, md⟩, h⟩
    obtain ⟨r, d, extra, h, _⟩ := (c97_exact hF hp hs a.view md).1 ⟨a, h, rfl⟩
    exact ⟨r, d, extra, h⟩
  · rintro ⟨r, d, extra, h⟩
    obtain ⟨a, h, _⟩ := (c97_exact hF hp hs _ _).2 ⟨r, d, extra, h, rfl, rfl⟩
    exact ⟨_, h⟩

/-- **C97** The layout the code expects of pieces is unambiguous: however their start is taken for a record, it is equally long and means the
same. -/
theorem c97_unambiguous (hw : cfg.Wf) (hs : Src cfg o) {extra extra' : List Byte} {d d' : Dropped} {r r' : KRecord}
    (h : r.StrewnFrom o cfg cs d extra) (h' : r'.StrewnFrom o cfg cs d' extra') :
    r.body.valueStrewn cfg r.misc (bodyLie cs) = r'.body.valueStrewn cfg r'.misc (bodyLie cs) ∧ r.metadata cfg = r'.metadata cfg ∧
      r.encHeld o cfg d extra = r'.encHeld o cfg d' extra' := by
  have e1 := Woven.record_strewn (f := .here 0 (cs.flatMap Chunk.data) cfg) hw rfl hs h
  have e2 := Woven.record_strewn (f := .here 0 (cs.flatMap Chunk.data) cfg) hw rfl hs h'
  rw [e1] at e2
  have e3 := Except.ok.inj e2
  refine ⟨congrArg (fun y => y.1) e3, congrArg (fun y => y.2.1) e3, ?_⟩
  obtain ⟨tl, ht⟩ := h.bytes
  obtain ⟨tl', ht'⟩ := h'.bytes
  exact (List.append_inj (ht.trans ht'.symm) (congrArg (fun y => y.2.2) e3)).1

/-! ## Many records -/

/-- The pieces start with these records, which have these contents. -/
def StrewnAll (o : Order) (cfg : ParseConfig) : List Chunk → List (KRecord × Dropped × List Byte) → List (Record List × Metadata) → Prop
  | _, [], xs => xs = []
  | cs, (r, d, extra) :: rs, xs => r.StrewnFrom o cfg cs d extra ∧ ∃ xs', xs = (r.body.valueStrewn cfg r.misc (bodyLie cs), r.metadata cfg) :: xs' ∧
      StrewnAll o cfg (dropPieces cs (r.encHeld o cfg d extra).length) rs xs'

/-- **C97** Any number of calls: they return these values if and only if the pieces start with that many records that are taken, with these
contents. The pieces for each are what the one before has left. -/
theorem c97_calls (xs : List (Record List × Metadata)) (hF : SewnBuf F) (hp : Lies F cs p f) (hs : Src f.cfg o) :
    (visitMany pairVisitor xs.length p).1.map seenAs = xs.map .ok ↔ ∃ rs, StrewnAll o f.cfg cs rs xs := by
  induction xs generalizing p f cs with
  | nil =>
    constructor
    · exact fun _ => ⟨[], rfl⟩
    · exact fun _ => rfl
  | cons x xs ih =>
    have hv : (visitMany pairVisitor (x :: xs).length p).1.map seenAs =
        seenAs (P.record pairVisitor p).res :: (visitMany pairVisitor xs.length (P.record pairVisitor p).st).1.map seenAs := rfl
    rw [hv, List.map_cons, List.cons.injEq]
    constructor
    · rintro ⟨h1, h2⟩
      obtain ⟨a, ha⟩ : ∃ a, (P.record pairVisitor p).res = .ok (a, x.2) ∧ a.view = x.1 := by
        rcases hres : (P.record pairVisitor p).res with e | ⟨a, md⟩
        · rw [hres] at h1; cases h1
        · rw [hres] at h1
          have h1 := Except.ok.inj h1
          subst h1
          exact ⟨a, rfl, rfl⟩
      obtain ⟨r, d, extra, h, h3, h4⟩ := (c97_exact hF hp hs _ _).1 ⟨a, ha⟩
      obtain ⟨rs, h5⟩ := (ih (hp.returned hF hs h).2 hs).1 h2
      exact ⟨(r, d, extra) :: rs, h, xs, by rw [← h3, ← h4], h5⟩
    · rintro ⟨rs, h1⟩
      rcases rs with _ | ⟨⟨r, d, extra⟩, rs⟩
      · cases h1
      obtain ⟨h, xs', h2, h5⟩ := h1
      cases h2
      obtain ⟨⟨a, ha, hx⟩, hst⟩ := hp.returned hF hs h
      refine ⟨?_, (ih hst hs).2 ⟨rs, h5⟩⟩
      rw [ha]
      unfold seenAs
      rw [← hx]
      rfl

/-! ## Buffers -/

theorem Lies.chunkBuf (ps : List Slice) (h : ∀ s ∈ ps, s.data ≠ []) (hw : cfg.Wf) :
    Lies (fun cs (b : ChunkBuf) => (∀ s ∈ b.pieces, s.data ≠ []) ∧ cs = b.chunks) (ChunkBuf.mk ps).chunks (Parser.new (⟨ps⟩ : ChunkBuf) cfg)
      ⟨⟨piecesData ps, .unknown, .eof⟩, 0, cfg⟩ where
  rep := RepP.pieces ps h hw
  sewn := ⟨h, rfl⟩
  bytes := by
    show ps.flatMap Slice.data = (ps.map _).flatMap _
    rw [List.flatMap_map]
  fin := rfl

theorem Lies.slice (a : Nat) (bs : List Byte) (hw : cfg.Wf) :
    Lies (fun cs (s : Slice) => cs = s.pieces) (Slice.pieces ⟨a, bs⟩) (Parser.new (⟨a, bs⟩ : Slice) cfg) (.here a bs cfg) where
  rep := RepP.slice a bs hw
  sewn := rfl
  bytes := by
    show bs = (if bs = [] then [] else _ : List Chunk).flatMap _
    split
    · assumption
    · simp
  fin := rfl

/-- **C97** For a ring buffer, or any other input in slices that are not empty, at any addresses. -/
theorem c97_pieces (ps : List Slice) (h : ∀ s ∈ ps, s.data ≠ []) (hw : cfg.Wf) (hs : Src cfg o) (xs : List (Record List × Metadata)) :
    (visitMany pairVisitor xs.length (Parser.new (⟨ps⟩ : ChunkBuf) cfg)).1.map seenAs = xs.map .ok ↔
    ∃ rs, StrewnAll o cfg (ps.map fun s => ⟨.external s.addr, s.data⟩) rs xs :=
  c97_calls xs SewnBuf.chunkBuf (Lies.chunkBuf ps h hw) hs

/-- **C97** Where the input is one slice this is the layout of C96. -/
theorem c97_slice (a : Nat) (bs : List Byte) (hne : bs ≠ []) (hw : cfg.Wf) (hs : Src cfg o) (x : Record List) (md : Metadata) :
    (∃ (r : KRecord) (d : Dropped) (extra : List Byte), r.StrewnFrom o cfg [⟨.external a, bs⟩] d extra ∧
      x = r.body.valueStrewn cfg r.misc (bodyLie [⟨.external a, bs⟩]) ∧ md = r.metadata cfg) ↔
    ∃ (r : KRecord) (d : Dropped) (extra : List Byte), r.HeldFrom o cfg a d extra bs ∧ x = r.body.valueHeld cfg r.misc ∧ md = r.metadata cfg := by
  have h1 := c97_exact SewnBuf.slice (Lies.slice (cfg := cfg) a bs hw) hs x md
  have h2 := c96_exact OneBuf.slice (At.slice (cfg := cfg) a bs hw) rfl hs x md
  have h3 : Slice.pieces ⟨a, bs⟩ = [⟨.external a, bs⟩] := if_neg hne
  rw [h3] at h1
  exact h1.symm.trans h2

/-! ## Where this is the layout for readers -/

/-- Where nothing is dropped the parts of a sample are those for readers. -/
theorem KSample.parts_eq {s : KSample} {st rf : U64} {hwIndex : Bool} {d : Dropped} (d4 : st.getLsbD 4 = true → rf.getLsbD 3 = true → d.values = [])
    (d5 : st.getLsbD 5 = true → d.callchain = []) (d11 : st.getLsbD 11 = true → d.lbr = []) (d12 : st.getLsbD 12 = true → d.regsUser = [])
    (d18 : st.getLsbD 18 = true → d.regsIntr = []) : s.partsHeld o st rf hwIndex d = s.partsTaken o st rf hwIndex := by
  unfold KSample.partsHeld KSample.partsTaken
  have ho : ∀ (c : Bool) (x y : List Byte), (c = true → x = y) → opt c x = opt c y := by
    intro c x y h
    cases c
    · rfl
    · rw [h rfl]
  rw [ho (st.getLsbD 4) _ (s.encValues o rf) ?_, ho (st.getLsbD 5) _ (s.encCallchain o) ?_,
    ho (st.getLsbD 11) _ (s.encLbr o hwIndex) ?_, ho (st.getLsbD 12) (s.regsUser.encHeld o d.regsUser) (s.regsUser.encTaken o) ?_,
    ho (st.getLsbD 18) (s.regsIntr.encHeld o d.regsIntr) (s.regsIntr.encTaken o) ?_]
  · intro h; simp only [KRegs.encHeld, KRegs.encTaken, d18 h, List.append_nil]
  · intro h; simp only [KRegs.encHeld, KRegs.encTaken, d12 h, List.append_nil]
  · intro h; simp only [KSample.encLbr, d11 h, List.append_nil]
  · intro h; simp only [KSample.encCallchain, d5 h, List.append_nil]
  · intro h
    unfold KSample.encValues
    by_cases h3 : rf.getLsbD 3 = true
    · simp only [h3, if_true, KGroup.encHeld, KGroup.enc, d4 h h3, List.append_nil]
    · rw [if_neg h3, if_neg h3]

theorem dropAt_zero {native : Bool} {w : Nat → Nat → Option Nat} (h : native = false ∨ ∀ i n, w i n = none) (i n : Nat) : dropAt native w i n = 0 := by
  unfold dropAt
  split
  · rename_i a ha
    rcases h with h | h
    · exact dropLen_zero (.inl h)
    · rw [h] at ha; cases ha
  · rfl

/-- **C97** Where the bytes are in the other order, or none are borrowed, exactly that is taken which is taken from a reader. Apart from
TEXT_POKE it means the same, and if none are borrowed so does TEXT_POKE. -/
theorem c97_copied {b : KBody} {misc : U16} {w : Nat → Nat → Option Nat} {d : Dropped} {extra : List Byte}
    (h : cfg.endian.isNative = false ∨ ∀ i n, w i n = none) :
    (b.Strewn o cfg misc w d extra → b.Taken o cfg misc extra ∧ b.encHeld o cfg d = b.encTaken o cfg) ∧
    (b.Taken o cfg misc extra → b.Strewn o cfg misc w {} extra ∧ b.encHeld o cfg {} = b.encTaken o cfg) ∧
    ((∀ i n, w i n = none) ∨ (∀ addr old new pad, b ≠ .textPoke addr old new pad) → b.valueStrewn cfg misc w = b.valueTaken cfg misc) := by
  have h1 := dropAt_zero h
  refine and_assoc.1 ⟨?_, ?_⟩
  · cases b with
    | sample s =>
      have hafter : ∀ d i, s.partsHeld o cfg.sampleType cfg.readFormat cfg.branchHwIndex d = s.partsTaken o cfg.sampleType cfg.readFormat cfg.branchHwIndex →
          s.afterHeld o cfg.sampleType cfg.readFormat cfg.branchHwIndex d i = s.afterTaken o cfg.sampleType cfg.readFormat cfg.branchHwIndex i := by
        intro d i h
        unfold KSample.afterHeld KSample.afterTaken
        rw [h]
      refine ⟨fun h => ?_, fun h => ?_⟩
      · have h : s.Strewn _ _ _ _ _ _ _ _ _ _ := h
        have hp := KSample.parts_eq (o := o) (s := s) (d := d) (st := cfg.sampleType) (rf := cfg.readFormat) (hwIndex := cfg.branchHwIndex)
          (fun i j => List.length_eq_zero_iff.1 ((h.dropValues i j).trans (h1 _ _)))
          (fun i => List.length_eq_zero_iff.1 ((h.dropCallchain i).trans (h1 _ _))) (fun i => List.length_eq_zero_iff.1 ((h.dropLbr i).trans (h1 _ _)))
          (fun i => List.length_eq_zero_iff.1 ((h.dropRegsUser i).trans (h1 _ _))) (fun i => List.length_eq_zero_iff.1 ((h.dropRegsIntr i).trans (h1 _ _)))
        have ha := fun i => hafter d i hp
        refine ⟨?_, ?_⟩
        · obtain ⟨k1, k2, k3, k4, k5, -, -, -, -, -, k6, k7, k8, k9, k10, k11, k12⟩ := h
          simp only [ha] at k6 k7 k8 k9 k10 k11
          exact ⟨k1, k2, k3, k4, k5, k6, k7, k8, k9, k10, k11, k12⟩
        · show (KSample.partsHeld _ _ _ _ _ _).flatten = (KSample.partsTaken _ _ _ _ _).flatten
          rw [hp]
      · have h : s.Taken _ _ _ _ _ _ _ _ := h
        have hp := KSample.parts_eq (o := o) (s := s) (d := {}) (st := cfg.sampleType) (rf := cfg.readFormat) (hwIndex := cfg.branchHwIndex)
          (fun _ _ => rfl) (fun _ => rfl) (fun _ => rfl) (fun _ => rfl) fun _ => rfl
        have ha := fun i => hafter {} i hp
        refine ⟨?_, ?_⟩
        · obtain ⟨k1, k2, k3, k4, k5, k6, k7, k8, k9, k10, k11, k12⟩ := h
          simp only [← ha] at k6 k7 k8 k9 k10 k11
          exact ⟨k1, k2, k3, k4, k5, fun _ _ => (h1 _ _).symm, fun _ => (h1 _ _).symm, fun _ => (h1 _ _).symm, fun _ => (h1 _ _).symm,
            fun _ => (h1 _ _).symm, k6, k7, k8, k9, k10, k11, k12⟩
        · show (KSample.partsHeld _ _ _ _ _ _).flatten = (KSample.partsTaken _ _ _ _ _).flatten
          rw [hp]
    | namespaces pid tid es =>
      refine ⟨?_, ?_⟩
      · rintro ⟨h2, h3⟩
        have hd : d.entries = [] := List.length_eq_zero_iff.1 (h2.trans (h1 _ _))
        refine ⟨h3, ?_⟩
        simp only [KBody.encHeld, KBody.encTaken, KBody.enc, hd, List.append_nil]
      · intro h
        refine ⟨⟨(h1 _ _).symm, h⟩, ?_⟩
        simp only [KBody.encHeld, KBody.encTaken, KBody.enc, List.append_nil]
    | _ => exact ⟨fun h => ⟨h, rfl⟩, fun h => ⟨h, rfl⟩⟩
  · intro h2
    unfold KBody.valueStrewn
    cases b with
    | textPoke addr old new pad =>
      rcases h2 with h2 | h2
      · rw [show (KBody.textPoke addr old new pad).whole w = false by simp only [KBody.whole, h2, Option.isSome_none]]
        rfl
      · exact absurd rfl (h2 addr old new pad)
    | _ => rfl

/-- None of the bytes are borrowed if none of the pieces are. -/
theorem lie_temporary : ∀ (cs : List Chunk), (∀ c ∈ cs, c.loc = .temporary) → ∀ i n, lie cs i n = none
  | [], _, _, _ => rfl
  | c :: cs, h, i, n => by
    unfold lie
    rw [h c (by simp), lie_temporary cs fun d hd => h d (by simp [hd])]
    simp

/-- **C97** Where no piece is borrowed, exactly the records of C95 are taken, with the same meaning. -/
theorem c97_temporary (h : ∀ c ∈ cs, c.loc = .temporary) (x : Record List) (md : Metadata) :
    (∃ (r : KRecord) (d : Dropped) (extra : List Byte), r.StrewnFrom o cfg cs d extra ∧ x = r.body.valueStrewn cfg r.misc (bodyLie cs) ∧
      md = r.metadata cfg) ↔
    ∃ (r : KRecord) (extra : List Byte), r.TakenFrom o cfg extra (cs.flatMap Chunk.data) ∧ x = r.body.valueTaken cfg r.misc ∧ md = r.metadata cfg := by
  have hw : ∀ i n, bodyLie cs i n = none := fun i n => lie_temporary cs h _ _
  constructor
  · rintro ⟨r, d, extra, ⟨h1, h2, h3, h4⟩, rfl, rfl⟩
    obtain ⟨k1, -, k3⟩ := c97_copied (o := o) (cfg := cfg) (b := r.body) (misc := r.misc) (d := d) (extra := extra) (.inr hw)
    obtain ⟨g1, g2⟩ := k1 h1
    have hsz : r.sizeHeld o cfg d = r.sizeTaken o cfg := by unfold KRecord.sizeHeld KRecord.sizeTaken; rw [g2]
    have henc : r.encHeld o cfg d extra = r.encTaken o cfg extra := by unfold KRecord.encHeld KRecord.encTaken; rw [g2, hsz]
    exact ⟨r, extra, ⟨g1, hsz ▸ h2, h3, henc ▸ h4⟩, k3 (.inl hw), rfl⟩
  · rintro ⟨r, extra, ⟨h1, h2, h3, h4⟩, rfl, rfl⟩
    obtain ⟨-, k2, k3⟩ := c97_copied (o := o) (cfg := cfg) (b := r.body) (misc := r.misc) (d := {}) (extra := extra) (.inr hw)
    obtain ⟨g1, g2⟩ := k2 h1
    have hsz : r.sizeHeld o cfg {} = r.sizeTaken o cfg := by unfold KRecord.sizeHeld KRecord.sizeTaken; rw [g2]
    have henc : r.encHeld o cfg {} extra = r.encTaken o cfg extra := by unfold KRecord.encHeld KRecord.encTaken; rw [g2, hsz]
    exact ⟨r, {}, extra, ⟨g1, hsz.symm ▸ h2, h3, henc.symm ▸ h4⟩, (k3 (.inl hw)).symm, rfl⟩

/-! ## Examples -/

/-- A sample with a call chain of one frame, at an odd address; then a TEXT_POKE that only has new code. -/
def demoStrewnBytes : List Byte := demoHeldSample.encHeld .little demoHeldCfg {} [] ++ demoHeldPoke.encHeld .little demoHeldCfg {} []
/-- In a ring buffer that wraps around within the frame. -/
def demoStrewnPieces : List Slice := [⟨1, demoStrewnBytes.take 20⟩, ⟨101, demoStrewnBytes.drop 20⟩]
/-- In a ring buffer that wraps around within the new code. -/
def demoStrewnCode : List Slice := [⟨8, demoStrewnBytes.take 45⟩, ⟨101, demoStrewnBytes.drop 45⟩]

def chunksOf (ps : List Slice) : List Chunk := ps.map fun s => ⟨.external s.addr, s.data⟩

/-- Both records are taken. The frame is not in one piece, and so nothing is dropped; the code is, and so it is read right. -/
theorem demoStrewn : StrewnAll .little demoHeldCfg (chunksOf demoStrewnPieces) [(demoHeldSample, {}, []), (demoHeldPoke, {}, [])]
    [(demoHeldSample.body.valueHeld demoHeldCfg 0, demoHeldSample.metadata demoHeldCfg),
     (.textPoke ⟨5, [], [1, 2, 3]⟩, demoHeldPoke.metadata demoHeldCfg)] := by
  refine ⟨⟨?_, by decide +kernel, fun h => (by cases h), ?_⟩, _, rfl, ⟨⟨?_, ?_, ?_, ?_⟩, by decide +kernel, fun h => (by cases h), ?_⟩, _, ?_, rfl⟩
  · constructor <;> first | (intro h; revert h; decide +kernel) | decide +kernel
  · exact ⟨demoHeldPoke.encHeld .little demoHeldCfg {} [], by decide +kernel⟩
  · decide
  · decide
  · decide
  · decide
  · exact ⟨[], by decide +kernel⟩
  · have h : demoHeldPoke.body.whole (bodyLie (dropPieces (chunksOf demoStrewnPieces) (demoHeldSample.encHeld .little demoHeldCfg {} []).length)) = true := by
      decide +kernel
    unfold KBody.valueStrewn
    rw [h]
    rfl

example : (visitMany pairVisitor 2 (Parser.new (⟨demoStrewnPieces⟩ : ChunkBuf) demoHeldCfg)).1.map seenAs =
      [.ok (demoHeldSample.body.valueHeld demoHeldCfg 0, demoHeldSample.metadata demoHeldCfg),
       .ok (.textPoke ⟨5, [], [1, 2, 3]⟩, demoHeldPoke.metadata demoHeldCfg)] :=
  (c97_pieces (cfg := demoHeldCfg) demoStrewnPieces (by decide +kernel) demoCfg_wf (Src.little _ _)
    [(demoHeldSample.body.valueHeld demoHeldCfg 0, demoHeldSample.metadata demoHeldCfg),
     (.textPoke ⟨5, [], [1, 2, 3]⟩, demoHeldPoke.metadata demoHeldCfg)]).2 ⟨_, demoStrewn⟩

/-- The same two records from pieces that are not borrowed, which is where `c97_temporary` applies. -/
example : demoHeldSample.StrewnFrom .little demoHeldCfg [⟨.temporary, demoStrewnBytes.take 20⟩, ⟨.temporary, demoStrewnBytes.drop 20⟩] {} [] ∧
    demoHeldSample.TakenFrom .little demoHeldCfg [] demoStrewnBytes := by
  refine ⟨⟨?_, by decide +kernel, fun h => (by cases h), ⟨demoHeldPoke.encHeld .little demoHeldCfg {} [], by decide +kernel⟩⟩,
    ⟨?_, by decide +kernel, fun h => (by cases h), ⟨demoHeldPoke.encHeld .little demoHeldCfg {} [], by decide +kernel⟩⟩⟩
  · constructor <;> first | (intro h; revert h; decide +kernel) | decide +kernel
  · constructor <;> first | (intro h; revert h; decide +kernel) | decide +kernel

/-- As they come out of the model: the same bytes mean different things depending on where the pieces end. In one piece at an odd address the
sample is refused (B2), cut within the frame it is read right; cut within the new code, the TEXT_POKE has no new code (B7). -/
theorem c97_example :
    (match (P.record pairVisitor (Parser.new (⟨1, demoStrewnBytes⟩ : Slice) demoHeldCfg)).res with
    | .error (.err .eof) => true
    | _ => false) = true ∧
    (match (P.record pairVisitor (Parser.new (⟨demoStrewnPieces⟩ : ChunkBuf) demoHeldCfg)).res with
    | .ok (.sample s, _) => s.view.callchain == some [7]
    | _ => false) = true ∧
    ((visitMany pairVisitor 2 (Parser.new (⟨demoStrewnPieces⟩ : ChunkBuf) demoHeldCfg)).1.map fun x => match seenAs x with
      | .ok (.textPoke t, _) => t.newBytes
      | _ => []) = [[], [1, 2, 3]] ∧
    ((visitMany pairVisitor 2 (Parser.new (⟨demoStrewnCode⟩ : ChunkBuf) demoHeldCfg)).1.map fun x => match seenAs x with
      | .ok (.textPoke t, _) => t.newBytes
      | _ => []) = [[], []] := by decide +kernel

end Perf
