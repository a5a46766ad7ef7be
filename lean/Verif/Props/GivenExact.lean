import Verif.Props.ErrorExact
/-!
# C103: exactly what `parse_record_with_header` returns, whatever the header and the input

The header is an argument; it need not be what stood in front of the input. The outcome is that of `parse_record` (C97, C100) on an input that
has this header in front, in a piece of its own.
-/
namespace Perf
variable {β : Type} [ParseBuf β] [LawfulEof β] {F : List Chunk → β → Prop} {cs : List Chunk} {p : Parser β} {f : Flat} {o : Order} {cfg : ParseConfig}

/-- The bytes of a header. -/
def Header.enc (o : Order) (h : Header) : List Byte := e32 o h.type_ ++ e16 o h.misc ++ e16 o h.size

/-- The pieces with a header in front of them. -/
def led (o : Order) (h : Header) (cs : List Chunk) : List Chunk := ⟨.temporary, h.enc o⟩ :: cs

theorem Header.enc_length (h : Header) : (h.enc o).length = 8 := by unfold Header.enc; simp

theorem bodyLie_led (h : Header) (cs : List Chunk) : bodyLie (led o h cs) = lie cs := by
  funext i n
  unfold bodyLie led
  rw [lie, Header.enc_length, if_neg (by omega), show 8 + i - 8 = i by omega]

/-- The input with the header in front, at an unknown address. -/
def Flat.led (o : Order) (h : Header) (f : Flat) : Flat := ⟨⟨h.enc o ++ f.s.bytes, .unknown, f.s.fin⟩, 0, f.cfg⟩

theorem headerAt_led (hs : Src f.cfg o) (h : Header) : headerAt (f.led o h) = h := by
  obtain ⟨-, h1, h2, h3, -⟩ := headerAt_unique (f := f.led o h) (o := o) hs (ty := h.type_) (misc := h.misc) (size := h.size) (tl := f.s.bytes) rfl
  rcases h with ⟨a, b, c⟩
  rcases hh : headerAt (f.led o ⟨a, b, c⟩) with ⟨a', b', c'⟩
  rw [hh] at h1 h2 h3
  dsimp only at h1 h2 h3
  rw [h1, h2, h3]

theorem Region.unknown {r : Flat} {c : Parser Cursor} (h : Region r c) : RepP c ⟨⟨r.s.bytes, .unknown, r.s.fin⟩, r.off, r.cfg⟩ := by
  obtain ⟨h1, h2, h3, h4⟩ := h.rep
  refine ⟨?_, h2, h3, h4⟩
  obtain ⟨k1, k2, k3, k4, k5, k6, k7⟩ := h1
  exact ⟨k1, k2, k3, k4, k5, k6, .unknown, rfl, by
    clear k1 k2 k3 k4 k5 k6 k7
    induction c.data.buf.chunks with
    | nil => trivial
    | cons d ds ih => exact ⟨trivial, ih⟩⟩

/-- What `parse_record_with_header` does, given what the parser over pieces of memory reads. -/
def Lies.DoesWith (h : Header) (F : List Chunk → β → Prop) (cs : List Chunk) (p : Parser β) (f : Flat) : Except Fault (Record List × Metadata × Nat) → Prop
  | .error e => ∀ {O : Type} (v : Visitor Cow O), (P.recordWithHeader v h p).res = .error e
  | .ok (x, md, n) => ∃ a : Record Cow, a.view = x ∧ ∀ {O : Type} (v : Visitor Cow O), (P.recordWithHeader v h p).res = v.apply a md ∧
      Lies F (dropPieces cs (n - 8)) (P.recordWithHeader v h p).st (f.adv (n - 8))

theorem Lies.recordWith (h : SewnBuf F) (hp : Lies F cs p f) (hs : Src f.cfg o) (hd : Header) :
    Lies.DoesWith hd F cs p f (Woven.record (led o hd cs) (f.led o hd)) := by
  unfold Woven.record
  have hlen : (f.led o hd).s.bytes.length = 8 + f.s.bytes.length := by
    show (hd.enc o ++ f.s.bytes).length = _
    rw [List.length_append, Header.enc_length]
  rw [if_neg (by omega), headerAt_led hs, bodyLie_led]
  have hadv : ((f.led o hd).adv 8).s.bytes = f.s.bytes := by
    rw [Flat.adv_bytes]
    show (hd.enc o ++ f.s.bytes).drop 8 = _
    rw [← Header.enc_length (o := o) hd, List.drop_left]
  obtain ⟨h1, -, h3⟩ := P.metadataWithHeader_run hp.rep hd
  have hsame : SameBytes f ((f.led o hd).adv 8) := ⟨hadv.symm, rfl, rfl⟩
  rcases metadata_same hsame hp.rep.wf hd with ⟨e, h4, h5⟩ | ⟨r, r', md, i, j, len, h4, h5, h6, h7, h8, h9⟩
  · rw [h4] at h3
    rw [h5]
    intro O v
    unfold P.recordWithHeader
    rw [P.bind_err (P.run_eq _ h3)]
  · rw [h4] at h3
    rw [h5]
    obtain ⟨c, hc, hreg⟩ := h3
    dsimp only
    obtain ⟨a1, a2, -, -⟩ := Meets.metadata_region h4
    subst h7
    have hr' : r' = ⟨⟨(f.region len).s.bytes, .unknown, .eof⟩, 0, f.cfg⟩ := by
      rw [h8]
      show (⟨⟨((f.led o hd).adv 8).s.bytes.take len, _, _⟩, _, _⟩ : Flat) = _
      rw [hadv]
      rfl
    rw [hr']
    have hst := h.stable cs f.off
    have hs0 : SewnP F cs f.off p := by
      refine ⟨Nat.le_of_eq hp.rep.off.symm, ?_⟩
      rw [hp.rep.off, Nat.sub_self, dropPieces_zero (h.nonempty _ _ hp.sewn)]
      exact hp.sewn
    have hfrom := h.region hp.sewn hc
    have hsewn : Cursor.Sewn c.data.buf.chunks c.data.buf := by
      have h7 := hfrom.offset
      have h8 := hfrom.nonempty
      rcases hb : c.data.buf with ⟨chunks, off, len⟩
      rw [hb] at h7 h8
      cases h7
      exact .fresh h8
    have hat : SewnAt (β := Tracking Cursor) (fun cs t => Cursor.Sewn cs t.buf) c.data.buf.chunks (Parser.new c.data (c.config.withMisc md.misc))
        ((⟨⟨(f.region len).s.bytes, .unknown, .eof⟩, 0, f.cfg⟩ : Flat).withMisc md.misc) := by
      refine ⟨hreg.unknown.withMisc rfl md.misc, ⟨Nat.le_refl _, ?_⟩, ?_, rfl⟩
      · show Cursor.Sewn (dropPieces c.data.buf.chunks 0) c.data.buf
        rw [dropPieces_zero hfrom.nonempty]
        exact hsewn
      · exact hreg.pieces.data.symm
    have htells : Tells (lie cs) c.data.buf.chunks := fun i n hi hn => (hfrom.lie i n hi hn).symm
    have hbody := Weaves.body SewnBuf.cursor.tracking htells md.ty _ _ hat
    have hinv : SewnP F cs f.off (P.metadataWithHeader hd p).st :=
      (Inv.regionOf (G := fun _ => True) (I := SewnP F cs f.off) (fun n p hp => ⟨(Inv.splitAt hst n p hp).1, fun _ _ => trivial⟩) (fun _ _ _ _ _ => trivial)
        hd p hs0).1
    have hend : ∀ {O : Type} (v : Visitor Cow O), Lies F (dropPieces cs (hd.size.toNat - 8)) (P.recordWithHeader v hd p).st (f.adv (hd.size.toNat - 8)) := by
      intro O v
      rw [(c03_fast_path v _ p).2]
      unfold P.recordWithHeaderGeneral
      rw [P.bind_ok (P.run_eq _ hc)]
      show Lies F _ (P.recordImpl c v md _).st _
      rw [P.recordImpl_st]
      exact hp.adv (h1 a1 a2).1 hinv
    have hres : ∀ {O : Type} (v : Visitor Cow O), (P.recordWithHeader v hd p).res =
        (P.dispatch v md (Parser.new c.data (c.config.withMisc md.misc))).res := by
      intro O v
      rw [(c03_fast_path v _ p).1]
      unfold P.recordWithHeaderGeneral
      rw [P.bind_ok (P.run_eq _ hc)]
      show (P.recordImpl c v md _).res = _
      unfold P.recordImpl
      rcases hdd : P.dispatch v md (Parser.new c.data (c.config.withMisc md.misc)) with ⟨res, q', l⟩
      cases res with
      | error e => rw [P.bind_err (P.onChild_err hdd _)]
      | ok a => rw [P.bind_ok (P.onChild_ok hdd _)]; rfl
    rcases hb : (parseBody md.ty : Woven (lie cs) (Record List)) ((⟨⟨(f.region len).s.bytes, .unknown, .eof⟩, 0, f.cfg⟩ : Flat).withMisc md.misc) with e | ⟨x, g⟩ <;>
      rw [hb] at hbody
    · intro O v
      rw [hres v, P.dispatch_eq, P.bind_err (P.run_eq _ hbody)]
    · obtain ⟨a, ha, hx, -⟩ := hbody
      refine ⟨a, hx, fun v => ⟨?_, hend v⟩⟩
      rw [hres v, P.dispatch_eq, P.bind_ok (P.run_eq _ ha)]
      rfl

/-- The outcome is that of the input with the header in front. -/
theorem Lies.outcomeWith (hF : SewnBuf F) (hp : Lies F cs p f) (hs : Src f.cfg o) (hd : Header) :
    Outcome o f.cfg (led o hd cs) (seenAs (P.recordWithHeader pairVisitor hd p).res) := by
  have hdo := hp.recordWith hF hs hd
  have hw : (f.led o hd).cfg.Wf := hp.rep.wf
  have hcs : (f.led o hd).s.bytes = (led o hd cs).flatMap Chunk.data := by
    show hd.enc o ++ f.s.bytes = hd.enc o ++ cs.flatMap Chunk.data
    rw [hp.bytes]
  have hfin : (f.led o hd).s.fin = .eof := hp.fin
  by_cases hex : ∃ (r : KRecord) (d : Dropped) (extra : List Byte), r.StrewnFrom o f.cfg (led o hd cs) d extra
  · obtain ⟨r, d, extra, h⟩ := hex
    rw [Woven.record_strewn hw hcs hs h] at hdo
    obtain ⟨a, ha, hv⟩ := hdo
    obtain ⟨b, h3, h4⟩ := pairVisitor_strewn ha
    rw [(hv pairVisitor).1, h3]
    exact ⟨r, d, extra, h, congrArg (·, r.metadata f.cfg) h4⟩
  · have hno : ∀ (r : KRecord) (d : Dropped) (extra : List Byte), ¬ r.StrewnFrom o (f.led o hd).cfg (led o hd cs) d extra :=
      fun r d extra h => hex ⟨r, d, extra, h⟩
    obtain ⟨e, he⟩ := Woven.record_refused hw hcs hs hno
    rw [he] at hdo
    have hdo' : ∀ {O : Type} (v : Visitor Cow O), (P.recordWithHeader v hd p).res = .error e := hdo
    rcases c01_parse_record_with_header hp.rep hd with ⟨y, h3⟩ | ⟨e', h3⟩
    · rw [show P.parseRecordWithHeader hd p = P.recordWithHeader (recordVisitor Cow) hd p from rfl, hdo'] at h3
      cases h3
    · rw [show P.parseRecordWithHeader hd p = P.recordWithHeader (recordVisitor Cow) hd p from rfl, hdo'] at h3
      cases h3
      rw [hdo' pairVisitor]
      show _ ∨ _
      by_cases h5 : e' = .eof
      · subst h5
        refine .inr ⟨rfl, hno, fun e'' h6 => ?_⟩
        have h7 := (Woven.record_wrong hw hcs hfin hs h6.ne_eof).2 h6
        rw [he] at h7
        cases h7
        exact h6.ne_eof rfl
      · exact .inl ((Woven.record_wrong hw hcs hfin hs h5).1 he)

/-- **C103** What `parse_record_with_header` returns, exactly: for every header and every input, in any pieces at any addresses. -/
theorem c103_exact (hF : SewnBuf F) (hp : Lies F cs p f) (hs : Src f.cfg o) (hd : Header) (x : Except Fault (Record List × Metadata)) :
    seenAs (P.recordWithHeader pairVisitor hd p).res = x ↔ Outcome o f.cfg (led o hd cs) x := by
  constructor
  · rintro rfl
    exact hp.outcomeWith hF hs hd
  · exact fun h => c100_unique hp.rep.wf hs (hp.outcomeWith hF hs hd) h

/-- **C103** For every visitor: one that is taken is handed to the visitor and the parser stands behind it; one that is not gives the same error for
all visitors. -/
theorem c103_visit (hF : SewnBuf F) (hp : Lies F cs p f) (hs : Src f.cfg o) (hd : Header) :
    (∃ (r : KRecord) (d : Dropped) (extra : List Byte), r.StrewnFrom o f.cfg (led o hd cs) d extra ∧
      ∃ a : Record Cow, a.view = r.body.valueStrewn f.cfg r.misc (lie cs) ∧ ∀ {O : Type} (v : Visitor Cow O),
        (P.recordWithHeader v hd p).res = v.apply a (r.metadata f.cfg) ∧
        Lies F (dropPieces cs (hd.size.toNat - 8)) (P.recordWithHeader v hd p).st (f.adv (hd.size.toNat - 8))) ∨
    ∃ e, Outcome o f.cfg (led o hd cs) (.error (.err e)) ∧ ∀ {O : Type} (v : Visitor Cow O), (P.recordWithHeader v hd p).res = .error (.err e) := by
  have hdo := hp.recordWith hF hs hd
  have hout := hp.outcomeWith hF hs hd
  have hcs : (f.led o hd).s.bytes = (led o hd cs).flatMap Chunk.data := by
    show hd.enc o ++ f.s.bytes = hd.enc o ++ cs.flatMap Chunk.data
    rw [hp.bytes]
  by_cases hex : ∃ (r : KRecord) (d : Dropped) (extra : List Byte), r.StrewnFrom o f.cfg (led o hd cs) d extra
  · obtain ⟨r, d, extra, h⟩ := hex
    rw [Woven.record_strewn (f := f.led o hd) hp.rep.wf hcs hs h] at hdo
    obtain ⟨a, ha, hv⟩ := hdo
    refine .inl ⟨r, d, extra, h, a, by rw [← bodyLie_led (o := o) hd cs]; exact ha, fun v => ⟨(hv v).1, ?_⟩⟩
    have hl : (r.encHeld o f.cfg d extra).length = hd.size.toNat := by
      obtain ⟨-, h2, -, tl, h4⟩ := h
      have h5 : (f.led o hd).s.bytes = e32 o r.body.type ++ e16 o r.misc ++ e16 o (BitVec.ofNat 16 (r.sizeHeld o f.cfg d + extra.length)) ++
          (r.body.encHeld o f.cfg d ++ extra ++ r.encTrailer o f.cfg ++ tl) := by
        rw [hcs, ← h4]
        unfold KRecord.encHeld
        simp only [List.append_assoc]
      obtain ⟨-, -, -, h6, -⟩ := headerAt_unique (f := f.led o hd) (o := o) hs h5
      rw [headerAt_led hs] at h6
      rw [KRecord.encHeld_length, ← h6, toNat_ofNat_lt h2]
    have h1 := (hv v).2
    rw [show (f.led o hd).cfg = f.cfg from rfl, hl] at h1
    exact h1
  · obtain ⟨e, he⟩ := Woven.record_refused (f := f.led o hd) hp.rep.wf hcs hs fun r d extra h => hex ⟨r, d, extra, h⟩
    rw [he] at hdo
    have hdo' : ∀ {O : Type} (v : Visitor Cow O), (P.recordWithHeader v hd p).res = .error e := hdo
    rw [hdo' pairVisitor] at hout
    rcases e with e | _ | _
    · exact .inr ⟨e, hout, fun v => hdo' v⟩
    · exact hout.elim
    · exact hout.elim

/-- **C103** For a list of pieces at any addresses. -/
theorem c103_pieces (ps : List Slice) (h : ∀ s ∈ ps, s.data ≠ []) (hw : cfg.Wf) (hs : Src cfg o) (hd : Header)
    (x : Except Fault (Record List × Metadata)) :
    seenAs (P.recordWithHeader pairVisitor hd (Parser.new (⟨ps⟩ : ChunkBuf) cfg)).res = x ↔
    Outcome o cfg (led o hd (ps.map fun s => ⟨.external s.addr, s.data⟩)) x :=
  c103_exact SewnBuf.chunkBuf (Lies.chunkBuf ps h hw) hs hd x

/-- **C103** For one slice at any address. -/
theorem c103_slice (a : Nat) (bs : List Byte) (hw : cfg.Wf) (hs : Src cfg o) (hd : Header) (x : Except Fault (Record List × Metadata)) :
    seenAs (P.recordWithHeader pairVisitor hd (Parser.new (⟨a, bs⟩ : Slice) cfg)).res = x ↔
    Outcome o cfg (led o hd (if bs = [] then [] else [⟨.external a, bs⟩])) x :=
  c103_exact SewnBuf.slice (Lies.slice a bs hw) hs hd x

/-- **C103** Through a reader. -/
theorem c103_reader (es : List ReadEvent) (hf : scriptFin es = .eof) (hw : cfg.Wf) (hs : Src cfg o) (hd : Header)
    (x : Except Fault (Record List × Metadata)) :
    seenAs (P.recordWithHeader pairVisitor hd (Parser.new (⟨[], es⟩ : BufReader) cfg)).res = x ↔
    Outcome o cfg (led o hd (lentPieces (scriptBytes es))) x := by
  have h1 := (Pours.recordWithHeader pairVisitor hd).result (p := Parser.new (⟨[], es⟩ : BufReader) cfg) ⟨RepP.reader es hw, rfl⟩
  have h2 := (Pours.recordWithHeader pairVisitor hd).result (p := Parser.new (⟨scriptBytes es⟩ : LentBuf) cfg) ⟨(Lies.lentBuf (scriptBytes es) hw).rep, rfl⟩
  rw [hf] at h1
  rw [h1, show (⟨⟨scriptBytes es, .temp, .eof⟩, 0, cfg⟩ : Flat) = .through (scriptBytes es) .eof cfg from rfl, ← h2]
  exact c103_exact SewnBuf.lentBuf (Lies.lentBuf (scriptBytes es) hw) hs hd x

/-! ## Concrete cases -/

/-- The same bytes in two pieces with different headers. -/
def demoGiven (ty : U32) (size : U16) : Except Fault (Record List × Metadata) :=
  seenAs (P.recordWithHeader pairVisitor ⟨ty, 0, size⟩ (Parser.new (⟨[⟨3, [1, 0, 0, 0, 2, 0, 0, 0, 0x61]⟩, ⟨64, [0, 0, 0, 0, 0, 0, 0]⟩]⟩ : ChunkBuf) demoHeldCfg)).res

/-- As LOST, as COMM, as an unknown record and as part of one, with less than a header, with more than there is, and with less than LOST needs. -/
theorem c103_example :
    (match demoGiven 2 24 with | .ok (.lost r, _) => r.id == 0x200000001 && r.lost == 0x61 | _ => false) = true ∧
    (match demoGiven 3 24 with | .ok (.comm r, _) => r.pid == 1 && r.tid == 2 && r.comm == [0x61] | _ => false) = true ∧
    (match demoGiven 99 24 with | .ok (.unknown ty b, md) => ty == 99 && b.length == 16 && md.ty == 99 | _ => false) = true ∧
    (match demoGiven 99 12 with | .ok (.unknown ty b, _) => ty == 99 && b == [1, 0, 0, 0] | _ => false) = true ∧
    (match demoGiven 2 7 with | .error (.err (.custom .invalidRecord _)) => true | _ => false) = true ∧
    (match demoGiven 2 25 with | .error (.err .eof) => true | _ => false) = true ∧
    (match demoGiven 2 23 with | .error (.err .eof) => true | _ => false) = true := by decide +kernel

/-- The bytes of the first case, as C103 has them. -/
theorem demoGiven_strewn : (KRecord.mk 0 (.lost ⟨0x200000001, 0x61⟩) ⟨0, 0, 0, 0, 0, 0, 0, 0⟩).StrewnFrom .little demoHeldCfg
    (led .little ⟨2, 0, 24⟩ [⟨.external 3, [1, 0, 0, 0, 2, 0, 0, 0, 0x61]⟩, ⟨.external 64, [0, 0, 0, 0, 0, 0, 0]⟩]) {} [] where
  strewn := by simp only [KBody.Strewn, KBody.Taken] <;> trivial
  small := by decide
  toEnd _ := rfl
  bytes := by exact ⟨[], by decide +kernel⟩

end Perf
