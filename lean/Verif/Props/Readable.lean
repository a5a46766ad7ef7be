import Verif.Proof.Judges
import Verif.Proof.IRoundTrip
import Verif.Proof.Raw
import Verif.Props.Piped
import Verif.Props.Poke
import Verif.Props.Content
/-!
# C87: exactly which of the records the kernel writes are read
-/
namespace Perf
open ParserM
variable {β : Type} [ParseBuf β] {p : Parser β} {f : Flat} {o : Order} {cfg : ParseConfig} {tl : List Byte}

/-! ## What a parsed sample is never -/

/-- There are as many registers as bits in the mask. -/
def Sample.RegsSized (s : Sample Cow) : Prop :=
  (∀ r, s.regsUser = some r → r.regs.data.length = popcount r.mask) ∧
  (∀ r, s.regsIntr = some r → r.regs.data.length = popcount r.mask)

theorem Post.registers (mask : U64) :
    Post (fun r => r.regs.data.length = popcount r.mask) (parseRegisters mask : P β (Registers Cow)) :=
  Post.skip fun _ => Post.bind (Post.slice _ _ _) fun _ h => Post.pure h

theorem Post.regsSized : Post Sample.RegsSized (parseSample : P β (Sample Cow)) := by
  unfold parseSample
  refine Post.skip fun cfg => ?_
  refine Post.skip fun _ => Post.skip fun _ => Post.skip fun _ => Post.skip fun _ => Post.skip fun _ => Post.skip fun _ => ?_
  refine Post.skip fun _ => Post.skip fun _ => Post.skip fun _ => Post.skip fun _ => Post.skip fun _ => Post.skip fun _ => ?_
  refine Post.skip fun _ => Post.skip fun _ => ?_
  refine Post.bind (Post.parseIf_of _ (Post.skip fun _ => Post.registers _)) fun ru hu => ?_
  refine Post.skip fun _ => Post.skip fun _ => Post.skip fun _ => Post.skip fun _ => ?_
  refine Post.bind (Post.parseIf_of _ (Post.skip fun _ => Post.registers _)) fun ri hi => ?_
  refine Post.skip fun _ => Post.skip fun _ => Post.skip fun _ => Post.skip fun _ => Post.skip fun _ => ?_
  exact Post.pure ⟨fun r h => hu.2 r h, fun r h => hi.2 r h⟩

/-! ## Trailers -/

theorem KTrailer.enc_nil {st : U64} {t : KTrailer} (h : t.enc o st = []) : t.value st = SampleId.default := by
  have hl := congrArg List.length h
  unfold KTrailer.enc at hl
  unfold KTrailer.value chooseId
  revert hl
  cases st.getLsbD 1 <;> cases st.getLsbD 2 <;> cases st.getLsbD 6 <;> cases st.getLsbD 9 <;> cases st.getLsbD 7 <;>
    cases st.getLsbD 16 <;> simp <;> rfl

theorem KTrailer.enc_nil_of {st : U64} {t : KTrailer} (h : t.value st = SampleId.default) : t.enc o st = [] := by
  unfold KTrailer.value chooseId SampleId.default at h
  unfold KTrailer.enc
  revert h
  cases st.getLsbD 1 <;> cases st.getLsbD 2 <;> cases st.getLsbD 6 <;> cases st.getLsbD 9 <;> cases st.getLsbD 7 <;>
    cases st.getLsbD 16 <;> simp [optv]

/-- If there is no trailer after MMAP, what the kernel writes is what the manual says. -/
theorem KRecord.all_eq {r : KRecord} (h : r.body.type = 1#32 → r.encTrailerAll o cfg = []) :
    r.encAll o cfg = r.enc o cfg ∧ r.sizeAll o cfg = r.size o cfg ∧ r.metadataAll cfg = r.metadata cfg := by
  have ht : r.encTrailerAll o cfg = r.encTrailer o cfg := by
    by_cases h1 : r.body.type = 1#32
    · rw [h h1]
      unfold KRecord.encTrailer
      simp [h1]
    · unfold KRecord.encTrailerAll KRecord.encTrailer KRecord.trailed
      rw [show (r.body.type != 1#32) = true from bne_iff_ne.mpr h1, Bool.and_true]
  have hz : r.sizeAll o cfg = r.size o cfg := by unfold KRecord.sizeAll KRecord.size; rw [ht]
  refine ⟨by unfold KRecord.encAll KRecord.enc; rw [ht, hz], hz, ?_⟩
  unfold KRecord.metadataAll KRecord.metadata
  by_cases h1 : r.body.type = 1#32
  · have h2 := h h1
    unfold KRecord.encTrailerAll at h2
    simp only [h1, bne_self_eq_false, Bool.and_false, Bool.false_and, Bool.false_eq_true, if_false]
    split
    · next h3 => rw [if_pos h3] at h2; rw [KTrailer.enc_nil h2]
    · rfl
  · unfold KRecord.trailed
    rw [show (r.body.type != 1#32) = true from bne_iff_ne.mpr h1, Bool.and_true]

/-! ## The conditions do not depend on `misc` -/

theorem KBody.endFull_withMisc (b : KBody) (m : U16) : b.EndFull o (cfg.withMisc m) ↔ b.EndFull o cfg := by
  cases b <;> simp only [KBody.EndFull, ParseConfig.withMisc_readFormat, ParseConfig.withMisc_sampleType,
    ParseConfig.withMisc_branchHwIndex, withMisc_endian]

theorem KBody.announced_withMisc (c : Bool) (b : KBody) (m : U16) : b.Announced c (cfg.withMisc m) ↔ b.Announced c cfg := by
  cases b <;> simp only [KBody.Announced, ParseConfig.withMisc_sampleType, withMisc_regsUser, withMisc_regsIntr]

theorem KBody.stackAligned_withMisc (b : KBody) (m : U16) : b.StackAligned (cfg.withMisc m) ↔ b.StackAligned cfg := by
  cases b <;> simp only [KBody.StackAligned, ParseConfig.withMisc_sampleType]

/-! ## Parsing a record -/

/-- `pairVisitor` returns the record. -/
theorem pairVisitor_value {a : Record Cow} {r : KRecord} {m : U16} (h : a.view = r.body.value cfg m) {md : Metadata}
    (hty : md.ty = r.body.type) : ∃ b : Record Cow, pairVisitor.apply a md = .ok (b, md) ∧ b.view = r.body.value cfg m := by
  obtain ⟨b, h1, h2⟩ := pairVisitor_apply a md
  refine ⟨b, h1, ?_⟩
  rw [h2, h]
  cases hb : r.body <;> simp only [KBody.value]
  rw [hty, hb]
  rfl

/-- What `pairVisitor` returned as the record was parsed. -/
theorem pairVisitor_inv {a b : Record Cow} {md md' : Metadata} (h : pairVisitor.apply a md = .ok (b, md')) :
    md' = md ∧ (a.view = b.view ∨ ∃ t d, a.view = .unknown t d ∧ b.view = .unknown md.ty d) := by
  cases a <;> cases h <;> first | exact ⟨rfl, .inl rfl⟩ | exact ⟨rfl, .inr ⟨_, _, rfl, rfl⟩⟩

variable [Lawful β]

/-- A record whose parts are all announced: delivered, or the error at the end. -/
theorem P.record_judged (hp : RepP p f) (hs : Src f.cfg o) (r : KRecord) (hw : r.body.Written f.cfg r.misc)
    (hst : r.body.StackAligned f.cfg) (ha : r.body.Announced true f.cfg) (hsize : r.size o f.cfg < 65536)
    (hal : f.cfg.endian.isNative = true → AlMod f.s.al 0) (hb : f.s.bytes = r.enc o f.cfg ++ tl) {O : Type} (v : Visitor Cow O) :
    (r.body.EndFull o f.cfg →
      ∃ a : Record Cow, a.view = r.body.value f.cfg r.misc ∧ (P.record v p).res = v.apply a (r.metadata f.cfg)) ∧
    (¬ r.body.EndFull o f.cfg → (P.record v p).res = .error (.err .eof)) := by
  obtain ⟨h0, h3, h1⟩ := P.record_frame hp hs r hsize hb v
  obtain ⟨j1, j2⟩ := KBody.judges (hs.withMisc r.misc) r.body (by
      rw [ParseConfig.withMisc_misc, KBody.written_withMisc]; exact hw) ((KBody.stackAligned_withMisc _ _).mpr hst)
    ((KBody.announced_withMisc _ _ _).mpr ha) (by
      rw [KBody.enc_withMisc]; unfold KRecord.size at hsize; omega)
    (((f.adv 8).region (r.body.enc o f.cfg).length).withMisc r.misc) rfl rfl (fun hn => (hal hn).add 8) (by
      rw [KBody.enc_withMisc, List.append_nil]; exact h0)
  rw [KBody.endFull_withMisc] at j1 j2
  have h4 := h3.1
  have hty : (r.metadata f.cfg).ty = r.body.type := rfl
  have hmi : (r.metadata f.cfg).misc = r.misc := rfl
  rw [hty, hmi] at h4
  refine ⟨fun h => ?_, fun h => ?_⟩
  · rw [j1 h, ParseConfig.withMisc_misc, KBody.value_withMisc] at h4
    exact h4
  · rw [j2 h] at h4
    exact h4

/-- A sample that is delivered has what it announces. -/
theorem P.sample_announced (hp : RepP p f) (hs : Src f.cfg o) (misc : U16) (s : KSample) (t : KTrailer)
    (hw : s.Written f.cfg.sampleType f.cfg.readFormat f.cfg.regsUser f.cfg.regsIntr)
    (hsize : (KRecord.mk misc (.sample s) t).size o f.cfg < 65536)
    (hb : f.s.bytes = (KRecord.mk misc (.sample s) t).enc o f.cfg ++ tl)
    (hd : (KRecord.mk misc (.sample s) t).DeliveredBy f.cfg (P.record pairVisitor p).res) :
    s.Announced f.cfg.sampleType f.cfg.regsUser f.cfg.regsIntr := by
  obtain ⟨h0, h3, h1⟩ := P.record_frame hp hs _ hsize hb pairVisitor
  obtain ⟨b, hv, hb'⟩ := hd
  rw [hb'] at h3
  rcases h3.2 with ⟨a, ⟨_, hpr⟩, ha⟩ | ⟨e, he, _⟩
  · have hav : a.view = .sample (s.value f.cfg.sampleType f.cfg.readFormat f.cfg.regsUser f.cfg.regsIntr f.cfg.branchHwIndex) := by
      rcases (pairVisitor_inv ha.symm).2 with h | ⟨ty, d, _, h⟩
      · rw [h, hv]; rfl
      · rw [hv] at h; cases h
    cases a <;> simp only [Record.view, reduceCtorEq, Record.sample.injEq] at hav
    rename_i a
    obtain ⟨_, γ, _, q, hq, hres⟩ := hpr.sample
    have pr := c18_present hres
    rw [hq, ParseConfig.withMisc_sampleType] at pr
    have rs := Post.regsSized q _ hres
    refine ⟨fun h => ?_, fun h hz => ?_, fun h hz => ?_⟩
    · have := congrArg Sample.weight hav
      have hw' := pr.weight
      simp only [Sample.view, KSample.value, h, Bool.or_true, optv, if_true] at this
      rw [this] at hw'
      exact hw'.symm
    · have := congrArg Sample.regsUser hav
      simp only [Sample.view, KSample.value, h, optv, if_true] at this
      obtain ⟨x, hx, hxv⟩ := Option.map_eq_some_iff.mp this
      have hl := rs.1 x hx
      have hwr := hw.regsUser h
      unfold KRegs.Written at hwr
      rw [if_pos hz] at hwr
      rw [hwr] at hxv
      simp only [Registers.view, Registers.mk.injEq] at hxv
      rw [hxv.2.1, hxv.2.2] at hl
      exact hl.symm
    · have := congrArg Sample.regsIntr hav
      simp only [Sample.view, KSample.value, h, optv, if_true] at this
      obtain ⟨x, hx, hxv⟩ := Option.map_eq_some_iff.mp this
      have hl := rs.2 x hx
      have hwr := hw.regsIntr h
      unfold KRegs.Written at hwr
      rw [if_pos hz] at hwr
      rw [hwr] at hxv
      simp only [Registers.view, Registers.mk.injEq] at hxv
      rw [hxv.2.1, hxv.2.2] at hl
      exact hl.symm
  · cases he

/-- Whatever the record, behind it the parser goes on; an MMAP record is given no trailer. -/
theorem P.record_behind (hp : RepP p f) (hs : Src f.cfg o) (r : KRecord) (hsize : r.sizeAll o f.cfg < 65536)
    (hb : f.s.bytes = r.encAll o f.cfg ++ tl) :
    RepP (P.record pairVisitor p).st (f.adv (r.encAll o f.cfg).length) ∧
    (r.body.type = 1#32 → r.DeliveredBy f.cfg (P.record pairVisitor p).res → r.encTrailerAll o f.cfg = []) := by
  by_cases h1 : r.body.type = 1#32
  · let r' : KRecord := ⟨r.misc, .other 1#32 (r.body.enc o f.cfg ++ r.encTrailerAll o f.cfg), r.trailer⟩
    have ht : r'.encTrailer o f.cfg = [] := by
      show (if f.cfg.sampleIdAll && (1#32 != 1#32) && (1#32 != 9#32) then _ else _) = _
      simp
    have hz : r'.size o f.cfg = r.sizeAll o f.cfg := by
      unfold KRecord.size KRecord.sizeAll
      rw [ht]
      show 8 + (r.body.enc o f.cfg ++ r.encTrailerAll o f.cfg).length + 0 = _
      rw [List.length_append]
      omega
    have he : r'.enc o f.cfg = r.encAll o f.cfg := by
      unfold KRecord.enc KRecord.encAll
      rw [hz, ht, h1]
      show e32 o 1#32 ++ e16 o r.misc ++ e16 o _ ++ (r.body.enc o f.cfg ++ r.encTrailerAll o f.cfg) ++ [] = _
      simp only [List.append_assoc, List.append_nil]
    obtain ⟨_, h3, h4, _⟩ := P.record_frame hp hs r' (by rw [hz]; exact hsize) (by rw [he]; exact hb) pairVisitor
    rw [he] at h4
    refine ⟨h4, fun _ hd => ?_⟩
    obtain ⟨b, hv, hd⟩ := hd
    rw [hd] at h3
    rcases h3.2 with ⟨a, _, ha⟩ | ⟨e, he, _⟩
    · have hm := (pairVisitor_inv ha.symm).1
      have hsid := congrArg Metadata.sampleId hm
      unfold KRecord.encTrailerAll
      split
      · next htr =>
        simp only [KRecord.metadataAll, htr, if_true] at hsid
        refine KTrailer.enc_nil_of (hsid.trans ?_)
        show (if f.cfg.sampleIdAll && (1#32 != 1#32) && (1#32 != 9#32) then _ else _) = _
        simp
      · rfl
    · cases he
  · obtain ⟨e1, e2, e3⟩ := KRecord.all_eq (o := o) (cfg := f.cfg) (r := r) fun h => absurd h h1
    rw [e1] at hb ⊢
    exact ⟨(P.record_frame hp hs r (by rw [← e2]; exact hsize) hb pairVisitor).2.2.1, fun h => absurd h h1⟩

/-! ## TEXT_POKE -/

/-- The record with the split left as it is in the code, for any visitor. -/
theorem P.visit_poke (hp : RepP p f) (hs : Src f.cfg o) (misc : U16) (t : KTrailer) (addr : U64) (old new pad : List Byte)
    (hpad : pad.length < 8) (h8 : (old.length + new.length + pad.length) % 8 = 4)
    (hsize : (KRecord.mk misc (.textPoke addr old new pad) t).size o f.cfg < 65536)
    (hb : f.s.bytes = (KRecord.mk misc (.textPoke addr old new pad) t).enc o f.cfg ++ tl) {O : Type} (v : Visitor Cow O) :
    ∃ c x y : Cow Byte, c.data = old ++ new ++ pad ∧ c.splitAt old.length = some (x, y) ∧
      (P.record v p).res = v.apply (.textPoke ⟨addr, x, y.truncate new.length⟩)
        ((KRecord.mk misc (.textPoke addr old new pad) t).metadata f.cfg) := by
  have he : (KRecord.mk misc (.other 20 ((KBody.textPoke addr old new pad).enc o f.cfg)) t).enc o f.cfg =
      (KRecord.mk misc (.textPoke addr old new pad) t).enc o f.cfg := rfl
  have hz : (KRecord.mk misc (.other 20 ((KBody.textPoke addr old new pad).enc o f.cfg)) t).size o f.cfg =
      (KRecord.mk misc (.textPoke addr old new pad) t).size o f.cfg := rfl
  obtain ⟨c, hm, hc, _⟩ := c54_metadata hp hs 20 misc ((KBody.textPoke addr old new pad).enc o f.cfg) t (by rw [hz]; exact hsize)
    (by rw [he]; exact hb)
  have hbody := P.record_body p v hm
  have hlen : (KBody.textPoke addr old new pad).enc o f.cfg = e64 o addr ++ e16 o (BitVec.ofNat 16 old.length) ++
      e16 o (BitVec.ofNat 16 new.length) ++ (old ++ new ++ pad) := rfl
  have hsz : old.length + new.length < 65536 := by
    unfold KRecord.size at hsize
    simp only [hlen, List.length_append] at hsize
    omega
  have hq := hc.withMisc rfl misc
  obtain ⟨d, x, y, h1, h2, h3⟩ := P.textPoke_split (tl := []) hq (hs.withMisc misc) addr old new pad hpad h8 (by omega) (by omega)
    (by rw [List.append_nil]; rfl)
  refine ⟨d, x, y, h1, h2, ?_⟩
  have h4 : ((parseBody 20#32 : P (Tracking Cursor) (Record Cow)) (Parser.new c.data (c.config.withMisc misc))).res =
      .ok (.textPoke ⟨addr, x, y.truncate new.length⟩) := by
    show (((do let r ← parseTextPoke; pure (.textPoke r)) : P (Tracking Cursor) (Record Cow)) _).res = _
    rw [P.bind_ok (P.run_eq _ h3)]
    rfl
  simp only [show (parseBody 20 : P (Tracking Cursor) (Record Cow)) = parseBody 20#32 from rfl, h4] at hbody
  exact hbody

/-- In memory every poke is delivered. -/
theorem P.poke_memory {F : List Byte → β → Prop} (h : OneBuf F) {d : List Byte} (hF : F d p.data.buf) (hp : RepP p f) (hs : Src f.cfg o) (misc : U16) (t : KTrailer) (addr : U64)
    (old new pad : List Byte) (hpad : pad.length < 8) (h8 : (old.length + new.length + pad.length) % 8 = 4)
    (hsize : (KRecord.mk misc (.textPoke addr old new pad) t).size o f.cfg < 65536)
    (hb : f.s.bytes = (KRecord.mk misc (.textPoke addr old new pad) t).enc o f.cfg ++ tl) :
    ∃ a : Record Cow, a.view = .textPoke ⟨addr, old, new⟩ ∧ (P.record pairVisitor p).res =
      .ok (a, (KRecord.mk misc (.textPoke addr old new pad) t).metadata f.cfg) := by
  obtain ⟨c, x, y, h1, h2, h3⟩ := P.visit_poke hp hs misc t addr old new pad hpad h8 hsize hb pairVisitor
  refine ⟨_, ?_, h3⟩
  obtain ⟨a, md, hall, ha⟩ := h.record d pairVisitor hF h3
  have hinv := (pairVisitor_inv ha).2
  have hx : ∃ dx, x = .borrowed dx := by
    cases a <;> cases ha
    obtain ⟨⟨dx, hx, _⟩, _⟩ := hall
    exact ⟨dx, hx⟩
  have hy : ∃ dy, y = .borrowed dy := by
    cases a <;> cases ha
    obtain ⟨_, dy, hy, _⟩ := hall
    exact (c41_truncate y new.length).2.mpr ⟨dy, hy⟩
  have hd : x.data = old ∧ y.data = new ++ pad := by
    cases c with
    | borrowed d =>
      have h := Cow.splitAt_borrowed h2 rfl
      rw [h1, List.append_assoc, List.take_left, List.drop_left] at h
      exact h
    | owned d =>
      obtain ⟨dx, rfl⟩ := hx
      obtain ⟨dy, rfl⟩ := hy
      unfold Cow.splitAt at h2
      simp only at h2
      split at h2
      · cases h2
      · split at h2
        · cases h2
        · split at h2 <;> cases h2
  show Record.textPoke ⟨addr, x.data, (y.truncate new.length).data⟩ = _
  rw [(c41_truncate y new.length).1, hd.1, hd.2, List.take_left]

/-- In temporary data the body of a poke is copied before it is split. -/
theorem Piped.textPoke {g : Flat} (hs : Src g.cfg o) (addr : U64) (old new pad : List Byte)
    (hp : pad.length < 8) (hm : (old.length + new.length + pad.length) % 8 = 4) (ho : old.length < 65536)
    (hn : new.length < 65536)
    (hb : g.s.bytes = e64 o addr ++ (e16 o (BitVec.ofNat 16 old.length) ++ (e16 o (BitVec.ofNat 16 new.length) ++
      (old ++ new ++ pad)))) :
    ∃ x y f', Cow.splitAt (.owned (old ++ new ++ pad)) old.length = some (x, y) ∧
      (parseTextPoke : Piped (TextPoke Cow)) g = .ok (⟨addr, x, y.truncate new.length⟩, f') := by
  have hl : roundUpMod (old.length + new.length) 4 8 = (old ++ new ++ pad).length := by
    unfold roundUpMod
    simp only [List.length_append]
    split <;> omega
  have hpos : 0 < (old ++ new ++ pad).length := by simp only [List.length_append]; omega
  have l64 := e64_length o addr
  have l16 := e16_length o (BitVec.ofNat 16 old.length)
  have l16' := e16_length o (BitVec.ofNat 16 new.length)
  have t64 : g.s.bytes.take 8 = e64 o addr := by rw [hb, ← l64, List.take_left]
  have r1 : (parseU64 : Piped U64) g = .ok (addr, g.adv 8) := by
    rw [show (parseU64 : Piped U64) g = .ok (g.cfg.endian.conv64 (g.s.bytes.take 8), g.adv 8) from
      Piped.bind_run (Piped.array_run (by rw [hb, List.length_append]; omega) (by decide)), t64, hs.conv64]
  have b1 : (g.adv 8).s.bytes = e16 o (BitVec.ofNat 16 old.length) ++ (e16 o (BitVec.ofNat 16 new.length) ++ (old ++ new ++ pad)) := by
    rw [Flat.adv_bytes, hb, ← l64, List.drop_left]
  have r2 : (parseU16 : Piped U16) (g.adv 8) = .ok (BitVec.ofNat 16 old.length, (g.adv 8).adv 2) := by
    rw [Piped.u16_run (by rw [b1, List.length_append]; omega), b1, ← l16, List.take_left]
    rw [show (g.adv 8).cfg = g.cfg from rfl, hs.conv16, l16]
  have b2 : ((g.adv 8).adv 2).s.bytes = e16 o (BitVec.ofNat 16 new.length) ++ (old ++ new ++ pad) := by
    rw [Flat.adv_bytes, b1, ← l16, List.drop_left]
  have r3 : (parseU16 : Piped U16) ((g.adv 8).adv 2) = .ok (BitVec.ofNat 16 new.length, ((g.adv 8).adv 2).adv 2) := by
    rw [Piped.u16_run (by rw [b2, List.length_append]; omega), b2, List.take_left' l16']
    rw [show ((g.adv 8).adv 2).cfg = g.cfg from rfl, hs.conv16]
  have b3 : (((g.adv 8).adv 2).adv 2).s.bytes = old ++ new ++ pad := by
    rw [Flat.adv_bytes, b2, ← l16', List.drop_left]
  have r4 : (ParserM.bytes (old ++ new ++ pad).length : Piped (Cow Byte)) (((g.adv 8).adv 2).adv 2) =
      .ok (.owned (old ++ new ++ pad), (((g.adv 8).adv 2).adv 2).adv (old ++ new ++ pad).length) := by
    refine (Piped.bind_run (Piped.array_run (by rw [b3]; exact Nat.le_refl _) hpos)).trans ?_
    rw [b3, List.take_length]
    rfl
  have hsp : ∃ x y, Cow.splitAt (.owned (old ++ new ++ pad)) old.length = some (x, y) := by
    have hle : old.length ≤ (old ++ new ++ pad).length := by simp only [List.length_append]; omega
    generalize old ++ new ++ pad = d at hle
    show ∃ x y, (if old.length = 0 then some (Cow.owned d, Cow.borrowed [])
        else if old.length = d.length then some (Cow.borrowed [], Cow.owned d)
        else if old.length ≤ d.length then some (Cow.owned (d.take old.length), Cow.owned (d.drop old.length)) else none) =
          some (x, y)
    by_cases a : old.length = 0
    · exact ⟨_, _, if_pos a⟩
    · rw [if_neg a]
      by_cases b : old.length = d.length
      · exact ⟨_, _, if_pos b⟩
      · rw [if_neg b]
        exact ⟨_, _, if_pos hle⟩
  obtain ⟨x, y, hxy⟩ := hsp
  refine ⟨x, y, (((g.adv 8).adv 2).adv 2).adv (old ++ new ++ pad).length, hxy, ?_⟩
  unfold parseTextPoke
  rw [Piped.bind_run r1, Piped.bind_run r2, Piped.bind_run r3, toNat_ofNat_lt (show old.length < 2 ^ 16 from ho),
    toNat_ofNat_lt (show new.length < 2 ^ 16 from hn), hl, Piped.bind_run r4]
  have hcs : ∀ st : Flat, (ParserM.cowSplitAt (Cow.owned (old ++ new ++ pad)) old.length : Piped (Cow Byte × Cow Byte)) st = .ok ((x, y), st) := by
    intro st
    simp only [ParserM.cowSplitAt, hxy]
    rfl
  rw [Piped.bind_run (hcs _)]
  rfl

/-- A poke that came in temporary data: what is returned. -/
theorem P.poke_temporary (hp : RepP p f) (ht : f.s.al = .temp) (hs : Src f.cfg o) (misc : U16) (t : KTrailer) (addr : U64)
    (old new pad : List Byte) (hpad : pad.length < 8) (h8 : (old.length + new.length + pad.length) % 8 = 4)
    (hsize : (KRecord.mk misc (.textPoke addr old new pad) t).size o f.cfg < 65536)
    (hb : f.s.bytes = (KRecord.mk misc (.textPoke addr old new pad) t).enc o f.cfg ++ tl) :
    ∃ tp : TextPoke Cow, (P.record pairVisitor p).res =
        .ok (.textPoke tp, (KRecord.mk misc (.textPoke addr old new pad) t).metadata f.cfg) ∧ tp.addr = addr ∧
      (tp.oldBytes.data, tp.newBytes.data) =
        if old = [] then (new ++ pad, []) else if new ++ pad = [] then ([], []) else (old, new) := by
  generalize hr : KRecord.mk misc (.textPoke addr old new pad) t = r at *
  have hlen : (r.enc o f.cfg).length = r.size o f.cfg := r.enc_length
  have hs8 : 8 ≤ r.size o f.cfg := by unfold KRecord.size; omega
  have hb8 : (f.adv 8).s.bytes = r.body.enc o f.cfg ++ r.encTrailer o f.cfg ++ tl := by
    have e := KRecord.all_eq (o := o) (cfg := f.cfg) (r := r) (by rw [← hr]; intro h; exact absurd (show 20#32 = 1#32 from h) (by decide))
    have := encAll_body (f := f) (o := o) (tl := tl) r (by rw [e.1]; exact hb)
    rw [this]
    have h1 := e.1
    have h2 := e.2.1
    unfold KRecord.encAll KRecord.enc at h1
    rw [h2] at h1
    rw [List.append_cancel_left h1]
  obtain ⟨f', hm⟩ := metadata_enc (f := f.adv 8) hs r hsize hb8
  simp only [Flat.adv_cfg] at hm
  rw [(c86_temporary hp ht pairVisitor).1, Piped.record_run _ (by rw [hb, List.length_append, hlen]; omega),
    headerAt_enc hs r hb]
  unfold Piped.result Piped.recordWithHeader
  rw [hm]
  dsimp only
  have hsz : old.length + new.length < 65536 := by
    unfold KRecord.size at hsize
    rw [← hr] at hsize
    simp only [KBody.enc, List.length_append] at hsize
    omega
  obtain ⟨x, y, g, hxy, hrun⟩ := Piped.textPoke (g := ((f.adv 8).region (r.body.enc o f.cfg).length).withMisc r.misc)
    (hs.withMisc r.misc) addr old new pad hpad h8 (by omega) (by omega) (by
      show (f.adv 8).s.bytes.take _ = _
      rw [hb8, List.append_assoc, List.take_left, ← hr]
      simp only [KBody.enc, List.append_assoc])
  have hbody : (parseBody (r.metadata f.cfg).ty : Piped (Record Cow))
      (((f.adv 8).region (r.body.enc o f.cfg).length).withMisc (r.metadata f.cfg).misc) =
      .ok (.textPoke ⟨addr, x, y.truncate new.length⟩, g) := by
    rw [show (r.metadata f.cfg).ty = 20#32 by rw [← hr]; rfl]
    show ((do let r ← parseTextPoke; pure (.textPoke r)) : Piped (Record Cow)) _ = _
    exact Piped.bind_run hrun
  rw [hbody]
  refine ⟨_, rfl, rfl, ?_⟩
  simp only
  rw [(c41_truncate y new.length).1]
  rw [List.append_assoc] at hxy
  unfold Cow.splitAt at hxy
  simp only [List.length_eq_zero_iff] at hxy
  split at hxy
  · next h => subst h; cases hxy; rw [if_pos rfl]; simp [Cow.data]
  · next h =>
    rw [if_neg h]
    split at hxy
    · next h' =>
      have : new ++ pad = [] := by
        rw [List.length_append (as := old)] at h'
        exact List.length_eq_zero_iff.mp (by omega)
      cases hxy
      rw [if_pos this, (List.append_eq_nil_iff.mp this).1]
      rfl
    · next h' =>
      rw [if_pos (by rw [List.length_append (as := old)]; omega)] at hxy
      cases hxy
      rw [if_neg (by intro hh; apply h'; rw [hh, List.append_nil])]
      simp only [Cow.data, List.take_left, List.drop_left]

/-! ## C87 -/

/-- What decides for records other than TEXT_POKE. -/
theorem P.delivered_iff (hp : RepP p f) (hs : Src f.cfg o) (r : KRecord) (hw : r.body.Written f.cfg r.misc)
    (hst : r.body.StackAligned f.cfg) (hsize : r.sizeAll o f.cfg < 65536)
    (hal : f.cfg.endian.isNative = true → AlMod f.s.al 0) (hb : f.s.bytes = r.encAll o f.cfg ++ tl) (copied : Bool)
    (hpoke : ∀ addr old new pad, r.body = .textPoke addr old new pad →
      (r.DeliveredBy f.cfg (P.record pairVisitor p).res ↔ r.body.Announced copied f.cfg)) :
    r.DeliveredBy f.cfg (P.record pairVisitor p).res ↔ r.Readable copied o f.cfg := by
  rcases Classical.em (r.body.type = 1#32 → r.encTrailerAll o f.cfg = []) with ht | ht
  case inr =>
    exact ⟨fun h => absurd (fun h1 => (P.record_behind hp hs r hsize hb).2 h1 h) ht, fun h => absurd h.noTrailer ht⟩
  obtain ⟨e1, e2, e3⟩ := KRecord.all_eq (o := o) (cfg := f.cfg) ht
  have hb1 := hb
  have hsize1 := hsize
  rw [e1] at hb1
  rw [e2] at hsize1
  by_cases hk : ∃ addr old new pad, r.body = .textPoke addr old new pad
  · obtain ⟨addr, old, new, pad, hk⟩ := hk
    rw [hpoke _ _ _ _ hk]
    exact ⟨fun h => ⟨by rw [hk]; trivial, h, ht⟩, fun h => h.announced⟩
  have hann : r.body.Announced copied f.cfg ↔ r.body.Announced true f.cfg := by
    cases h : r.body <;> first | exact Iff.rfl | exact absurd ⟨_, _, _, _, h⟩ hk
  by_cases ha : r.body.Announced true f.cfg
  · obtain ⟨j1, j2⟩ := P.record_judged hp hs r hw hst ha hsize1 hal hb1 pairVisitor
    by_cases he : r.body.EndFull o f.cfg
    · obtain ⟨a, hv, hr⟩ := j1 he
      obtain ⟨b, h1, h2⟩ := pairVisitor_value hv (md := r.metadata f.cfg) rfl
      refine ⟨fun _ => ⟨he, hann.mpr ha, ht⟩, fun _ => ⟨b, h2, ?_⟩⟩
      rw [hr, h1, e3]
    · refine ⟨fun h => ?_, fun h => absurd h.endFull he⟩
      obtain ⟨a, _, h⟩ := h
      rw [j2 he] at h
      cases h
  · refine ⟨fun h => absurd ?_ ha, fun h => absurd (hann.mp h.announced) ha⟩
    obtain ⟨m, b, t⟩ := r
    cases b <;> first | trivial | exact absurd ⟨_, _, _, _, rfl⟩ hk | skip
    exact P.sample_announced hp hs m _ t hw hsize1 hb1 h

/-- **C87** Through a reader: any record the kernel writes is delivered if and only if it is one of those described by
`KRecord.Readable`. -/
theorem c87_reader (hp : RepP p f) (ht : f.s.al = .temp) (hs : Src f.cfg o) (r : KRecord) (hw : r.body.Written f.cfg r.misc)
    (hst : r.body.StackAligned f.cfg) (hsize : r.sizeAll o f.cfg < 65536) (hb : f.s.bytes = r.encAll o f.cfg ++ tl) :
    r.DeliveredBy f.cfg (P.record pairVisitor p).res ↔ r.Readable true o f.cfg := by
  refine P.delivered_iff hp hs r hw hst hsize (fun _ => by rw [ht]; trivial) hb true fun addr old new pad hk => ?_
  obtain ⟨m, b, t⟩ := r
  subst hk
  obtain ⟨e1, e2, e3⟩ := KRecord.all_eq (o := o) (cfg := f.cfg) (r := ⟨m, .textPoke addr old new pad, t⟩)
    fun h => absurd (show 20#32 = 1#32 from h) (by decide)
  rw [e1] at hb
  rw [e2] at hsize
  obtain ⟨tp, h1, h2, h3⟩ := P.poke_temporary hp ht hs m t addr old new pad hw.1 hw.2 hsize hb
  unfold KRecord.DeliveredBy
  rw [h1, e3]
  show _ ↔ (true = true → old ≠ [] ∧ new ++ pad ≠ [])
  obtain ⟨ta, to, tn⟩ := tp
  simp only at h2 h3
  have h8 := hw.2
  constructor
  · rintro ⟨a, hv, ha⟩ _
    cases ha
    have hv' : Record.textPoke ⟨ta, to.data, tn.data⟩ = Record.textPoke ⟨addr, old, new⟩ := hv
    simp only [Record.textPoke.injEq, TextPoke.mk.injEq] at hv'
    rw [hv'.2.1, hv'.2.2] at h3
    refine ⟨fun h0 => ?_, fun h0 => ?_⟩
    · rw [if_pos h0] at h3
      have hn := congrArg Prod.snd h3
      have ho := congrArg Prod.fst h3
      simp only at hn ho
      rw [h0] at ho
      have := (List.append_eq_nil_iff.mp ho.symm)
      rw [h0, this.1, this.2] at h8
      exact absurd h8 (by decide)
    · by_cases h1 : old = []
      · rw [h1, (List.append_eq_nil_iff.mp h0).1, (List.append_eq_nil_iff.mp h0).2] at h8
        exact absurd h8 (by decide)
      · rw [if_neg h1, if_pos h0] at h3
        exact h1 (congrArg Prod.fst h3)
  · intro h
    rw [if_neg (h rfl).1, if_neg (h rfl).2] at h3
    refine ⟨_, ?_, rfl⟩
    show Record.textPoke ⟨ta, to.data, tn.data⟩ = Record.textPoke ⟨addr, old, new⟩
    rw [h2, show to.data = old from congrArg Prod.fst h3, show tn.data = new from congrArg Prod.snd h3]

/-- **C87** In memory (data handed out as one piece), at an address divisible by 8 if the byte order is the host's. -/
theorem c87_memory {F : List Byte → β → Prop} (h : OneBuf F) (hF : OneP F p) (hp : RepP p f) (hs : Src f.cfg o) (r : KRecord)
    (hw : r.body.Written f.cfg r.misc) (hst : r.body.StackAligned f.cfg) (hsize : r.sizeAll o f.cfg < 65536)
    (hal : f.cfg.endian.isNative = true → AlMod f.s.al 0) (hb : f.s.bytes = r.encAll o f.cfg ++ tl) :
    r.DeliveredBy f.cfg (P.record pairVisitor p).res ↔ r.Readable false o f.cfg := by
  refine P.delivered_iff hp hs r hw hst hsize hal hb false fun addr old new pad hk => ?_
  obtain ⟨m, b, t⟩ := r
  subst hk
  obtain ⟨e1, e2, e3⟩ := KRecord.all_eq (o := o) (cfg := f.cfg) (r := ⟨m, .textPoke addr old new pad, t⟩)
    fun h => absurd (show 20#32 = 1#32 from h) (by decide)
  rw [e1] at hb
  rw [e2] at hsize
  obtain ⟨d, hF⟩ := hF
  obtain ⟨a, h1, h2⟩ := P.poke_memory h hF hp hs m t addr old new pad hw.1 hw.2 hsize hb
  exact ⟨fun _ hc => absurd hc (by decide), fun _ => ⟨a, h1, by rw [h2, e3]⟩⟩

/-- **C87** Delivered or not, the parser goes on at the next record. -/
theorem c87_behind (hp : RepP p f) (hs : Src f.cfg o) (r : KRecord) (hsize : r.sizeAll o f.cfg < 65536)
    (hb : f.s.bytes = r.encAll o f.cfg ++ tl) :
    RepP (P.record pairVisitor p).st (f.adv (r.encAll o f.cfg).length) := (P.record_behind hp hs r hsize hb).1

/-- **C87** A record that is not read only because it ends in an empty part is reported as an error, not changed: `UnexpectedEof`. -/
theorem c87_error (hp : RepP p f) (hs : Src f.cfg o) (r : KRecord) (hw : r.body.Written f.cfg r.misc)
    (hst : r.body.StackAligned f.cfg) (hsize : r.sizeAll o f.cfg < 65536)
    (hal : f.cfg.endian.isNative = true → AlMod f.s.al 0) (hb : f.s.bytes = r.encAll o f.cfg ++ tl)
    (ha : r.body.Announced true f.cfg) (ht : r.body.type = 1#32 → r.encTrailerAll o f.cfg = []) (he : ¬ r.body.EndFull o f.cfg)
    {O : Type} (v : Visitor Cow O) : (P.record v p).res = .error (.err .eof) := by
  obtain ⟨e1, e2, e3⟩ := KRecord.all_eq (o := o) (cfg := f.cfg) ht
  rw [e1] at hb
  rw [e2] at hsize
  exact (P.record_judged hp hs r hw hst ha hsize hal hb v).2 he

/-! ## Whole streams -/

/-- What is assumed of a record: it is one the kernel writes and fits the size field. -/
structure KRecord.Fits (o : Order) (cfg : ParseConfig) (r : KRecord) : Prop where
  written : r.body.Written cfg r.misc
  stack : r.body.StackAligned cfg
  size : r.sizeAll o cfg < 65536

/-- In a list of results each record of a stream is delivered exactly if it is readable. -/
def Judged (copied : Bool) (o : Order) (cfg : ParseConfig) (rs : List KRecord) (res : List (Except Fault (Record Cow × Metadata))) : Prop :=
  res.length = rs.length ∧ ∀ (i : Nat) (r : KRecord), rs[i]? = some r → ∃ x, res[i]? = some x ∧ (r.DeliveredBy cfg x ↔ r.Readable copied o cfg)

theorem Judged.cons {copied : Bool} {r : KRecord} {rs : List KRecord} {x : Except Fault (Record Cow × Metadata)}
    {res : List (Except Fault (Record Cow × Metadata))} (h : r.DeliveredBy cfg x ↔ r.Readable copied o cfg)
    (hr : Judged copied o cfg rs res) : Judged copied o cfg (r :: rs) (x :: res) := by
  refine ⟨by rw [List.length_cons, List.length_cons, hr.1], fun i r' hi => ?_⟩
  cases i with
  | zero => cases hi; exact ⟨x, rfl, h⟩
  | succ i => exact hr.2 i r' hi

/-- **C87** A reader over a stream of records: the `i`-th call delivers the `i`-th record if and only if it is readable, whatever
happened to the records before it. -/
theorem c87_reader_stream (rs : List KRecord) {p : Parser β} {f : Flat} (hp : RepP p f) (ht : f.s.al = .temp) (hs : Src f.cfg o)
    (hw : ∀ r ∈ rs, r.Fits o f.cfg) (hb : f.s.bytes = rs.flatMap (fun r => r.encAll o f.cfg) ++ tl) :
    Judged true o f.cfg rs (visitMany pairVisitor rs.length p).1 ∧
    RepP (visitMany pairVisitor rs.length p).2 (f.adv (rs.flatMap (fun r => r.encAll o f.cfg)).length) := by
  induction rs generalizing p f with
  | nil => exact ⟨⟨rfl, fun i r h => by simp at h⟩, (Flat.adv_zero f).symm ▸ hp⟩
  | cons r rs ih =>
    rw [List.flatMap_cons, List.append_assoc] at hb
    have hr := hw r List.mem_cons_self
    have h1 := c87_reader hp ht hs r hr.written hr.stack hr.size hb
    have h2 := c87_behind hp hs r hr.size hb
    have h3 := ih (f := f.adv (r.encAll o f.cfg).length) h2 (by show f.s.al.add _ = _; rw [ht]; rfl) hs
      (fun r' hr' => hw r' (List.mem_cons_of_mem _ hr')) (by rw [Flat.adv_bytes, hb, List.drop_left]; rfl)
    refine ⟨h3.1.cons h1, ?_⟩
    rw [List.flatMap_cons, List.length_append, ← Flat.adv_adv]
    exact h3.2

/-- **C87** The same in memory, where the records are multiples of 8 bytes long if the byte order is the host's. -/
theorem c87_memory_stream {F : List Byte → β → Prop} (h : OneBuf F) (rs : List KRecord) {p : Parser β} {f : Flat} (hF : OneP F p)
    (hp : RepP p f) (hs : Src f.cfg o) (hal : f.cfg.endian.isNative = true → AlMod f.s.al 0)
    (hz : f.cfg.endian.isNative = true → ∀ r ∈ rs, r.sizeAll o f.cfg % 8 = 0)
    (hw : ∀ r ∈ rs, r.Fits o f.cfg) (hb : f.s.bytes = rs.flatMap (fun r => r.encAll o f.cfg) ++ tl) :
    Judged false o f.cfg rs (visitMany pairVisitor rs.length p).1 ∧
    RepP (visitMany pairVisitor rs.length p).2 (f.adv (rs.flatMap (fun r => r.encAll o f.cfg)).length) := by
  induction rs generalizing p f with
  | nil => exact ⟨⟨rfl, fun i r h => by simp at h⟩, (Flat.adv_zero f).symm ▸ hp⟩
  | cons r rs ih =>
    rw [List.flatMap_cons, List.append_assoc] at hb
    have hr := hw r List.mem_cons_self
    have h1 := c87_memory h hF hp hs r hr.written hr.stack hr.size hal hb
    have h2 := c87_behind hp hs r hr.size hb
    have h3 := ih (f := f.adv (r.encAll o f.cfg).length) (Inv.record h.stableP pairVisitor p hF).1 h2 hs
      (fun hn => ((hal hn).add _).congr (by rw [KRecord.encAll_length]; have := hz hn r List.mem_cons_self; omega))
      (fun hn r' hr' => hz hn r' (List.mem_cons_of_mem _ hr'))
      (fun r' hr' => hw r' (List.mem_cons_of_mem _ hr')) (by rw [Flat.adv_bytes, hb, List.drop_left]; rfl)
    refine ⟨h3.1.cons h1, ?_⟩
    rw [List.flatMap_cons, List.length_append, ← Flat.adv_adv]
    exact h3.2

/-- All are delivered if and only if all are readable. -/
theorem Judged.all {copied : Bool} {rs : List KRecord} {res : List (Except Fault (Record Cow × Metadata))} (h : Judged copied o cfg rs res) :
    (∀ (i : Nat) (r : KRecord), rs[i]? = some r → ∃ x, res[i]? = some x ∧ r.DeliveredBy cfg x) ↔ ∀ r ∈ rs, r.Readable copied o cfg := by
  constructor
  · intro hd r hr
    obtain ⟨i, hi⟩ := List.mem_iff_getElem?.mp hr
    obtain ⟨x, hx, hd⟩ := hd i r hi
    obtain ⟨y, hy, hj⟩ := h.2 i r hi
    rw [hx] at hy
    cases hy
    exact hj.mp hd
  · intro hr i r hi
    obtain ⟨y, hy, hj⟩ := h.2 i r hi
    exact ⟨y, hy, hj.mpr (hr r (List.mem_of_getElem? hi))⟩

omit [Lawful β] [ParseBuf β] in
/-- **C87** The sufficient condition of C10 and C17 is implied. -/
theorem c87_ok {r : KRecord} (h : r.body.Ok o cfg r.misc) (ht : r.body.type = 1#32 → r.encTrailerAll o cfg = []) (copied : Bool) :
    r.Readable copied o cfg := by
  refine ⟨?_, ?_, ht⟩
  · cases hb : r.body <;> rw [hb] at h <;> first | trivial | exact h | exact h.2 | exact h.2.2 | exact h.1 | skip
    exact ⟨fun a b => h.endValues b a, fun a b => h.endCallchain b a, fun a b => h.endLbr b a, fun a b => h.endRegsUser b a, h.endStack,
      fun a b => h.endRegsIntr b a, h.endAux⟩
  · cases hb : r.body <;> rw [hb] at h <;> first | trivial | exact fun _ => ⟨h.1, h.2.1⟩ | skip
    exact ⟨fun hc => absurd hc (by rw [h.weightStruct]; decide), fun a b => absurd b (h.regsUserAbi a), fun a b => absurd b (h.regsIntrAbi a)⟩

/-- **C87** For a slice: a whole recording is delivered, record for record, if and only if each of its records is readable. -/
theorem c87_slice (a : Nat) (rs : List KRecord) (hwf : cfg.Wf) (hs : Src cfg o) (ha : cfg.endian.isNative = true → a % 8 = 0)
    (hz : cfg.endian.isNative = true → ∀ r ∈ rs, r.sizeAll o cfg % 8 = 0) (hw : ∀ r ∈ rs, r.Fits o cfg) (tl : List Byte) :
    (∀ (i : Nat) (r : KRecord), rs[i]? = some r → ∃ x, (visitMany pairVisitor rs.length
        (Parser.new (⟨a, rs.flatMap (fun r => r.encAll o cfg) ++ tl⟩ : Slice) cfg)).1[i]? = some x ∧ r.DeliveredBy cfg x) ↔
      ∀ r ∈ rs, r.Readable false o cfg :=
  Judged.all (c87_memory_stream (tl := tl) OneBuf.slice rs (p := Parser.new (⟨a, _⟩ : Slice) cfg) (f := .here a _ cfg) ⟨_, rfl⟩
    (RepP.slice a _ hwf) hs (fun hn => ha hn) hz hw rfl).1

/-- **C87** For a reader, in whatever portions it delivers the bytes. -/
theorem c87_script (es : List ReadEvent) (rs : List KRecord) (hwf : cfg.Wf) (hs : Src cfg o) (hw : ∀ r ∈ rs, r.Fits o cfg) (tl : List Byte)
    (hb : scriptBytes es = rs.flatMap (fun r => r.encAll o cfg) ++ tl) :
    (∀ (i : Nat) (r : KRecord), rs[i]? = some r → ∃ x, (visitMany pairVisitor rs.length (Parser.new (⟨[], es⟩ : BufReader) cfg)).1[i]? = some x ∧
        r.DeliveredBy cfg x) ↔
      ∀ r ∈ rs, r.Readable true o cfg :=
  Judged.all (c87_reader_stream rs (RepP.reader es hwf) rfl hs hw hb).1

/-! ## A recording -/

/-- LOST, COMM with a name of no bytes, SWITCH, an insertion, LOST. -/
def demoJudged : List KRecord :=
  [⟨0, .lost ⟨7, 3⟩, ⟨0, 0, 0, 0, 0, 0, 0, 0⟩⟩, ⟨0, .comm 1 2 ⟨[], 0⟩, ⟨0, 0, 0, 0, 0, 0, 0, 0⟩⟩,
   ⟨0, .switch, ⟨0, 0, 0, 0, 0, 0, 0, 0⟩⟩, ⟨0, .textPoke 9 [] [1, 2, 3, 4] [], ⟨0, 0, 0, 0, 0, 0, 0, 0⟩⟩,
   ⟨0, .lost ⟨8, 4⟩, ⟨0, 0, 0, 0, 0, 0, 0, 0⟩⟩]

theorem demoJudged_fits : (∀ r ∈ demoJudged, r.Fits .little demoCfg) ∧ ∀ r ∈ demoJudged, r.sizeAll .little demoCfg % 8 = 0 := by
  refine ⟨fun r hr => ?_, by decide +kernel⟩
  simp only [demoJudged, List.mem_cons, List.not_mem_nil, or_false] at hr
  rcases hr with rfl | rfl | rfl | rfl | rfl
  · exact ⟨trivial, trivial, by decide +kernel⟩
  · exact ⟨nofun, trivial, by decide +kernel⟩
  · exact ⟨trivial, trivial, by decide +kernel⟩
  · exact ⟨⟨by decide, by decide⟩, trivial, by decide +kernel⟩
  · exact ⟨trivial, trivial, by decide +kernel⟩

/-- The hypotheses of `c87_slice` and `c87_script` hold for it. -/
example : demoCfg.Wf ∧ Src demoCfg .little ∧ (∀ r ∈ demoJudged, r.Fits .little demoCfg) ∧ (∀ r ∈ demoJudged, r.sizeAll .little demoCfg % 8 = 0) :=
  ⟨demoCfg_wf, Src.little _ _, demoJudged_fits.1, demoJudged_fits.2⟩

/-- What is seen of a result: the poked bytes, nothing for a LOST, the error. -/
def seen : Except Fault (Record Cow × Metadata) → Option (Option (List Byte × List Byte))
  | .ok (.textPoke r, _) => some (some (r.oldBytes.data, r.newBytes.data))
  | .ok (.lost _, _) => some none
  | _ => none

/-- **C87** Of these five records a slice delivers the first and the last two; a reader hands over the insertion as a deletion. -/
theorem c87_example :
    (visitMany pairVisitor 5 (Parser.new (⟨0, demoJudged.flatMap (fun r => r.encAll .little demoCfg)⟩ : Slice) demoCfg)).1.map seen =
      [some none, none, none, some (some ([], [1, 2, 3, 4])), some none] ∧
    (visitMany pairVisitor 5 (Parser.new (⟨[], [.data (demoJudged.flatMap (fun r => r.encAll .little demoCfg))]⟩ : BufReader) demoCfg)).1.map
        seen =
      [some none, none, none, some (some ([1, 2, 3, 4], [])), some none] := by decide +kernel

/-- In terms of the condition: the first and the last are readable, the second and the third are not, the insertion only in memory. -/
example : (demoJudged[0]'(by decide)).Readable true .little demoCfg ∧ ¬ (demoJudged[1]'(by decide)).Readable false .little demoCfg ∧
    ¬ (demoJudged[2]'(by decide)).Readable false .little demoCfg ∧ (demoJudged[3]'(by decide)).Readable false .little demoCfg ∧
    ¬ (demoJudged[3]'(by decide)).Readable true .little demoCfg ∧ (demoJudged[4]'(by decide)).Readable true .little demoCfg :=
  ⟨⟨trivial, trivial, fun h => absurd (show 2#32 = 1#32 from h) (by decide)⟩, fun h => h.endFull rfl, fun h => h.endFull,
    ⟨trivial, fun h => absurd h (by decide), fun h => absurd (show 20#32 = 1#32 from h) (by decide)⟩,
    fun h => (h.announced rfl).1 rfl, ⟨trivial, trivial, fun h => absurd (show 2#32 = 1#32 from h) (by decide)⟩⟩

/-- The hypotheses of `c87_error`. -/
example : (demoJudged[1]'(by decide)).body.Announced true demoCfg ∧ ¬ (demoJudged[1]'(by decide)).body.EndFull .little demoCfg :=
  ⟨trivial, fun h => h rfl⟩

end Perf
