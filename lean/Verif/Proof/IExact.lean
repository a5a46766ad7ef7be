import Verif.Proof.ISoundBody
import Verif.Props.Sound
/-!
# The ideal outcome, exactly

A record is accepted if and only if the input starts with one the kernel could have written; and then with its contents.
-/
namespace Perf
open ParserM
variable {cfg : ParseConfig} {f : Flat} {o : Order} {tl extra : List Byte}

/-! ## What the kernel writes is read, whatever follows -/

/-- As `KBody.ireads`, with bytes behind the body. -/
theorem KBody.ireads_extra (hs : Src cfg o) (b : KBody) (h : b.Written cfg cfg.misc) (hlen : (b.enc o cfg).length < 65536)
    (ht : b.toEnd = true → tl = []) : IReads cfg (mendedBody b.type : Ideal (Record List)) (b.enc o cfg) tl (b.value cfg cfg.misc) := by
  by_cases hb : b.toEnd = true
  · rw [ht hb]
    exact KBody.ireads hs b h hlen
  cases b with
  | lost r => exact IReads.last (IReads.lost hs r) (IReads.pure _)
  | exit r => exact IReads.last (IReads.exit hs r) (IReads.pure _)
  | throttle r => exact IReads.last (IReads.throttle hs r) (IReads.pure _)
  | unthrottle r => exact IReads.last (IReads.throttle hs r) (IReads.pure _)
  | fork r => exact IReads.last (IReads.exit hs r) (IReads.pure _)
  | read pid tid v => exact IReads.last (IReads.read hs _ _ v h.1 h.2) (IReads.pure _)
  | sample s => exact IReads.last (IReads.sample hs s h hlen) (IReads.pure _)
  | aux r => exact IReads.last (IReads.aux hs r) (IReads.pure _)
  | itraceStart r => exact IReads.last (IReads.itraceStart hs r) (IReads.pure _)
  | lostSamples r => exact IReads.last (IReads.lostSamples hs r) (IReads.pure _)
  | switch => exact IReads.pure _
  | switchCpuWide pid tid => exact IReads.last (IReads.switchCpuWide hs pid tid) (IReads.pure _)
  | namespaces pid tid es =>
    refine IReads.last (IReads.namespaces hs pid tid es ?_) (IReads.pure _)
    have hl : es.length ≤ (es.flatMap fun e => e64 o e.dev ++ e64 o e.inode).length := by
      clear hlen h hb ht
      induction es with
      | nil => simp
      | cons x xs ih => rw [List.flatMap_cons, List.length_append, List.length_cons]; simp; simp at ih; omega
    simp only [KBody.enc, List.length_append] at hlen
    omega
  | bpfEvent r => exact IReads.last (IReads.bpfEvent hs r h) (IReads.pure _)
  | textPoke addr old new pad =>
    obtain ⟨h3, h4⟩ : _ ∧ _ := h
    simp only [KBody.enc, List.length_append] at hlen
    exact IReads.last (IReads.textPoke hs addr old new pad h3 h4 (by omega) (by omega)) (IReads.pure _)
  | auxOutputHwId r => exact IReads.last (IReads.auxOutputHwId hs r) (IReads.pure _)
  | _ => exact absurd rfl hb

theorem KRecord.encExtra_length (cfg : ParseConfig) (r : KRecord) : (r.encExtra o cfg extra).length = r.sizeAll o cfg + extra.length := by
  unfold KRecord.encExtra KRecord.sizeAll
  simp
  omega

theorem headerAt_extra (hs : Src f.cfg o) (r : KRecord) (hb : f.s.bytes = r.encExtra o f.cfg extra ++ tl) :
    headerAt f = ⟨r.body.type, r.misc, BitVec.ofNat 16 (r.sizeAll o f.cfg + extra.length)⟩ := by
  unfold headerAt
  rw [hb]
  unfold KRecord.encExtra
  have h4 : ∀ x : U32, (e32 o x).length = 4 := e32_length o
  have h2 : ∀ x : U16, (e16 o x).length = 2 := e16_length o
  simp only [List.append_assoc]
  congr 1
  · rw [← h4 r.body.type, List.take_left, hs.conv32]
  · rw [← h4 r.body.type, List.drop_left, ← h2 r.misc, List.take_left, hs.conv16]
  · have : 6 = (e32 o r.body.type ++ e16 o r.misc).length := by simp
    rw [← List.append_assoc, this, List.drop_left, ← h2 (BitVec.ofNat 16 (r.sizeAll o f.cfg + extra.length)), List.take_left, hs.conv16]

theorem encExtra_body (r : KRecord) (hb : f.s.bytes = r.encExtra o f.cfg extra ++ tl) :
    (f.adv 8).s.bytes = r.body.enc o f.cfg ++ extra ++ r.encTrailerAll o f.cfg ++ tl := by
  rw [Flat.adv_bytes, hb]
  unfold KRecord.encExtra
  have : 8 = (e32 o r.body.type ++ (e16 o r.misc ++ e16 o (BitVec.ofNat 16 (r.sizeAll o f.cfg + extra.length)))).length := by simp
  rw [this]
  simp only [← List.append_assoc]
  simp only [List.append_assoc (e32 o r.body.type ++ e16 o r.misc ++ e16 o _), List.drop_left]

/-- The framing of such a record. -/
theorem Ideal.frame_extra (hs : Src f.cfg o) (r : KRecord) (hsize : r.sizeAll o f.cfg + extra.length < 65536)
    (hb : f.s.bytes = r.body.enc o f.cfg ++ extra ++ r.encTrailerAll o f.cfg ++ tl) :
    Ideal.frame ⟨r.body.type, r.misc, BitVec.ofNat 16 (r.sizeAll o f.cfg + extra.length)⟩ f.input =
      .ok (Ideal.region f.input (r.body.enc o f.cfg ++ extra).length, r.metadataAll f.cfg) := by
  have hsz : (BitVec.ofNat 16 (r.sizeAll o f.cfg + extra.length)).toNat = r.sizeAll o f.cfg + extra.length := toNat_ofNat_lt hsize
  have hall' : r.sizeAll o f.cfg + extra.length - 8 = (r.body.enc o f.cfg ++ extra).length + (r.encTrailerAll o f.cfg).length := by
    unfold KRecord.sizeAll; rw [List.length_append]; omega
  generalize r.body.enc o f.cfg ++ extra = X at *
  unfold Ideal.frame
  simp only [hsz, hall']
  have h8 : ¬ r.sizeAll o f.cfg + extra.length < 8 := by unfold KRecord.sizeAll; omega
  have hle : ¬ f.input.bytes.length < X.length + (r.encTrailerAll o f.cfg).length := by
    show ¬ f.s.bytes.length < _
    rw [hb]; simp
  rw [if_neg h8, if_neg hle]
  by_cases hty : r.body.type.toNat = 9
  · have hty' : r.trailed f.cfg = false := by
      have : r.body.type = 9#32 := BitVec.eq_of_toNat_eq hty
      simp [KRecord.trailed, this]
    rw [if_pos hty]
    unfold KRecord.encTrailerAll KRecord.metadataAll Metadata.new
    simp only [hty', Bool.false_eq_true, if_false, List.length_nil, Nat.add_zero]
  · rw [if_neg hty, show f.input.cfg = f.cfg from rfl, estimateLen_eq]
    have h9 : (r.body.type != 9#32) = true := by
      simp only [bne_iff_ne, ne_eq]; intro h; exact hty (by rw [h]; rfl)
    cases hall : f.cfg.sampleIdAll with
    | false =>
      have hn : r.trailed f.cfg = false := by simp [KRecord.trailed, hall]
      have htr : r.encTrailerAll o f.cfg = [] := by unfold KRecord.encTrailerAll; simp [hn]
      simp only [Bool.false_eq_true, if_false, Nat.not_lt_zero, Nat.sub_zero]
      have hpar : ∀ g : Input, g.cfg = f.cfg → (parseSampleId : Ideal SampleId) g = .ok (SampleId.default, g) := by
        intro g hg
        unfold parseSampleId
        show (if !g.cfg.sampleIdAll then (pure SampleId.default : Ideal SampleId) else _) g = _
        rw [hg, hall]; rfl
      rw [hpar ((Ideal.region f.input (X.length + (r.encTrailerAll o f.cfg).length)).adv (X.length + (r.encTrailerAll o f.cfg).length)) rfl]
      unfold KRecord.metadataAll Metadata.new
      simp only [htr, hn, Bool.false_eq_true, if_false, List.length_nil, Nat.add_zero]
    | true =>
      have hn : r.trailed f.cfg = true := by simp only [KRecord.trailed, hall, h9, Bool.and_self]
      have htr : r.encTrailerAll o f.cfg = r.trailer.enc o f.cfg.sampleType := by
        unfold KRecord.encTrailerAll; simp only [hn, if_true]
      have hl : (r.encTrailerAll o f.cfg).length = trailerLen f.cfg.sampleType := by rw [htr, KTrailer.enc_length]
      simp only [if_true]
      have hb1 : X.length + (r.encTrailerAll o f.cfg).length - trailerLen f.cfg.sampleType = X.length := by omega
      rw [if_neg (by omega)]
      have hpar := IReads.trailer (tl := []) hs r.trailer hall
        ((Ideal.region f.input (X.length + (r.encTrailerAll o f.cfg).length)).adv
          (X.length + (r.encTrailerAll o f.cfg).length - trailerLen f.cfg.sampleType)) rfl rfl (by
          rw [Input.adv_bytes, hb1, List.append_nil]
          show (f.s.bytes.take _).drop _ = _
          rw [hb, ← List.length_append, List.take_left, List.drop_left, htr])
      rw [hpar, hb1]
      unfold KRecord.metadataAll Metadata.new
      simp only [hn, if_true]

/-- The ideal outcome on an input that starts with a record of the kernel. -/
theorem Ideal.record_leads (hs : Src f.cfg o) {r : KRecord} (h : r.Leads o f.cfg extra f.s.bytes) :
    Ideal.record f.input = .ok (r.body.value f.cfg r.misc, r.metadataAll f.cfg) := by
  obtain ⟨hw, hsize, ht, tl, hb⟩ := h
  have hb := hb.symm
  have h8 : 8 ≤ f.s.bytes.length := by
    rw [hb, List.length_append, KRecord.encExtra_length]; unfold KRecord.sizeAll; omega
  have hb' := encExtra_body r hb
  unfold Ideal.record
  rw [Ideal.header_eq h8, headerAt_extra hs r hb]
  simp only
  have hr := KBody.ireads_extra (tl := extra) (hs.withMisc r.misc) r.body (by
      rw [ParseConfig.withMisc_misc, KBody.written_withMisc]; exact hw) (by
      rw [KBody.enc_withMisc]; unfold KRecord.sizeAll at hsize; omega) ht
    { Ideal.region (f.adv 8).input (r.body.enc o f.cfg ++ extra).length with cfg := f.cfg.withMisc r.misc } rfl rfl (by
      rw [KBody.enc_withMisc]
      show (f.adv 8).s.bytes.take _ = _
      rw [hb', List.append_assoc _ _ tl, List.take_left])
  rw [ParseConfig.withMisc_misc, KBody.value_withMisc] at hr
  exact Ideal.recordWithHeader_ok (Ideal.frame_extra (f := f.adv 8) hs r hsize hb') hr

/-! ## What is read was written by the kernel -/

theorem Ideal.recordWithHeader_inv {h : Header} {i : Input} {md : Metadata} {a : Record List} (hr : Ideal.recordWithHeader h i = .ok (a, md)) :
    ∃ r j, Ideal.frame h i = .ok (r, md) ∧
      (mendedBody md.ty : Ideal (Record List)) ⟨r.bytes, r.fin, r.off, r.cfg.withMisc md.misc⟩ = .ok (a, j) := by
  unfold Ideal.recordWithHeader at hr
  rcases hf : Ideal.frame h i with e | ⟨r, m⟩
  · rw [hf] at hr; cases hr
  · simp only [hf] at hr
    rcases hb : (mendedBody m.ty : Ideal (Record List)) ⟨r.bytes, r.fin, r.off, r.cfg.withMisc m.misc⟩ with e | ⟨x, j⟩
    · rw [show (mendedBody m.ty : Ideal (Record List)) _ = _ from hb] at hr; cases hr
    · rw [show (mendedBody m.ty : Ideal (Record List)) _ = _ from hb] at hr
      cases hr
      exact ⟨r, j, rfl, hb⟩

/-- What an accepted frame is: the region of the body and the trailer behind it. -/
theorem Ideal.frame_inv (hs : Src f.cfg o) {h : Header} {r : Input} {md : Metadata} (hf : Ideal.frame h f.input = .ok (r, md)) :
    ∃ (len : Nat) (t : KTrailer), 8 ≤ h.size.toNat ∧ len ≤ h.size.toNat - 8 ∧ h.size.toNat - 8 ≤ f.s.bytes.length ∧
      r = Ideal.region f.input len ∧ ∀ b : KBody, b.type = h.type_ → (KRecord.mk h.misc b t).metadataAll f.cfg = md ∧
        (f.s.bytes.take (h.size.toNat - 8)).drop len = (KRecord.mk h.misc b t).encTrailerAll o f.cfg := by
  unfold Ideal.frame at hf
  by_cases h8 : h.size.toNat < 8
  · rw [if_pos h8] at hf; cases hf
  rw [if_neg h8] at hf
  by_cases hl : f.input.bytes.length < h.size.toNat - 8
  · rw [if_pos hl] at hf; cases hf
  rw [if_neg hl] at hf
  have hl : h.size.toNat - 8 ≤ f.s.bytes.length := Nat.le_of_not_lt hl
  by_cases hty : h.type_.toNat = 9
  · rw [if_pos hty] at hf
    cases hf
    refine ⟨h.size.toNat - 8, ⟨0, 0, 0, 0, 0, 0, 0, 0⟩, by omega, Nat.le_refl _, hl, rfl, fun b hb => ?_⟩
    have hn : (KRecord.mk h.misc b ⟨0, 0, 0, 0, 0, 0, 0, 0⟩).trailed f.cfg = false := by
      have : b.type = 9#32 := hb.trans (BitVec.eq_of_toNat_eq hty)
      simp [KRecord.trailed, this]
    refine ⟨?_, ?_⟩
    · simp only [KRecord.metadataAll, hn, Bool.false_eq_true, if_false, hb]; rfl
    · simp only [KRecord.encTrailerAll, hn, Bool.false_eq_true, if_false]
      rw [List.drop_of_length_le]
      rw [List.length_take]; omega
  rw [if_neg hty, show f.input.cfg = f.cfg from rfl, estimateLen_eq] at hf
  have h9 : (h.type_ != 9#32) = true := by
    simp only [bne_iff_ne, ne_eq]; intro e; exact hty (by rw [e]; rfl)
  cases hall : f.cfg.sampleIdAll with
  | false =>
    simp only [hall, Bool.false_eq_true, if_false, Nat.not_lt_zero, Nat.sub_zero] at hf
    have hpar : ∀ g : Input, g.cfg = f.cfg → (parseSampleId : Ideal SampleId) g = .ok (SampleId.default, g) := by
      intro g hg
      unfold parseSampleId
      show (if !g.cfg.sampleIdAll then (pure SampleId.default : Ideal SampleId) else _) g = _
      rw [hg, hall]; rfl
    rw [hpar ((Ideal.region f.input (h.size.toNat - 8)).adv (h.size.toNat - 8)) rfl] at hf
    cases hf
    refine ⟨h.size.toNat - 8, ⟨0, 0, 0, 0, 0, 0, 0, 0⟩, by omega, Nat.le_refl _, hl, rfl, fun b hb => ?_⟩
    have hn : (KRecord.mk h.misc b ⟨0, 0, 0, 0, 0, 0, 0, 0⟩).trailed f.cfg = false := by simp [KRecord.trailed, hall]
    refine ⟨?_, ?_⟩
    · simp only [KRecord.metadataAll, hn, Bool.false_eq_true, if_false, hb]; rfl
    · simp only [KRecord.encTrailerAll, hn, Bool.false_eq_true, if_false]
      rw [List.drop_of_length_le]
      rw [List.length_take]; omega
  | true =>
    simp only [hall, if_true] at hf
    by_cases hlt : h.size.toNat - 8 < trailerLen f.cfg.sampleType
    · rw [if_pos hlt] at hf; cases hf
    rw [if_neg hlt] at hf
    rcases hp : (parseSampleId : Ideal SampleId) ((Ideal.region f.input (h.size.toNat - 8)).adv
      (h.size.toNat - 8 - trailerLen f.cfg.sampleType)) with e | ⟨sid, j⟩
    · rw [hp] at hf; cases hf
    rw [hp] at hf
    cases hf
    obtain ⟨bs, e1, e2, t, e3, e4⟩ := ISound.trailer hs hall _ _ _ rfl hp
    have hlb : bs.length = trailerLen f.cfg.sampleType := by rw [e4, KTrailer.enc_length]
    have hbs : (f.s.bytes.take (h.size.toNat - 8)).drop (h.size.toNat - 8 - trailerLen f.cfg.sampleType) = bs ++ j.bytes := e1
    have hj : j.bytes = [] := by
      have := congrArg List.length hbs
      rw [List.length_drop, List.length_take, List.length_append] at this
      exact List.length_eq_zero_iff.1 (by omega)
    rw [hj, List.append_nil] at hbs
    refine ⟨h.size.toNat - 8 - trailerLen f.cfg.sampleType, t, by omega, Nat.sub_le _ _, hl, rfl, fun b hb => ?_⟩
    have hn : (KRecord.mk h.misc b t).trailed f.cfg = true := by simp only [KRecord.trailed, hall, hb, h9, Bool.and_self]
    refine ⟨?_, ?_⟩
    · simp only [KRecord.metadataAll, hn, if_true, hb, e3]; rfl
    · simp only [KRecord.encTrailerAll, hn, if_true]
      rw [hbs, e4]

/-- Whatever is accepted, the input starts with a record of the kernel that means it. -/
theorem Ideal.record_sound (hs : Src f.cfg o) {a : Record List} {md : Metadata} (hr : Ideal.record f.input = .ok (a, md)) :
    ∃ (r : KRecord) (extra : List Byte), r.Leads o f.cfg extra f.s.bytes ∧ a = r.body.value f.cfg r.misc ∧ md = r.metadataAll f.cfg := by
  by_cases h8 : 8 ≤ f.s.bytes.length
  case neg =>
    unfold Ideal.record at hr
    rw [Ideal.header_short (by omega)] at hr
    cases hr
  have hlay := header_layout hs h8
  unfold Ideal.record at hr
  rw [Ideal.header_eq h8] at hr
  simp only at hr
  obtain ⟨rg, j, hf, hb⟩ := Ideal.recordWithHeader_inv (i := (f.adv 8).input) hr
  obtain ⟨len, t, hsz, hlen, hle, rfl, ht⟩ := Ideal.frame_inv (f := f.adv 8) hs hf
  have hmd : md.ty = (headerAt f).type_ ∧ md.misc = (headerAt f).misc := by
    have : ∀ b : KBody, b.type = (headerAt f).type_ → md.ty = (headerAt f).type_ ∧ md.misc = (headerAt f).misc := by
      intro b hb
      rw [← (ht b hb).1]
      exact ⟨hb, rfl⟩
    exact this (.other (headerAt f).type_ []) rfl
  rw [hmd.1, hmd.2] at hb
  obtain ⟨bs, e1, e2, b, e3, e4, e5, e6⟩ := ISound.body (hs.withMisc (headerAt f).misc) (headerAt f).type_ _ _ _ rfl hb
  obtain ⟨m1, m2⟩ := ht b e3
  rw [ParseConfig.withMisc_misc] at e4 e5
  rw [KBody.value_withMisc] at e4
  have e5' : b.Written f.cfg (headerAt f).misc := (b.written_withMisc _ _).1 e5
  rw [KBody.enc_withMisc] at e6
  have hreg : (f.adv 8).s.bytes.take len = bs ++ j.bytes := e1
  have hbytes : (f.adv 8).s.bytes = b.enc o f.cfg ++ j.bytes ++ (KRecord.mk (headerAt f).misc b t).encTrailerAll o f.cfg ++
      (f.adv 8).s.bytes.drop ((headerAt f).size.toNat - 8) := by
    have m2 : _ = (KRecord.mk (headerAt f).misc b t).encTrailerAll o f.cfg := m2
    rw [← m2, ← e6, ← hreg]
    have : (f.adv 8).s.bytes.take len = ((f.adv 8).s.bytes.take ((headerAt f).size.toNat - 8)).take len := by
      rw [List.take_take, Nat.min_eq_left hlen]
    rw [this, List.take_append_drop, List.take_append_drop]
  have hsize : (headerAt f).size.toNat = (KRecord.mk (headerAt f).misc b t).sizeAll o f.cfg + j.bytes.length := by
    have h1 := congrArg List.length hbytes
    simp only [List.length_append, List.length_drop] at h1
    unfold KRecord.sizeAll
    show _ = 8 + (b.enc o f.cfg).length + _ + _
    omega
  have hlt := (headerAt f).size_lt
  generalize (f.adv 8).s.bytes.drop ((headerAt f).size.toNat - 8) = tl at hbytes
  refine ⟨⟨(headerAt f).misc, b, t⟩, j.bytes, ⟨e5', by omega, fun he => ?_, tl, ?_⟩, e4, m1.symm⟩
  · have := IDrains.body (cfg := f.cfg.withMisc (headerAt f).misc) b he (by rw [ParseConfig.withMisc_misc]; exact e5)
    rw [e3] at this
    exact this _ _ _ hb
  · rw [hlay]
    unfold KRecord.encExtra
    have h1 : BitVec.ofNat 16 ((KRecord.mk (headerAt f).misc b t).sizeAll o f.cfg + j.bytes.length) = (headerAt f).size := by
      rw [← hsize]; simp
    rw [h1]
    show _ = _ ++ (f.adv 8).s.bytes
    rw [hbytes]
    simp only [e3, List.append_assoc]

end Perf
