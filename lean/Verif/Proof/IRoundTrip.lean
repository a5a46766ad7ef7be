import Verif.Proof.IReads
import Verif.Proof.MendedTop
import Verif.Proof.RoundTrip
/-!
# The ideal outcome on records written by the kernel, and on what the crate accepts
-/
namespace Perf
open ParserM
variable {f : Flat} {o : Order} {tl : List Byte}

theorem KBody.written_withMisc {cfg : ParseConfig} (b : KBody) (m m' : U16) : b.Written (cfg.withMisc m) m' ↔ b.Written cfg m' := by
  cases b <;> simp only [KBody.Written, ParseConfig.withMisc_readFormat, ParseConfig.withMisc_sampleType,
    withMisc_regsUser, withMisc_regsIntr]

theorem KRecord.encAll_length (cfg : ParseConfig) (r : KRecord) : (r.encAll o cfg).length = r.sizeAll o cfg := by
  unfold KRecord.encAll KRecord.sizeAll
  simp
  omega

theorem headerAt_encAll (hs : Src f.cfg o) (r : KRecord) (hb : f.s.bytes = r.encAll o f.cfg ++ tl) :
    headerAt f = ⟨r.body.type, r.misc, BitVec.ofNat 16 (r.sizeAll o f.cfg)⟩ := by
  unfold headerAt
  rw [hb]
  unfold KRecord.encAll
  have h4 : ∀ x : U32, (e32 o x).length = 4 := e32_length o
  have h2 : ∀ x : U16, (e16 o x).length = 2 := e16_length o
  generalize r.body.enc o f.cfg ++ r.encTrailerAll o f.cfg = X
  simp only [List.append_assoc]
  congr 1
  · rw [← h4 r.body.type, List.take_left, hs.conv32]
  · rw [← h4 r.body.type, List.drop_left, ← h2 r.misc, List.take_left, hs.conv16]
  · have : 6 = (e32 o r.body.type ++ e16 o r.misc).length := by simp
    rw [← List.append_assoc, this, List.drop_left, ← h2 (BitVec.ofNat 16 (r.sizeAll o f.cfg)), List.take_left, hs.conv16]

theorem encAll_body (r : KRecord) (hb : f.s.bytes = r.encAll o f.cfg ++ tl) :
    (f.adv 8).s.bytes = r.body.enc o f.cfg ++ r.encTrailerAll o f.cfg ++ tl := by
  rw [Flat.adv_bytes, hb]
  unfold KRecord.encAll
  have : 8 = (e32 o r.body.type ++ e16 o r.misc ++ e16 o (BitVec.ofNat 16 (r.sizeAll o f.cfg))).length := by simp
  simp only [List.append_assoc] at this ⊢
  rw [this]
  simp only [← List.append_assoc]
  rw [List.append_assoc _ _ tl, List.append_assoc _ _ (_ ++ tl), List.drop_left]
  simp

/-- The framing of an encoded record. -/
theorem Ideal.frame_enc (hs : Src f.cfg o) (r : KRecord) (hsize : r.sizeAll o f.cfg < 65536)
    (hb : f.s.bytes = r.body.enc o f.cfg ++ r.encTrailerAll o f.cfg ++ tl) :
    Ideal.frame ⟨r.body.type, r.misc, BitVec.ofNat 16 (r.sizeAll o f.cfg)⟩ f.input =
      .ok (Ideal.region f.input (r.body.enc o f.cfg).length, r.metadataAll f.cfg) := by
  have hsz : (BitVec.ofNat 16 (r.sizeAll o f.cfg)).toNat = r.sizeAll o f.cfg := toNat_ofNat_lt hsize
  unfold Ideal.frame
  simp only [hsz]
  have h8 : ¬ r.sizeAll o f.cfg < 8 := by unfold KRecord.sizeAll; omega
  have hle : ¬ f.input.bytes.length < r.sizeAll o f.cfg - 8 := by
    show ¬ f.s.bytes.length < _
    rw [hb]; unfold KRecord.sizeAll; simp; omega
  rw [if_neg h8, if_neg hle]
  by_cases hty : r.body.type.toNat = 9
  · have hty' : r.trailed f.cfg = false := by
      have : r.body.type = 9#32 := BitVec.eq_of_toNat_eq hty
      simp [KRecord.trailed, this]
    rw [if_pos hty]
    unfold KRecord.sizeAll KRecord.encTrailerAll KRecord.metadataAll Metadata.new
    simp only [hty', Bool.false_eq_true, if_false, List.length_nil, Nat.add_zero, Nat.add_sub_cancel_left]
  · rw [if_neg hty, show f.input.cfg = f.cfg from rfl, estimateLen_eq]
    have h9 : (r.body.type != 9#32) = true := by
      simp only [bne_iff_ne, ne_eq]; intro h; exact hty (by rw [h]; rfl)
    cases hall : f.cfg.sampleIdAll with
    | false =>
      have hn : r.trailed f.cfg = false := by simp [KRecord.trailed, hall]
      have htr : r.encTrailerAll o f.cfg = [] := by unfold KRecord.encTrailerAll; simp [hn]
      simp only [Bool.false_eq_true, if_false, Nat.not_lt_zero, Nat.sub_zero]
      have hpar : ∀ g : Input, g.cfg = f.cfg → (parseSampleId : Ideal SampleId) g = .ok (SampleId.default, g) := by
        intro g hg
        unfold parseSampleId
        show (if !g.cfg.sampleIdAll then (pure SampleId.default : Ideal SampleId) else _) g = _
        rw [hg, hall]; rfl
      rw [hpar ((Ideal.region f.input (r.sizeAll o f.cfg - 8)).adv (r.sizeAll o f.cfg - 8)) rfl]
      unfold KRecord.sizeAll KRecord.metadataAll Metadata.new
      simp only [htr, hn, Bool.false_eq_true, if_false, List.length_nil, Nat.add_zero, Nat.add_sub_cancel_left]
    | true =>
      have hn : r.trailed f.cfg = true := by simp only [KRecord.trailed, hall, h9, Bool.and_self]
      have htr : r.encTrailerAll o f.cfg = r.trailer.enc o f.cfg.sampleType := by
        unfold KRecord.encTrailerAll; simp only [hn, if_true]
      have hl : (r.encTrailerAll o f.cfg).length = trailerLen f.cfg.sampleType := by rw [htr, KTrailer.enc_length]
      simp only [if_true]
      have hn' : ¬ r.sizeAll o f.cfg - 8 < trailerLen f.cfg.sampleType := by unfold KRecord.sizeAll; omega
      have hb1 : r.sizeAll o f.cfg - 8 - trailerLen f.cfg.sampleType = (r.body.enc o f.cfg).length := by
        unfold KRecord.sizeAll; omega
      have hb2 : r.sizeAll o f.cfg - 8 = (r.body.enc o f.cfg).length + (r.encTrailerAll o f.cfg).length := by
        unfold KRecord.sizeAll; omega
      rw [if_neg hn']
      have hpar := IReads.trailer (tl := []) hs r.trailer hall
        ((Ideal.region f.input (r.sizeAll o f.cfg - 8)).adv (r.sizeAll o f.cfg - 8 - trailerLen f.cfg.sampleType)) rfl rfl (by
          rw [Input.adv_bytes, hb1, List.append_nil]
          show (f.s.bytes.take _).drop _ = _
          rw [hb, hb2, ← List.length_append, List.take_left, List.drop_left, htr])
      rw [hpar, hb1]
      unfold KRecord.metadataAll Metadata.new
      simp only [hn, if_true]

theorem Ideal.recordWithHeader_ok {h : Header} {i r j : Input} {md : Metadata} {a : Record List} (hf : Ideal.frame h i = .ok (r, md))
    (hb : (mendedBody md.ty : Ideal (Record List)) ⟨r.bytes, r.fin, r.off, r.cfg.withMisc md.misc⟩ = .ok (a, j)) :
    Ideal.recordWithHeader h i = .ok (a, md) := by
  unfold Ideal.recordWithHeader
  simp only [hf]
  rw [show (mendedBody md.ty : Ideal (Record List)) _ = _ from hb]

/-- The ideal outcome on an encoded record. -/
theorem Ideal.record_enc (hs : Src f.cfg o) (r : KRecord) (hw : r.body.Written f.cfg r.misc) (hsize : r.sizeAll o f.cfg < 65536)
    (hb : f.s.bytes = r.encAll o f.cfg ++ tl) : Ideal.record f.input = .ok (r.body.value f.cfg r.misc, r.metadataAll f.cfg) := by
  have h8 : 8 ≤ f.s.bytes.length := by
    rw [hb, List.length_append, KRecord.encAll_length]; unfold KRecord.sizeAll; omega
  have hb' := encAll_body r hb
  unfold Ideal.record
  rw [Ideal.header_eq h8, headerAt_encAll hs r hb]
  simp only
  have hr := KBody.ireads (hs.withMisc r.misc) r.body (by
      rw [ParseConfig.withMisc_misc, KBody.written_withMisc]; exact hw) (by
      rw [KBody.enc_withMisc]; unfold KRecord.sizeAll at hsize; omega)
    { Ideal.region (f.adv 8).input (r.body.enc o f.cfg).length with cfg := f.cfg.withMisc r.misc } rfl rfl (by
      rw [KBody.enc_withMisc, List.append_nil]
      show (f.adv 8).s.bytes.take _ = _
      rw [hb', List.append_assoc, List.take_left])
  rw [ParseConfig.withMisc_misc, KBody.value_withMisc] at hr
  exact Ideal.recordWithHeader_ok (Ideal.frame_enc (f := f.adv 8) hs r hsize hb') hr

/-- What the crate accepts, as the ideal outcome: for records other than SWITCH, unless a part the kernel writes is not read (the
trailer of MMAP, the weight announced by `WEIGHT_STRUCT`) or a part is read that it does not write (registers that are absent). -/
theorem Ideal.keeps {f : Flat} (h : Header) (h14 : h.type_.toNat ≠ 14) (h1 : h.type_.toNat = 1 → f.cfg.sampleIdAll = false)
    (hw : h.type_.toNat = 9 → contains f.cfg.sampleType SampleFlags.WEIGHT_STRUCT = true →
      contains f.cfg.sampleType SampleFlags.WEIGHT = true) {r : Flat} {md : Metadata} {g : Flat}
    (hm : Spec.metadataWithHeader h f = .ok ((r, md), g)) {a : Record List} {j : Flat}
    (hr : (parseBody md.ty : Spec (Record List)) (r.withMisc md.misc) = .ok (a, j)) (ha : a.RegsPresent) :
    Ideal.recordWithHeader h f.input = .ok (a, md) := by
  have hsz := h.size_lt
  have body : ∀ len, r = f.region len → md.ty = h.type_ → len < usizeLimit →
      (mendedBody md.ty : Ideal (Record List)) { Ideal.region f.input len with cfg := f.cfg.withMisc md.misc } = .ok (a, j.input) := by
    intro len e1 e2 e3
    subst e1
    refine KeepsAt.body (f := (f.region len).withMisc md.misc) md.ty ?_ ?_ (by rw [e2]; exact h14) a j hr ha
    · show (f.s.bytes.take len).length < _
      rw [List.length_take]; omega
    · intro h9
      show contains (f.cfg.withMisc md.misc).sampleType _ = true → contains (f.cfg.withMisc md.misc).sampleType _ = true
      rw [ParseConfig.withMisc_sampleType]
      exact hw (by rw [← e2]; exact h9)
  rcases Spec.metadata_cases h f with ⟨a1, a2⟩ | ⟨a1, a2, a3⟩ | ⟨a1, a2, a3, a4⟩ | ⟨a1, a2, a3, a4, a5⟩ | ⟨a1, a2, a3, a4, sid, i, a5, a6⟩
  · rw [a2] at hm; cases hm
  · rw [a3] at hm; cases hm
  · rw [a4] at hm
    cases hm
    have b := body (h.size.toNat - 8) rfl rfl (by unfold usizeLimit; omega)
    refine Ideal.recordWithHeader_ok ?_ b
    unfold Ideal.frame
    rw [if_neg (by omega), if_neg (by show ¬ f.s.bytes.length < _; omega)]
    by_cases h9 : h.type_.toNat = 9
    · rw [if_pos h9]
    · have hall := h1 (by omega)
      have hest : SampleId.estimateLen f.cfg = 0 := by rw [estimateLen_eq, hall]; rfl
      rw [if_neg h9, show f.input.cfg = f.cfg from rfl, hest, if_neg (Nat.not_lt_zero _), Nat.sub_zero]
      have hpar : ∀ g : Input, g.cfg = f.cfg → (parseSampleId : Ideal SampleId) g = .ok (SampleId.default, g) := by
        intro g hg
        unfold parseSampleId
        show (if !g.cfg.sampleIdAll then (pure SampleId.default : Ideal SampleId) else _) g = _
        rw [hg, hall]; rfl
      rw [hpar _ rfl]
  · rw [a5] at hm; cases hm
  · rw [a6] at hm
    cases hm
    have b := body (h.size.toNat - 8 - SampleId.estimateLen f.cfg) rfl rfl (by unfold usizeLimit; omega)
    have hsid := (IKeeps.sampleId _ _ _ (by simp [Flat.region]; unfold usizeLimit; omega) a5).1
    refine Ideal.recordWithHeader_ok ?_ b
    unfold Ideal.frame
    rw [if_neg (by omega), if_neg (by show ¬ f.s.bytes.length < _; omega), if_neg (by omega), if_neg (by show ¬ _ < SampleId.estimateLen f.cfg; omega)]
    rw [show (parseSampleId : Ideal SampleId) ((Ideal.region f.input (h.size.toNat - 8)).adv
      (h.size.toNat - 8 - SampleId.estimateLen f.input.cfg)) = _ from hsid]
    rfl

end Perf
