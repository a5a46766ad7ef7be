import Verif.Proof.Encode
import Verif.Proof.ConfigBits
import Verif.Props.Inputs
/-!
# Parsing an encoded record over any lawful buffer
-/
namespace Perf
open ParserM
variable {β : Type} [ParseBuf β] [Lawful β] {O : Type} {p : Parser β} {f : Flat} {o : Order} {cfg : ParseConfig}

theorem Src.withMisc (hs : Src cfg o) (m : U16) : Src (cfg.withMisc m) o := ⟨hs.conv16, hs.conv32, hs.conv64⟩

theorem KBody.enc_withMisc (b : KBody) (m : U16) : b.enc o (cfg.withMisc m) = b.enc o cfg := by
  cases b <;> simp only [KBody.enc, ParseConfig.withMisc_readFormat, ParseConfig.withMisc_sampleType,
    ParseConfig.withMisc_branchHwIndex]

theorem withMisc_regsUser (m : U16) : (cfg.withMisc m).regsUser = cfg.regsUser := rfl
theorem withMisc_regsIntr (m : U16) : (cfg.withMisc m).regsIntr = cfg.regsIntr := rfl
theorem withMisc_endian (m : U16) : (cfg.withMisc m).endian = cfg.endian := rfl

theorem KBody.value_withMisc (b : KBody) (m m' : U16) : b.value (cfg.withMisc m) m' = b.value cfg m' := by
  cases b <;> simp only [KBody.value, ParseConfig.withMisc_readFormat, ParseConfig.withMisc_sampleType,
    ParseConfig.withMisc_branchHwIndex, withMisc_regsUser, withMisc_regsIntr]

theorem KBody.ok_withMisc (b : KBody) (m m' : U16) : b.Ok o (cfg.withMisc m) m' ↔ b.Ok o cfg m' := by
  cases b <;> simp only [KBody.Ok, ParseConfig.withMisc_readFormat, ParseConfig.withMisc_sampleType,
    ParseConfig.withMisc_branchHwIndex, withMisc_regsUser, withMisc_regsIntr, withMisc_endian]

/-- The header of an encoded record. -/
theorem headerAt_enc (hs : Src f.cfg o) (r : KRecord) {tl : List Byte} (hb : f.s.bytes = r.enc o f.cfg ++ tl) :
    headerAt f = ⟨r.body.type, r.misc, BitVec.ofNat 16 (r.size o f.cfg)⟩ := by
  unfold headerAt
  rw [hb]
  unfold KRecord.enc
  have h4 : ∀ x : U32, (e32 o x).length = 4 := e32_length o
  have h2 : ∀ x : U16, (e16 o x).length = 2 := e16_length o
  generalize r.body.enc o f.cfg ++ r.encTrailer o f.cfg = X
  simp only [List.append_assoc]
  congr 1
  · rw [← h4 r.body.type, List.take_left, hs.conv32]
  · rw [← h4 r.body.type, List.drop_left, ← h2 r.misc, List.take_left, hs.conv16]
  · have : 6 = (e32 o r.body.type ++ e16 o r.misc).length := by simp
    rw [← List.append_assoc, this, List.drop_left, ← h2 (BitVec.ofNat 16 (r.size o f.cfg)), List.take_left, hs.conv16]

theorem KRecord.enc_length (r : KRecord) : (r.enc o cfg).length = r.size o cfg := by
  unfold KRecord.enc KRecord.size
  simp
  omega

/-- The framing of an encoded record. -/
theorem metadata_enc (hs : Src f.cfg o) (r : KRecord) {tl : List Byte} (hsize : r.size o f.cfg < 65536)
    (hb : f.s.bytes = r.body.enc o f.cfg ++ r.encTrailer o f.cfg ++ tl) :
    ∃ f', Spec.metadataWithHeader ⟨r.body.type, r.misc, BitVec.ofNat 16 (r.size o f.cfg)⟩ f =
      .ok ((f.region (r.body.enc o f.cfg).length, r.metadata f.cfg), f') := by
  have hsz : (BitVec.ofNat 16 (r.size o f.cfg)).toNat = r.size o f.cfg := toNat_ofNat_lt hsize
  unfold Spec.metadataWithHeader
  simp only [hsz]
  have h8 : ¬ r.size o f.cfg < 8 := by unfold KRecord.size; omega
  have hle : r.size o f.cfg - 8 ≤ f.s.bytes.length := by rw [hb]; unfold KRecord.size; simp; omega
  rw [if_neg h8, if_pos hle]
  by_cases hty : r.body.type.toNat = 1 ∨ r.body.type.toNat = 9
  · have hty' : (f.cfg.sampleIdAll && r.body.type != 1#32 && r.body.type != 9#32) = false := by
      rcases hty with h | h
      · have : r.body.type = 1#32 := BitVec.eq_of_toNat_eq h
        simp [this]
      · have : r.body.type = 9#32 := BitVec.eq_of_toNat_eq h
        simp [this]
    rw [if_pos hty]
    unfold KRecord.size KRecord.encTrailer KRecord.metadata Metadata.new
    simp only [hty', Bool.false_eq_true, if_false, List.length_nil, Nat.add_zero, Nat.add_sub_cancel_left]
    exact ⟨_, rfl⟩
  · rw [if_neg hty, estimateLen_eq]
    have h1 : (r.body.type != 1#32) = true := by
      simp only [bne_iff_ne, ne_eq]; intro h; exact hty (.inl (by rw [h]; rfl))
    have h9 : (r.body.type != 9#32) = true := by
      simp only [bne_iff_ne, ne_eq]; intro h; exact hty (.inr (by rw [h]; rfl))
    cases hall : f.cfg.sampleIdAll with
    | false =>
      have htr : r.encTrailer o f.cfg = [] := by unfold KRecord.encTrailer; simp [hall]
      simp only [Bool.false_eq_true, if_false, Nat.not_lt_zero, Nat.sub_zero]
      have hpar : ∀ g : Flat, g.cfg = f.cfg → (parseSampleId : Spec SampleId) g = .ok (SampleId.default, g) := by
        intro g hg
        unfold parseSampleId
        show (if !g.cfg.sampleIdAll then (pure SampleId.default : Spec SampleId) else _) g = _
        rw [hg, hall]; rfl
      rw [hpar ((f.region (r.size o f.cfg - 8)).adv (r.size o f.cfg - 8)) rfl]
      unfold KRecord.size KRecord.metadata Metadata.new
      simp only [htr, hall, Bool.false_and, Bool.false_eq_true, if_false, List.length_nil, Nat.add_zero,
        Nat.add_sub_cancel_left]
      exact ⟨_, rfl⟩
    | true =>
      have htr : r.encTrailer o f.cfg = r.trailer.enc o f.cfg.sampleType := by
        unfold KRecord.encTrailer; simp only [hall, h1, h9, Bool.and_self, if_true]
      have hl : (r.encTrailer o f.cfg).length = trailerLen f.cfg.sampleType := by rw [htr, KTrailer.enc_length]
      simp only [if_true]
      have hn : ¬ r.size o f.cfg - 8 < trailerLen f.cfg.sampleType := by unfold KRecord.size; omega
      have hb1 : r.size o f.cfg - 8 - trailerLen f.cfg.sampleType = (r.body.enc o f.cfg).length := by
        unfold KRecord.size; omega
      have hb2 : r.size o f.cfg - 8 = (r.body.enc o f.cfg).length + (r.encTrailer o f.cfg).length := by
        unfold KRecord.size; omega
      rw [if_neg hn]
      have hpar := Reads.trailer (nd := ⟨false, true⟩) (k := 0) (tl := []) hs r.trailer hall
        ((f.region (r.size o f.cfg - 8)).adv (r.size o f.cfg - 8 - trailerLen f.cfg.sampleType)) rfl (fun _ => rfl) nofun (by
          rw [Flat.adv_bytes, hb1, List.append_nil]
          simp only [Flat.region]
          rw [hb, hb2, ← List.length_append, List.take_left, List.drop_left, htr])
      rw [hpar, hb1]
      unfold KRecord.metadata Metadata.new
      simp only [hall, h1, h9, Bool.and_self, if_true]
      exact ⟨_, rfl⟩

/-- Framing of a record whose body may be anything: the body is parsed from exactly its own bytes. -/
theorem P.record_frame (hp : RepP p f) (hs : Src f.cfg o) (r : KRecord) (hsize : r.size o f.cfg < 65536) {tl : List Byte}
    (hb : f.s.bytes = r.enc o f.cfg ++ tl) (v : Visitor Cow O) :
    ((f.adv 8).region (r.body.enc o f.cfg).length).s.bytes = r.body.enc o f.cfg ∧
    BodyOk v (r.metadata f.cfg) ((f.adv 8).region (r.body.enc o f.cfg).length) (P.record v p).res ∧
    RepP (P.record v p).st (f.adv (r.enc o f.cfg).length) ∧ LogLe (P.record v p).log f.s.bytes.length := by
  have hlen : (r.enc o f.cfg).length = r.size o f.cfg := r.enc_length
  have hs8 : 8 ≤ r.size o f.cfg := by unfold KRecord.size; omega
  have hhd := headerAt_enc hs r hb
  rcases P.record_run hp v with ⟨h, _⟩ | ⟨h8, q, hq, _, h⟩
  · rw [hb, List.length_append, hlen] at h; omega
  · rw [h]
    obtain ⟨h1, h2, h3⟩ := P.recordWithHeader_run hq v (headerAt f)
    have hsz : (headerAt f).size.toNat = r.size o f.cfg := by rw [hhd]; exact toNat_ofNat_lt hsize
    have hb8 : (f.adv 8).s.bytes = r.body.enc o f.cfg ++ r.encTrailer o f.cfg ++ tl := by
      rw [Flat.adv_bytes, hb]
      unfold KRecord.enc
      have : 8 = (e32 o r.body.type ++ e16 o r.misc ++ e16 o (BitVec.ofNat 16 (r.size o f.cfg))).length := by simp
      simp only [List.append_assoc] at this ⊢
      rw [this]
      simp only [← List.append_assoc]
      rw [List.append_assoc _ _ tl, List.append_assoc _ _ (_ ++ tl), List.drop_left]
      simp
    refine ⟨?_, ?_, ?_, ?_⟩
    · show (f.adv 8).s.bytes.take _ = _
      rw [hb8, List.append_assoc, List.take_left]
    · obtain ⟨f', hm⟩ := metadata_enc (f := f.adv 8) hs r hsize hb8
      simp only [Flat.adv_cfg] at hm
      rw [hhd] at h3 ⊢
      rw [hm] at h3
      exact h3
    · have h4 := (h1 (by omega) (by rw [hsz, hb8]; unfold KRecord.size; simp; omega)).1
      rw [Flat.adv_adv, hsz, Nat.add_sub_cancel' hs8, ← hlen] at h4
      exact h4
    · refine h2.mono ?_
      simp

/-- Parsing an encoded record with any visitor: the visitor gets the record and its metadata, and the parser stands
behind the record. -/
theorem P.record_enc (hp : RepP p f) (hs : Src f.cfg o) (r : KRecord) (hok : r.body.Ok o f.cfg r.misc)
    (hsize : r.size o f.cfg < 65536)
    (hal : r.body.needsAlignment = true → f.cfg.endian.isNative = true → AlMod f.s.al 0) {tl : List Byte}
    (hb : f.s.bytes = r.enc o f.cfg ++ tl) (v : Visitor Cow O) :
    (∃ a : Record Cow, a.view = r.body.value f.cfg r.misc ∧ (P.record v p).res = v.apply a (r.metadata f.cfg)) ∧
    RepP (P.record v p).st (f.adv (r.enc o f.cfg).length) ∧ LogLe (P.record v p).log f.s.bytes.length := by
  obtain ⟨h0, h3, h1⟩ := P.record_frame hp hs r hsize hb v
  refine ⟨?_, h1⟩
  have hr := KBody.reads (hs.withMisc r.misc) r.body (by
      rw [ParseConfig.withMisc_misc, KBody.ok_withMisc]; exact hok) (by
      rw [KBody.enc_withMisc]; unfold KRecord.size at hsize; omega)
    (((f.adv 8).region (r.body.enc o f.cfg).length).withMisc r.misc) rfl (fun _ => rfl) (fun ha hn => (hal ha hn).add 8) (by
      rw [KBody.enc_withMisc, List.append_nil]; exact h0)
  have h4 := h3.1
  have hty : (r.metadata f.cfg).ty = r.body.type := rfl
  have hmi : (r.metadata f.cfg).misc = r.misc := rfl
  rw [hty, hmi, hr, ParseConfig.withMisc_misc, KBody.value_withMisc] at h4
  exact h4

theorem recordVisitor_value {a : Record Cow} {r : KRecord} (h : a.view = r.body.value cfg r.misc) (md : Metadata)
    (hty : md.ty = r.body.type) : (recordVisitor Cow).apply a md = .ok a := by
  cases a with
  | unknown ty d =>
    cases hb : r.body <;> rw [hb] at h <;> simp only [KBody.value, Record.view] at h
    case other ty' data =>
      have h1 : ty = md.ty := by rw [hty, hb]; injection h
      subst h1
      rfl
    all_goals cases h
  | _ => rfl

end Perf
