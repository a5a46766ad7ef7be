import Verif.Proof.Top
/-!
# Flat parsers that need a fixed number of bytes, and the `sample_id` trailer
-/
namespace Perf
open ParserM

/-- Under `cfg` the flat parser `s` reads exactly `n` bytes, and fails with the input's end error if there are fewer. -/
def Fixed {α : Type} (cfg : ParseConfig) (s : Spec α) (n : Nat) : Prop :=
  ∀ f : Flat, f.cfg = cfg →
    (n ≤ f.s.bytes.length → ∃ a, s f = .ok (a, f.adv n)) ∧
    (f.s.bytes.length < n → s f = .error (.err f.s.fin))

variable {α α' : Type} {cfg : ParseConfig}

theorem Fixed.pure (a : α) : Fixed cfg (Pure.pure a : Spec α) 0 := by
  intro f _
  exact ⟨fun _ => ⟨a, by rw [Flat.adv_zero]; rfl⟩, fun h => absurd h (Nat.not_lt_zero _)⟩

theorem Fixed.bind {s : Spec α} {k : α → Spec α'} {n m : Nat} (h : Fixed cfg s n) (hk : ∀ a, Fixed cfg (k a) m) :
    Fixed cfg (s >>= k) (n + m) := by
  intro f hf
  obtain ⟨h1, h2⟩ := h f hf
  refine ⟨fun hle => ?_, fun hlt => ?_⟩
  · obtain ⟨a, ha⟩ := h1 (by omega)
    obtain ⟨b, hb⟩ := (hk a (f.adv n) hf).1 (by simp; omega)
    exact ⟨b, by rw [Spec.bind_ok ha, hb, Flat.adv_adv]⟩
  · rcases Nat.lt_or_ge f.s.bytes.length n with h' | h'
    · rw [Spec.bind_err (h2 h')]
    · obtain ⟨a, ha⟩ := h1 h'
      rw [Spec.bind_ok ha]
      exact (hk a (f.adv n) hf).2 (by simp; omega)

theorem Fixed.config {k : ParseConfig → Spec α} {n : Nat} (h : Fixed cfg (k cfg) n) :
    Fixed cfg (Spec.config >>= k) n := by
  intro f hf
  have : (Spec.config >>= k) f = k f.cfg f := rfl
  rw [this, hf]
  exact h f hf

theorem Fixed.array {n : Nat} (h0 : 0 < n) : Fixed cfg (Spec.bytes n) n := by
  intro f _
  unfold Spec.bytes Spec.take
  constructor
  · intro hle
    exact ⟨f.s.bytes.take n, by
      rw [if_neg (by intro he; rw [he] at hle; simp at hle; omega), if_pos hle]⟩
  · intro hlt
    split
    · rfl
    · rw [if_neg (by omega)]

theorem Fixed.u8 : Fixed cfg (parseU8 : Spec U8) 1 :=
  Fixed.bind (m := 0) (Fixed.array (by omega)) fun _ => Fixed.pure _
theorem Fixed.u16 : Fixed cfg (parseU16 : Spec U16) 2 :=
  Fixed.bind (m := 0) (Fixed.array (by omega)) fun _ => Fixed.config (Fixed.pure _)
theorem Fixed.u32 : Fixed cfg (parseU32 : Spec U32) 4 :=
  Fixed.bind (m := 0) (Fixed.array (by omega)) fun _ => Fixed.config (Fixed.pure _)
theorem Fixed.u64 : Fixed cfg (parseU64 : Spec U64) 8 :=
  Fixed.bind (m := 0) (Fixed.array (by omega)) fun _ => Fixed.config (Fixed.pure _)

theorem Fixed.parseIf {s : Spec α} {n : Nat} (c : Bool) (h : Fixed cfg s n) :
    Fixed cfg (Perf.parseIf c s) (if c then n else 0) := by
  cases c with
  | true => exact Fixed.bind (m := 0) h fun _ => Fixed.pure _
  | false => exact Fixed.pure _

theorem Fixed.cpu : Fixed cfg (parseCpu : Spec U32) 8 :=
  Fixed.bind (n := 4) (m := 4) Fixed.u32 fun _ => Fixed.bind (n := 4) (m := 0) Fixed.u32 fun _ => Fixed.pure _

/-! ## Flag bits -/

/-- A one-bit flag is contained iff its bit is set. -/
theorem contains_bit (x : U64) (i : Nat) (h : i < 64) : contains x (1#64 <<< i) = x.getLsbD i := by
  unfold contains
  have h1 : (1#64 <<< i : U64) = BitVec.twoPow 64 i := by
    simp [BitVec.twoPow]
  rw [h1]
  cases hx : x.getLsbD i with
  | true =>
    rw [beq_iff_eq]
    ext j hj
    simp only [BitVec.getElem_and, BitVec.getElem_twoPow]
    by_cases hij : i = j
    · subst hij
      rw [← BitVec.getLsbD_eq_getElem]
      simp [hx]
    · simp [Ne.symm hij]
  | false =>
    rw [beq_eq_false_iff_ne]
    intro he
    have := congrArg (fun y => y.getLsbD i) he
    rw [BitVec.getLsbD_eq_getElem h] at hx
    simp [h] at this
    rw [hx] at this
    cases this

/-- Number of bytes of the `sample_id` trailer the kernel appends for a `sample_type`: 8 for each of
`PERF_SAMPLE_{TID,TIME,ID,STREAM_ID,CPU,IDENTIFIER}` (bits 1, 2, 6, 9, 7 and 16) that is set. -/
def trailerLen (sampleType : U64) : Nat :=
  8 * ([1, 2, 6, 9, 7, 16].filter fun i => sampleType.getLsbD i).length

theorem popcount_trailer (x : U64) :
    popcount (x &&& (SampleFlags.TID ||| SampleFlags.TIME ||| SampleFlags.ID |||
      SampleFlags.STREAM_ID ||| SampleFlags.CPU ||| SampleFlags.IDENTIFIER)) * 8 = trailerLen x := by
  have hm : (SampleFlags.TID ||| SampleFlags.TIME ||| SampleFlags.ID |||
      SampleFlags.STREAM_ID ||| SampleFlags.CPU ||| SampleFlags.IDENTIFIER) = 0x102c6#64 := by decide
  rw [hm]
  unfold popcount trailerLen
  have hl : (List.range 64).filter (fun i => (x &&& 0x102c6#64).getLsbD i) =
      ((List.range 64).filter (fun i => (0x102c6#64).getLsbD i)).filter (fun i => x.getLsbD i) := by
    rw [List.filter_filter]
    congr 1
    funext i
    rw [BitVec.getLsbD_and]
  have hc : (List.range 64).filter (fun i => (0x102c6#64).getLsbD i) = [1, 2, 6, 7, 9, 16] := by decide
  rw [hl, hc]
  simp only [List.filter_cons, List.filter_nil]
  cases x.getLsbD 1 <;> cases x.getLsbD 2 <;> cases x.getLsbD 6 <;> cases x.getLsbD 7 <;> cases x.getLsbD 9 <;>
    cases x.getLsbD 16 <;> rfl

theorem estimateLen_eq (cfg : ParseConfig) :
    SampleId.estimateLen cfg = if cfg.sampleIdAll then trailerLen cfg.sampleType else 0 := by
  unfold SampleId.estimateLen
  cases cfg.sampleIdAll with
  | true => simp only [Bool.not_true, Bool.false_eq_true, if_false, if_true]; exact popcount_trailer _
  | false => rfl

theorem Fixed.sampleId : Fixed cfg (parseSampleId : Spec SampleId) (SampleId.estimateLen cfg) := by
  unfold parseSampleId
  refine Fixed.config ?_
  rw [estimateLen_eq]
  cases cfg.sampleIdAll with
  | false =>
    simp only [Bool.not_false, if_true, Bool.false_eq_true, if_false]
    exact Fixed.pure _
  | true =>
    simp only [Bool.not_true, Bool.false_eq_true, if_false, if_true]
    have key := Fixed.bind (Fixed.parseIf (cfg := cfg) (contains cfg.sampleType SampleFlags.TID) Fixed.u32) fun pid =>
      Fixed.bind (Fixed.parseIf (contains cfg.sampleType SampleFlags.TID) Fixed.u32) fun tid =>
      Fixed.bind (Fixed.parseIf (contains cfg.sampleType SampleFlags.TIME) Fixed.u64) fun time =>
      Fixed.bind (Fixed.parseIf (contains cfg.sampleType SampleFlags.ID) Fixed.u64) fun id =>
      Fixed.bind (Fixed.parseIf (contains cfg.sampleType SampleFlags.STREAM_ID) Fixed.u64) fun streamId =>
      Fixed.bind (Fixed.parseIf (contains cfg.sampleType SampleFlags.CPU) Fixed.cpu) fun cpu =>
      Fixed.bind (Fixed.parseIf (contains cfg.sampleType SampleFlags.IDENTIFIER) Fixed.u64) fun identifier =>
      Fixed.pure ({ pid, tid, time, id := id.or identifier, streamId, cpu } : SampleId)
    have hn : (if contains cfg.sampleType SampleFlags.TID then 4 else 0) +
        ((if contains cfg.sampleType SampleFlags.TID then 4 else 0) +
        ((if contains cfg.sampleType SampleFlags.TIME then 8 else 0) +
        ((if contains cfg.sampleType SampleFlags.ID then 8 else 0) +
        ((if contains cfg.sampleType SampleFlags.STREAM_ID then 8 else 0) +
        ((if contains cfg.sampleType SampleFlags.CPU then 8 else 0) +
        ((if contains cfg.sampleType SampleFlags.IDENTIFIER then 8 else 0) + 0)))))) = trailerLen cfg.sampleType := by
      unfold SampleFlags.TID SampleFlags.TIME SampleFlags.ID SampleFlags.STREAM_ID SampleFlags.CPU SampleFlags.IDENTIFIER
      rw [contains_bit _ 1 (by omega), contains_bit _ 2 (by omega), contains_bit _ 6 (by omega),
        contains_bit _ 9 (by omega), contains_bit _ 7 (by omega), contains_bit _ 16 (by omega)]
      unfold trailerLen
      simp only [List.filter_cons, List.filter_nil]
      cases cfg.sampleType.getLsbD 1 <;> cases cfg.sampleType.getLsbD 2 <;> cases cfg.sampleType.getLsbD 6 <;>
        cases cfg.sampleType.getLsbD 9 <;> cases cfg.sampleType.getLsbD 7 <;> cases cfg.sampleType.getLsbD 16 <;> rfl
    rw [hn] at key
    exact key

/-! ## Framing without the inner failure -/

/-- What becomes of the header and the bytes after it, before the body is looked at: everything that can go wrong. -/
theorem Spec.metadata_cases (h : Header) (f : Flat) :
    (h.size.toNat < 8 ∧ Spec.metadataWithHeader h f =
      .error (.err (.custom .invalidRecord "header size was too small to be valid"))) ∨
    (8 ≤ h.size.toNat ∧ f.s.bytes.length < h.size.toNat - 8 ∧ Spec.metadataWithHeader h f = .error (.err f.s.fin)) ∨
    (8 ≤ h.size.toNat ∧ h.size.toNat - 8 ≤ f.s.bytes.length ∧ (h.type_.toNat = 1 ∨ h.type_.toNat = 9) ∧
      Spec.metadataWithHeader h f =
        .ok ((f.region (h.size.toNat - 8), Metadata.new h SampleId.default), f.adv (h.size.toNat - 8))) ∨
    (8 ≤ h.size.toNat ∧ h.size.toNat - 8 ≤ f.s.bytes.length ∧ ¬ (h.type_.toNat = 1 ∨ h.type_.toNat = 9) ∧
      h.size.toNat - 8 < SampleId.estimateLen f.cfg ∧
      Spec.metadataWithHeader h f = .error (.err (.custom .invalidRecord
        ("config has sample_id_all bit set but record does not have enough data " ++ "to store the sample_id")))) ∨
    (8 ≤ h.size.toNat ∧ h.size.toNat - 8 ≤ f.s.bytes.length ∧ ¬ (h.type_.toNat = 1 ∨ h.type_.toNat = 9) ∧
      SampleId.estimateLen f.cfg ≤ h.size.toNat - 8 ∧ ∃ sid g,
      (parseSampleId : Spec SampleId)
        ((f.region (h.size.toNat - 8)).adv (h.size.toNat - 8 - SampleId.estimateLen f.cfg)) = .ok (sid, g) ∧
      Spec.metadataWithHeader h f =
        .ok ((f.region (h.size.toNat - 8 - SampleId.estimateLen f.cfg), Metadata.new h sid),
          f.adv (h.size.toNat - 8))) := by
  unfold Spec.metadataWithHeader
  by_cases h8 : h.size.toNat < 8
  · exact .inl ⟨h8, by rw [if_pos h8]⟩
  · refine .inr ?_
    simp only [if_neg h8]
    by_cases hle : h.size.toNat - 8 ≤ f.s.bytes.length
    · refine .inr ?_
      simp only [if_pos hle]
      by_cases hty : h.type_.toNat = 1 ∨ h.type_.toNat = 9
      · exact .inl ⟨by omega, hle, hty, by simp only [if_pos hty]⟩
      · refine .inr ?_
        simp only [if_neg hty]
        by_cases hest : h.size.toNat - 8 < SampleId.estimateLen f.cfg
        · exact .inl ⟨by omega, hle, hty, hest, by simp only [if_pos hest]⟩
        · refine .inr ⟨by omega, hle, hty, by omega, ?_⟩
          have hlen : ((f.region (h.size.toNat - 8)).adv (h.size.toNat - 8 - SampleId.estimateLen f.cfg)).s.bytes.length =
              SampleId.estimateLen f.cfg := by
            simp [Flat.region]; omega
          obtain ⟨sid, hsid⟩ := (Fixed.sampleId (cfg := f.cfg)
            ((f.region (h.size.toNat - 8)).adv (h.size.toNat - 8 - SampleId.estimateLen f.cfg)) rfl).1 (by rw [hlen]; exact Nat.le_refl _)
          refine ⟨sid, _, hsid, ?_⟩
          simp only [if_neg hest, hsid]
    · exact .inl ⟨by omega, by omega, by simp only [if_neg hle]⟩

end Perf
