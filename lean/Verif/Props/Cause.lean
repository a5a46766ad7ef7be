import Verif.Proof.Says
import Verif.Proof.Dispatch
import Verif.Proof.ConfigBits
import Verif.Proof.Raw
/-!
# Every error of a record names its cause

The buffer is arbitrary: it may lie, fail and recover at will.
-/
namespace Perf

/-! ## The specification -/

/-- What is wrong with a record with header `h`, read under `cfg`, when its parsing ends with a given error (other than an
error of the buffer). Written with plain bit numbers: `read_format` bit 3 is GROUP, bits 2 and 4 are ID and LOST;
`sample_type` bits 4, 5, 11 and 13 are READ, CALLCHAIN, BRANCH_STACK and STACK_USER. -/
inductive Grounds (cfg : ParseConfig) (h : Header) : ParseError → Prop
  /-- The body ended too early. -/
  | short : 8 ≤ h.size.toNat → Grounds cfg h .eof
  | size : h.size.toNat < 8 → Grounds cfg h (.custom .invalidRecord "header size was too small to be valid")
  | trailer : 8 ≤ h.size.toNat → cfg.sampleIdAll = true → h.type_ ≠ 1#32 → h.type_ ≠ 9#32 →
      h.size.toNat < 8 + trailerLen cfg.sampleType →
      Grounds cfg h (.custom .invalidRecord ("config has sample_id_all bit set but record does not have enough data " ++
        "to store the sample_id"))
  | buildId (n : Nat) : h.type_ = 10#32 → h.misc.getLsbD 14 = true → 20 < n → n < 256 →
      Grounds cfg h (.custom .invalidRecord s!"build_id had invalid length ({n} > 20)")
  | single : h.type_ = 8#32 → cfg.readFormat.getLsbD 3 = true →
      Grounds cfg h (.custom .unsupportedConfig
        "attempted to parse a SingleRead with a config that has GROUP set in read_format")
  | flags (i : Nat) : (h.type_ = 8#32 ∧ cfg.readFormat.getLsbD 3 = false) ∨
      (h.type_ = 9#32 ∧ cfg.sampleType.getLsbD 4 = true) → 5 ≤ i → cfg.readFormat.getLsbD i = true →
      Grounds cfg h (.custom .unsupportedConfig "read_format contains unsupported flags")
  | group : h.type_ = 9#32 → cfg.sampleType.getLsbD 4 = true → cfg.readFormat.getLsbD 3 = true →
      (cfg.readFormat.getLsbD 2 = true ∨ cfg.readFormat.getLsbD 4 = true) →
      Grounds cfg h (.custom .invalidRecord "number of elements in group read was too large for data type")
  | array : cfg.endian.isNative = true →
      (h.type_ = 16#32 ∨ h.type_ = 9#32 ∧ (cfg.sampleType.getLsbD 5 = true ∨ cfg.sampleType.getLsbD 11 = true ∨
        cfg.sampleType.getLsbD 4 = true ∧ cfg.readFormat.getLsbD 3 = true)) →
      Grounds cfg h (.custom .invalidRecord "array length in bytes larger than usize::MAX")
  | stack : h.type_ = 9#32 → cfg.sampleType.getLsbD 13 = true →
      Grounds cfg h (.custom .invalidRecord "stack dyn_size was greater than the record size")

/-- The buffer returned the error `e` in some state. -/
def Reported (β : Type) [ParseBuf β] (e : ParseError) : Prop := ∃ b : β, (ParseBuf.chunk b).1 = .error (.err e)

/-! ## The record parsers with messages of their own -/
namespace Says
variable {β : Type} [ParseBuf β] {I : β → Prop} {cfg : ParseConfig} {E : ParseError → Prop} (hs : Source β I E)

theorem _root_.Perf.bits_of_ne {rf : U64} (h : ReadFormat.diff rf ReadFormat.all ≠ 0#64) :
    ∃ i, 5 ≤ i ∧ rf.getLsbD i = true := by
  refine Classical.byContradiction fun hn => h (BitVec.eq_of_getLsbD_eq fun i hi => ?_)
  have hall : ReadFormat.all = 31#64 := by decide
  rw [ReadFormat.diff, hall]
  simp only [BitVec.getLsbD_and, BitVec.getLsbD_zero]
  by_cases h5 : 5 ≤ i
  · have : rf.getLsbD i = false := by
      cases hb : rf.getLsbD i with
      | false => rfl
      | true => exact absurd ⟨i, h5, hb⟩ hn
    rw [this]; rfl
  · have : ∀ j : Fin 5, (~~~ 31#64).getLsbD j.val = false := by decide
    rw [this ⟨i, by omega⟩]; exact Bool.and_false _

theorem _root_.Perf.elementLen_one {rf : U64} (h2 : rf.getLsbD 2 = false) (h4 : rf.getLsbD 4 = false) :
    ReadFormat.elementLen rf = 1 := by
  have hz : rf &&& (ReadFormat.ID ||| ReadFormat.LOST) = 0#64 := by
    have hm : (ReadFormat.ID ||| ReadFormat.LOST) = 20#64 := by decide
    rw [hm]
    refine BitVec.eq_of_getLsbD_eq fun i hi => ?_
    simp only [BitVec.getLsbD_and, BitVec.getLsbD_zero]
    by_cases e2 : i = 2
    · subst e2; rw [h2]; rfl
    · by_cases e4 : i = 4
      · subst e4; rw [h4]; rfl
      · have : ∀ j : Fin 64, j.val ≠ 2 → j.val ≠ 4 → (20#64).getLsbD j.val = false := by decide
        rw [this ⟨i, hi⟩ e2 e4]; exact Bool.and_false _
  rw [ReadFormat.elementLen, hz]; decide

include hs

theorem mmapDetail (hb : ∀ n : Nat, cfg.misc.getLsbD 14 = true → 20 < n → n < 256 →
      E (.custom .invalidRecord s!"build_id had invalid length ({n} > 20)")) :
    Says I cfg E (parseMmapDetail : P β MmapDetail) := by
  unfold parseMmapDetail
  refine withConfig (ite (fun hm => ?_) fun _ => ?_)
  · refine (u8 hs).bind fun len => (u8 hs).bind fun _ => (u16 hs).bind fun _ => ?_
    refine (array hs 20).bindQ (Q := fun bs => bs.length = 20) ?_ fun bs hbs => ?_
    · exact Post.array 20
    refine ite (fun hl => fail (hb len.toNat ?_ (by omega) len.isLt)) fun _ => pure _
    cases hg : cfg.misc.getLsbD 14 with
    | true => rfl
    | false =>
      refine absurd (BitVec.eq_of_getLsbD_eq fun i hi => ?_) hm
      simp only [BitVec.getLsbD_and, BitVec.getLsbD_zero]
      by_cases e : i = 14
      · subst e; rw [hg]; rfl
      · have : ∀ j : Fin 16, j.val ≠ 14 → MISC_MMAP_BUILD_ID.getLsbD j.val = false := by decide
        rw [this ⟨i, hi⟩ e]; exact Bool.and_false _
  · says hs

theorem mmap2 (hb : ∀ n : Nat, cfg.misc.getLsbD 14 = true → 20 < n → n < 256 →
      E (.custom .invalidRecord s!"build_id had invalid length ({n} > 20)")) :
    Says I cfg E (parseMmap2 : P β (Mmap2 Cow)) := by
  unfold parseMmap2
  iterate 5 refine bind (by says_leaf hs) fun _ => ?_
  refine (mmapDetail hs hb).bind fun _ => ?_
  says hs

theorem readValue
    (h1 : cfg.readFormat.getLsbD 3 = true → E (.custom .unsupportedConfig
      "attempted to parse a SingleRead with a config that has GROUP set in read_format"))
    (h2 : ∀ i, cfg.readFormat.getLsbD 3 = false → 5 ≤ i → cfg.readFormat.getLsbD i = true →
      E (.custom .unsupportedConfig "read_format contains unsupported flags")) :
    Says I cfg E (parseReadValue : P β ReadValue) := by
  unfold parseReadValue
  have hg := contains_bit cfg.readFormat 3 (by omega)
  refine withConfig (ite (fun h => fail (h1 (hg.symm.trans h))) fun h => ite (fun hd => fail ?_) fun _ => ?_)
  · obtain ⟨i, hi, hb⟩ := bits_of_ne hd
    exact h2 i (hg.symm.trans (Bool.eq_false_iff.2 h)) hi hb
  · says hs

theorem read
    (h1 : cfg.readFormat.getLsbD 3 = true → E (.custom .unsupportedConfig
      "attempted to parse a SingleRead with a config that has GROUP set in read_format"))
    (h2 : ∀ i, cfg.readFormat.getLsbD 3 = false → 5 ≤ i → cfg.readFormat.getLsbD i = true →
      E (.custom .unsupportedConfig "read_format contains unsupported flags")) :
    Says I cfg E (parseRead : P β Read) := by
  unfold parseRead
  exact (u32 hs).bind fun _ => (u32 hs).bind fun _ => (readValue hs h1 h2).bind fun _ => pure _

theorem values
    (h2 : ∀ i, 5 ≤ i → cfg.readFormat.getLsbD i = true →
      E (.custom .unsupportedConfig "read_format contains unsupported flags"))
    (h3 : cfg.readFormat.getLsbD 3 = true → (cfg.readFormat.getLsbD 2 = true ∨ cfg.readFormat.getLsbD 4 = true) →
      E (.custom .invalidRecord "number of elements in group read was too large for data type"))
    (h4 : cfg.readFormat.getLsbD 3 = true → cfg.endian.isNative = true →
      E (.custom .invalidRecord "array length in bytes larger than usize::MAX")) :
    Says I cfg E (parseValues : P β (ReadGroup Cow)) := by
  unfold parseValues
  have hg := contains_bit cfg.readFormat 3 (by omega)
  refine withConfig (ite (fun h => ?_) fun h => ?_)
  · have h' : cfg.readFormat.getLsbD 3 = true := hg.symm.trans h
    unfold parseReadGroup
    refine withConfig (ite (fun hn => ?_) fun _ => ite (fun hd => fail ?_) fun _ => ?_)
    · exfalso
      rw [h] at hn; cases hn
    · obtain ⟨i, hi, hb⟩ := bits_of_ne hd
      exact h2 i hi hb
    · refine bind (by says_leaf hs) fun nr => bind (by says_leaf hs) fun _ => bind (by says_leaf hs) fun _ => ?_
      refine ite (fun hb => fail (h3 h' ?_)) fun _ => ?_
      · cases e2 : cfg.readFormat.getLsbD 2 with
        | true => exact .inl rfl
        | false =>
          cases e4 : cfg.readFormat.getLsbD 4 with
          | true => exact .inr rfl
          | false =>
            rw [elementLen_one e2 e4] at hb
            have := nr.isLt
            unfold usizeLimit at hb
            omega
      · exact (slice hs _ _ (u64 hs) fun hn _ => h4 h' hn).bind fun _ => pure _
  · have h' : cfg.readFormat.getLsbD 3 = false := hg.symm.trans (Bool.eq_false_iff.2 h)
    refine (readValue hs (fun ht => ?_) fun i _ => h2 i).bind fun _ => pure _
    rw [h'] at ht; cases ht

theorem namespaces
    (h1 : cfg.endian.isNative = true → E (.custom .invalidRecord "array length in bytes larger than usize::MAX")) :
    Says I cfg E (parseNamespaces : P β (Namespaces Cow)) := by
  unfold parseNamespaces
  iterate 3 refine bind (by says_leaf hs) fun _ => ?_
  exact (slice hs _ _ (namespaceEntry hs) fun hn _ => h1 hn).bind fun _ => pure _

theorem registers (mask : U64) : Says I cfg E (parseRegisters mask : P β (Registers Cow)) := by
  unfold parseRegisters
  refine (u64 hs).bind fun _ => (slice hs _ _ (u64 hs) fun _ hb => ?_).bind fun _ => pure _
  exfalso
  have hp : popcount mask ≤ 64 := by
    have := List.length_filter_le (fun i => mask.getLsbD i) (List.range 64)
    rw [List.length_range] at this
    exact this
  have h8 : U64.elem.size = 8 := rfl
  rw [h8] at hb
  unfold usizeLimit at hb
  omega

theorem sample
    (h2 : ∀ i, cfg.sampleType.getLsbD 4 = true → 5 ≤ i → cfg.readFormat.getLsbD i = true →
      E (.custom .unsupportedConfig "read_format contains unsupported flags"))
    (h3 : cfg.sampleType.getLsbD 4 = true → cfg.readFormat.getLsbD 3 = true →
      (cfg.readFormat.getLsbD 2 = true ∨ cfg.readFormat.getLsbD 4 = true) →
      E (.custom .invalidRecord "number of elements in group read was too large for data type"))
    (h4 : cfg.endian.isNative = true → (cfg.sampleType.getLsbD 5 = true ∨ cfg.sampleType.getLsbD 11 = true ∨
        cfg.sampleType.getLsbD 4 = true ∧ cfg.readFormat.getLsbD 3 = true) →
      E (.custom .invalidRecord "array length in bytes larger than usize::MAX"))
    (h5 : cfg.sampleType.getLsbD 13 = true →
      E (.custom .invalidRecord "stack dyn_size was greater than the record size")) :
    Says I cfg E (parseSample : P β (Sample Cow)) := by
  unfold parseSample
  have hb : ∀ {i : Nat} (_ : i < 64), contains cfg.sampleType (1#64 <<< i) = true → cfg.sampleType.getLsbD i = true :=
    fun hi h => (contains_bit _ _ hi).symm.trans h
  refine withConfig ?_
  iterate 10 refine bind (parseIf _ fun _ => by says_leaf hs) fun _ => ?_
  refine bind (parseIf _ fun c => ?_) fun _ => ?_
  · have hr := hb (i := 4) (by omega) c
    exact values hs (fun i => h2 i hr) (h3 hr) fun hg hn => h4 hn (.inr (.inr ⟨hr, hg⟩))
  refine bind (parseIf _ fun c => ?_) fun _ => ?_
  · unfold parseCallchain
    exact (u64 hs).bind fun _ => slice hs _ _ (u64 hs) fun hn _ => h4 hn (.inl (hb (i := 5) (by omega) c))
  refine bind (parseIf _ fun _ => padded hs 8 (rawInner hs)) fun _ => ?_
  refine bind (parseIf _ fun c => ?_) fun _ => ?_
  · unfold parseLbr
    refine (u64 hs).bind fun _ => bind (by says_leaf hs) fun _ => ?_
    exact (slice hs _ _ (branchEntry hs) fun hn _ => h4 hn (.inr (.inl (hb (i := 11) (by omega) c)))).bind fun _ => pure _
  refine bind (parseIf _ fun _ => withConfig (registers hs _)) fun _ => ?_
  refine bind (parseIf _ fun c => ?_) fun _ => ?_
  · unfold parseStackUser
    refine (u64 hs).bind fun _ => (bytes hs _).bind fun _ => (dynSize hs _).bind fun _ => ?_
    exact ite (fun _ => fail (h5 (hb (i := 13) (by omega) c))) fun _ => pure _
  iterate 3 refine bind (parseIf _ fun _ => by says_leaf hs) fun _ => ?_
  refine bind (parseIf _ fun _ => withConfig (registers hs _)) fun _ => ?_
  iterate 4 refine bind (parseIf _ fun _ => by says_leaf hs) fun _ => ?_
  exact bind (parseIf _ fun _ => auxData hs) fun _ => pure _

end Says

/-! ## The record's own buffers -/

theorem Cursor.source {E : ParseError → Prop} (h : E .eof) : Source Cursor (fun _ => True) E where
  err b e _ he := by
    have he' : b.chunk = .error (.err e) := he
    unfold Cursor.chunk at he'
    split at he'
    · cases he'; exact h
    · split at he' <;> cases he'
  chunk _ _ := trivial
  advance _ _ _ _ _ := trivial

theorem Slice.source {E : ParseError → Prop} (h : E .eof) : Source Slice (fun _ => True) E where
  err b e _ he := by
    have he' : (if b.data = [] then .error (.err .eof) else .ok ⟨.external b.addr, b.data⟩ : Except Fault Chunk) =
      .error (.err e) := he
    split at he'
    · cases he'; exact h
    · cases he'
  chunk _ _ := trivial
  advance _ _ _ _ _ := trivial

theorem Source.tracking {β : Type} [ParseBuf β] {I : β → Prop} {E : ParseError → Prop} (h : Source β I E) :
    Source (Tracking β) (fun t => I t.buf) E where
  err b e hi he := h.err b.buf e hi he
  chunk b hi := h.chunk b.buf hi
  advance b b' n hi hb := by
    have h0 : (ParseBuf.advance b.buf n).map (fun x => (⟨x, b.offset + n⟩ : Tracking β)) = some b' := hb
    rcases hx : ParseBuf.advance b.buf n with _ | x
    · rw [hx] at h0; cases h0
    · rw [hx] at h0
      simp only [Option.map_some, Option.some.injEq] at h0
      subst h0
      exact h.advance _ _ _ hi hx

/-! ## A record -/
section
variable {β γ O : Type} [ParseBuf β] [ParseBuf γ]

/-- The body of the record `h`: its own grounds, or what the visitor returned. -/
theorem Says.dispatch {I : γ → Prop} {cfg : ParseConfig} {E : ParseError → Prop} (hs : Source γ I E) (v : Visitor Cow O)
    (h : Header) (md : Metadata) (ht : md.ty = h.type_) (hm : cfg.misc = h.misc)
    (hE : ∀ e, Grounds cfg h e → E e) (hV : ∀ r e, v.apply r md = .error (.err e) → E e) :
    Says I cfg E (P.dispatch v md : P γ O) := by
  have hty : ∀ {n : Nat}, n < 2 ^ 32 → md.ty.toNat = n → h.type_ = BitVec.ofNat 32 n := by
    intro n hn h'
    rw [ht] at h'
    refine BitVec.eq_of_toNat_eq ?_
    rw [h', BitVec.toNat_ofNat, Nat.mod_eq_of_lt hn]
  unfold P.dispatch
  split
  · exact (mmap hs).bind fun r => ofExcept (hV (.mmap r))
  · exact (lost hs).bind fun r => ofExcept (hV (.lost r))
  · exact (comm hs).bind fun r => ofExcept (hV (.comm r))
  · exact (exit hs).bind fun r => ofExcept (hV (.exit r))
  · exact (throttle hs).bind fun r => ofExcept (hV (.throttle r))
  · exact (throttle hs).bind fun r => ofExcept (hV (.unthrottle r))
  · exact (exit hs).bind fun r => ofExcept (hV (.fork r))
  · rename_i h8
    have h8' := hty (by omega) h8
    exact (read hs (fun hg => hE _ (.single h8' hg)) fun i hg hi hb => hE _ (.flags i (.inl ⟨h8', hg⟩) hi hb)).bind
      fun r => ofExcept (hV (.read r))
  · rename_i h9
    have h9' := hty (by omega) h9
    refine (sample hs (fun i hr hi hb => hE _ (.flags i (.inr ⟨h9', hr⟩) hi hb)) (fun hr hg hl => hE _ (.group h9' hr hg hl))
      (fun hn hl => hE _ (.array hn (.inr ⟨h9', hl⟩))) fun hk => hE _ (.stack h9' hk)).bind fun r => ofExcept (hV (.sample r))
  · rename_i h10
    have h10' := hty (by omega) h10
    exact (mmap2 hs fun n hb hn hl => hE _ (.buildId n h10' (hm ▸ hb) hn hl)).bind fun r => ofExcept (hV (.mmap2 r))
  · exact (aux hs).bind fun r => ofExcept (hV (.aux r))
  · exact (itraceStart hs).bind fun r => ofExcept (hV (.itraceStart r))
  · exact (lostSamples hs).bind fun r => ofExcept (hV (.lostSamples r))
  · exact (switchCpuWide hs).bind fun r => ofExcept (hV (.switchCpuWide r))
  · rename_i h16
    have h16' := hty (by omega) h16
    exact (namespaces hs fun hn => hE _ (.array hn (.inl h16'))).bind fun r => ofExcept (hV (.namespaces r))
  · exact (ksymbol hs).bind fun r => ofExcept (hV (.ksymbol r))
  · exact (bpfEvent hs).bind fun r => ofExcept (hV (.bpfEvent r))
  · exact (cgroup hs).bind fun r => ofExcept (hV (.cgroup r))
  · exact (textPoke hs).bind fun r => ofExcept (hV (.textPoke r))
  · exact (auxOutputHwId hs).bind fun r => ofExcept (hV (.auxOutputHwId r))
  · exact (rest hs).bind fun r => ofExcept (hV (.unknown md.ty r))

theorem Grounds.withMisc {cfg : ParseConfig} {h : Header} {m : U16} {e : ParseError} (hg : Grounds (cfg.withMisc m) h e) :
    Grounds cfg h e := by
  have h1 := ParseConfig.withMisc_sampleType cfg m
  have h2 := ParseConfig.withMisc_readFormat cfg m
  have h3 := ParseConfig.withMisc_sampleIdAll cfg m
  cases hg with
  | short a => exact .short a
  | size a => exact .size a
  | trailer a b c d g => exact .trailer a (h3 ▸ b) c d (h1 ▸ g)
  | buildId n a b c d => exact .buildId n a b c d
  | single a b => exact .single a (h2 ▸ b)
  | flags i a b c => exact .flags i (by rw [h1, h2] at a; exact a) b (h2 ▸ c)
  | group a b c d => exact .group a (h1 ▸ b) (h2 ▸ c) (h2 ▸ d)
  | array a b => exact .array a (by rw [h1, h2] at b; exact b)
  | stack a b => exact .stack a (h1 ▸ b)

omit [ParseBuf β] in
theorem P.onChild_res {δ α : Type} {c : Parser δ} {m : P δ α} {p : Parser β} {r : α × Parser δ}
    (h : (P.onChild c m p).res = .ok r) : (m c).res = .ok r.1 ∧ r.2 = (m c).st := by
  unfold P.onChild at h
  rcases hm : (m c).res with x | a
  · simp only [hm] at h; cases h
  · simp only [hm] at h; cases h; exact ⟨rfl, rfl⟩

theorem P.newCursor_config (n : Nat) (p : Parser β) : ((P.newCursor n : P β Cursor) p).st.config = p.config :=
  (Says.newCursor (I := fun _ => True) (E := fun _ => True) (cfg := p.config)
    ⟨fun _ _ _ _ => trivial, fun _ _ => trivial, fun _ _ _ _ _ => trivial⟩ n p trivial rfl).2.1

/-- A region has the configuration of the parser it was split off. -/
theorem P.splitAt_config {n : Nat} {p : Parser β} {q : Parser Cursor} (h : (P.splitAt n p).res = .ok q) :
    q.config = p.config := by
  obtain ⟨c, _, h2⟩ := P.bind_res (m := P.newCursor n) h
  have h3 : (Except.ok (Parser.new c ((P.newCursor n : P β Cursor) p).st.config) : Except Fault _) = .ok q := h2
  cases h3
  exact P.newCursor_config n p

/-- The header's fields are passed on, and the region's configuration is the parser's. -/
theorem P.metadata_ok {h : Header} {p : Parser β} {r : Parser Cursor × Metadata}
    (hr : (P.metadataWithHeader h p).res = .ok r) :
    r.1.config = p.config ∧ r.2.ty = h.type_ ∧ r.2.misc = h.misc ∧ 8 ≤ h.size.toNat := by
  unfold P.metadataWithHeader at hr
  by_cases h8 : h.size.toNat < 8
  · rw [if_pos h8] at hr; cases hr
  rw [if_neg h8] at hr
  obtain ⟨rp, h1, h2⟩ := P.bind_res hr
  have hc := P.splitAt_config h1
  by_cases ht : h.type_.toNat = 1 ∨ h.type_.toNat = 9
  · rw [if_pos ht] at h2; cases h2
    exact ⟨hc, rfl, rfl, by omega⟩
  rw [if_neg ht] at h2
  by_cases hd : h.size.toNat - 8 < SampleId.estimateLen rp.config
  · rw [if_pos hd] at h2; cases h2
  rw [if_neg hd] at h2
  obtain ⟨⟨q, rp'⟩, h3, h4⟩ := P.bind_res h2
  obtain ⟨⟨sid, x⟩, h5, h6⟩ := P.bind_res h4
  cases h6
  have := P.splitAt_config (P.onChild_res h3).1
  exact ⟨this.trans hc, rfl, rfl, by omega⟩

/-- The error is none of the three that framing a record can end with. -/
def FromBody (e : ParseError) : Prop :=
  e ≠ .eof ∧ e ≠ .custom .invalidRecord "header size was too small to be valid" ∧
  e ≠ .custom .invalidRecord ("config has sample_id_all bit set but record does not have enough data " ++
        "to store the sample_id")

theorem FromBody.not_eof : ¬ FromBody .eof := fun h => h.1 rfl
theorem FromBody.not_size : ¬ FromBody (.custom .invalidRecord "header size was too small to be valid") := fun h => h.2.1 rfl
theorem FromBody.not_trailer : ¬ FromBody (.custom .invalidRecord
    ("config has sample_id_all bit set but record does not have enough data " ++ "to store the sample_id")) :=
  fun h => h.2.2 rfl

theorem Says.metadata {I : β → Prop} {cfg : ParseConfig} {E : ParseError → Prop} (hs : Source β I E) (h : Header)
    (hE : ∀ e, Grounds cfg h e → ¬ FromBody e → E e) :
    Says I cfg E (P.metadataWithHeader h : P β (Parser Cursor × Metadata)) := by
  unfold P.metadataWithHeader
  refine ite (fun h8 => fail (hE _ (.size h8) FromBody.not_size)) fun h8 => ?_
  refine (splitAt hs _).bindY (Q := fun q => q.config = cfg) (fun p q _ hc hq => (P.splitAt_config hq).trans hc) fun rp hc => ?_
  have hcs : Source Cursor (fun _ => True) E := Cursor.source (hE _ (.short (by omega)) FromBody.not_eof)
  refine ite (fun _ => pure _) fun ht => ite (fun hd => fail (hE _ ?_ FromBody.not_trailer)) fun _ => ?_
  · rw [hc, estimateLen_eq] at hd
    cases hall : cfg.sampleIdAll with
    | false => rw [hall] at hd; simp at hd
    | true =>
      rw [hall, if_pos rfl] at hd
      refine .trailer (by omega) hall (fun h1 => ht (.inl ?_)) (fun h9 => ht (.inr ?_)) (by omega)
      · rw [h1]; rfl
      · rw [h9]; rfl
  · refine (onChild _ ?_).bind fun q => (onChild _ ?_).bind fun _ => pure _
    · exact (splitAt hcs _ rp trivial rfl).2.2
    · exact (sampleId hcs q.2 trivial rfl).2.2

/-- What the visitor returned for a record with this header. -/
def Refused (v : Visitor Cow O) (h : Header) (e : ParseError) : Prop :=
  ∃ r md, md.ty = h.type_ ∧ md.misc = h.misc ∧ v.apply r md = .error (.err e)

theorem Says.recordWithHeader {I : β → Prop} {cfg : ParseConfig} {E : ParseError → Prop} (hs : Source β I E)
    (v : Visitor Cow O) (h : Header) (hE : ∀ e, Grounds cfg h e → E e) (hV : ∀ e, Refused v h e → E e) :
    Says I cfg E (P.recordWithHeader v h : P β O) := by
  unfold P.recordWithHeader
  refine (metadata hs h fun e he _ => hE e he).bindY (Q := fun r => r.1.config = cfg ∧ r.2.ty = h.type_ ∧ r.2.misc = h.misc ∧ 8 ≤ h.size.toNat)
    (fun p r _ hc hr => ?_) fun r hq => ?_
  · have := P.metadata_ok hr
    exact ⟨this.1.trans hc, this.2⟩
  obtain ⟨q, md⟩ := r
  obtain ⟨h1, h2, h3, h8⟩ := hq
  simp only at h1 h2 h3
  subst h1
  have heof : E .eof := hE _ (.short h8)
  have hEm : ∀ e, Grounds (q.config.withMisc md.misc) h e → E e := fun e he => hE e he.withMisc
  have hmisc : (q.config.withMisc md.misc).misc = h.misc := (ParseConfig.withMisc_misc q.config _).trans h3
  have hV' : ∀ r e, v.apply r md = .error (.err e) → E e := fun r e he => hV e ⟨r, md, h2, h3, he⟩
  show Says I q.config E (match q.data.buf.asSlice with
    | some data => P.recordImpl (Parser.new data q.config) v md
    | none => P.recordImpl q v md)
  split
  · rename_i data _
    refine (onChild _ ?_).bind fun _ => pure _
    exact fun e he => (dispatch (Slice.source heof).tracking v h md h2 hmisc hEm hV'
      (Parser.new (Parser.new data q.config).data (q.config.withMisc md.misc)) trivial rfl).2.2 e he
  · refine (onChild _ ?_).bind fun _ => pure _
    exact fun e he => (dispatch (Cursor.source heof).tracking v h md h2 hmisc hEm hV'
      (Parser.new q.data (q.config.withMisc md.misc)) trivial rfl).2.2 e he

/-! ## C82 -/

/-- **C82** For any buffer and any visitor: an error of `parse_record_with_header` is an error of the buffer, or has its
grounds in the record, or was returned by the visitor for a record with this header. -/
theorem c82_with_header {I : β → Prop} {E : ParseError → Prop} (hs : Source β I E) (v : Visitor Cow O) (h : Header)
    {p : Parser β} (hi : I p.data.buf) {e : ParseError} (he : (P.recordWithHeader v h p).res = .error (.err e)) :
    E e ∨ Grounds p.config h e ∨ Refused v h e :=
  (Says.recordWithHeader (E := fun e => E e ∨ Grounds p.config h e ∨ Refused v h e)
    ⟨fun b e hi he => .inl (hs.err b e hi he), hs.chunk, hs.advance⟩ v h (fun _ hg => .inr (.inl hg))
    (fun _ hr => .inr (.inr hr)) p hi rfl).2.2 e he

/-- **C82** `parse_metadata_with_header` ends only with an error of the buffer, an `Eof`, or one of the two messages about
the size, each with its grounds. -/
theorem c82_metadata {I : β → Prop} {E : ParseError → Prop} (hs : Source β I E) (h : Header)
    {p : Parser β} (hi : I p.data.buf) {e : ParseError} (he : (P.metadataWithHeader h p).res = .error (.err e)) :
    E e ∨ Grounds p.config h e ∧ ¬ FromBody e :=
  (Says.metadata (E := fun e => E e ∨ Grounds p.config h e ∧ ¬ FromBody e)
    ⟨fun b e hi he => .inl (hs.err b e hi he), hs.chunk, hs.advance⟩ h (fun _ hg hf => .inr ⟨hg, hf⟩) p hi rfl).2.2 e he

/-- **C82** The same for `parse_record`: the header in question is the one that was read. -/
theorem c82_record {I : β → Prop} {E : ParseError → Prop} (hs : Source β I E) (v : Visitor Cow O)
    {p : Parser β} (hi : I p.data.buf) {e : ParseError} (he : (P.record v p).res = .error (.err e)) :
    E e ∨ ∃ h, ((parseHeader : P β Header) p).res = .ok h ∧ (Grounds p.config h e ∨ Refused v h e) := by
  obtain ⟨h1, h2, h3⟩ := Says.header (cfg := p.config) hs p hi rfl
  unfold P.record at he
  rcases hm : ((parseHeader : P β Header) p).res with x | h
  · rw [P.bind_err (P.run_eq _ hm)] at he
    refine .inl (h3 e ?_)
    rw [hm]; cases he; rfl
  · rw [P.bind_ok (P.run_eq _ hm)] at he
    have := c82_with_header hs v h h1 he
    rw [h2] at this
    rcases this with a | a
    · exact .inl a
    · exact .inr ⟨h, rfl, a⟩

theorem recordVisitor_no_error (r : Record Cow) (md : Metadata) : ∃ x, (recordVisitor Cow).apply r md = .ok x := by
  cases r <;> exact ⟨_, rfl⟩

/-- **C82** Through the crate's own visitor, over any buffer. -/
theorem c82_any {p : Parser β} {e : ParseError} (he : (P.parseRecord p).res = .error (.err e)) :
    Reported β e ∨ ∃ h, ((parseHeader : P β Header) p).res = .ok h ∧ Grounds p.config h e := by
  have hs : Source β (fun _ => True) (Reported β) :=
    ⟨fun b e _ h => ⟨b, h⟩, fun _ _ => trivial, fun _ _ _ _ _ => trivial⟩
  rcases c82_record hs (recordVisitor Cow) trivial he with h | ⟨h, h1, h2 | ⟨r, md, _, _, h3⟩⟩
  · exact .inl h
  · exact .inr ⟨h, h1, h2⟩
  · obtain ⟨x, hx⟩ := recordVisitor_no_error r md
    rw [hx] at h3; cases h3

/-- **C82** From a slice: an `Eof`, or an error with its grounds in the record. -/
theorem c82_slice {p : Parser Slice} {e : ParseError} (he : (P.parseRecord p).res = .error (.err e)) :
    e = .eof ∨ ∃ h, ((parseHeader : P Slice Header) p).res = .ok h ∧ Grounds p.config h e := by
  rcases c82_any he with ⟨b, h⟩ | h
  · exact .inl ((Slice.source (E := (· = .eof)) rfl).err b e trivial h)
  · exact .inr h

/-- The errors a reader will still report are among `es`. -/
def BufReader.Fails (es : List IoError) (r : BufReader) : Prop := ∀ e, .error e ∈ r.script → e ∈ es

theorem BufReader.source (es : List IoError) :
    Source BufReader (BufReader.Fails es) (fun e => e = .eof ∨ ∃ x ∈ es, e = .ofIo x) where
  err b e hi he := by
    obtain ⟨buf, script⟩ := b
    rcases buf with _ | ⟨b, bs⟩
    · rcases script with _ | ⟨ev, es'⟩
      · cases he; exact .inl rfl
      · cases ev with
        | data d =>
          cases d with
          | nil => cases he; exact .inl rfl
          | cons x xs => cases he
        | error x => cases he; exact .inr ⟨x, hi x List.mem_cons_self, rfl⟩
    · cases he
  chunk b hi := by
    obtain ⟨buf, script⟩ := b
    rcases buf with _ | ⟨b, bs⟩
    · rcases script with _ | ⟨ev, es'⟩
      · exact hi
      · cases ev with
        | data d => cases d <;> exact fun e he => hi e (List.mem_cons_of_mem _ he)
        | error x => exact fun e he => hi e (List.mem_cons_of_mem _ he)
    · exact hi
  advance b b' n hi h := by
    cases h
    exact hi

/-- **C82** Through a `BufReader`: an `Eof`, an error which one of its `read` calls returns (its text kept, `Interrupted`
and all other kinds alike), or an error with its grounds in the record. -/
theorem c82_reader {p : Parser BufReader} {e : ParseError} (he : (P.parseRecord p).res = .error (.err e)) :
    e = .eof ∨ (∃ x, .error x ∈ p.data.buf.script ∧ e = .ofIo x) ∨
      ∃ h, ((parseHeader : P BufReader Header) p).res = .ok h ∧ Grounds p.config h e := by
  let es := p.data.buf.script.filterMap fun
    | .error x => some x
    | .data _ => none
  have hes : ∀ x, x ∈ es ↔ .error x ∈ p.data.buf.script := by
    intro x
    simp only [es, List.mem_filterMap]
    constructor
    · rintro ⟨ev, hev, h⟩
      cases ev with
      | data _ => cases h
      | error y => cases h; exact hev
    · exact fun h => ⟨_, h, rfl⟩
  rcases c82_record (BufReader.source es) (recordVisitor Cow) (fun x hx => (hes x).2 hx) he with
    (h | ⟨x, hx, h⟩) | ⟨h, h1, h2 | ⟨r, md, _, _, h3⟩⟩
  · exact .inl h
  · exact .inr (.inl ⟨x, (hes x).1 hx, h⟩)
  · exact .inr (.inr ⟨h, h1, h2⟩)
  · obtain ⟨x, hx⟩ := recordVisitor_no_error r md
    rw [hx] at h3; cases h3

/-! ## Every kind of grounds occurs -/

/-- The error of parsing a record from little-endian bytes at an aligned address. -/
def causeOf (rf st : U64) (all : Bool) (bs : List Byte) : Option ParseError :=
  match (P.parseRecord (Parser.new (⟨0, bs⟩ : Slice)
      { ParseConfig.default (.little .little) .little with config := ⟨ConfigFlags.new rf st all false 0#16, 0#64, 0#64⟩ })).res with
  | .error (.err e) => some e
  | _ => none

/-- A record that is too short for its type; one that is shorter than its header. -/
example : causeOf 0 0 false [2, 0, 0, 0, 0, 0, 16, 0, 1, 2, 3, 4, 5, 6, 7, 8] = some .eof ∧
    causeOf 0 0 false [2, 0, 0, 0, 0, 0, 7, 0] =
      some (.custom .invalidRecord "header size was too small to be valid") := by decide +kernel
/-- Sample type TID and TIME with `sample_id_all`, but only 8 bytes of body. -/
example : causeOf 0 6#64 true [2, 0, 0, 0, 0, 0, 16, 0, 1, 2, 3, 4, 5, 6, 7, 8] =
      some (.custom .invalidRecord ("config has sample_id_all bit set but record does not have enough data " ++
        "to store the sample_id")) := by decide +kernel
/-- A build id of 21 bytes. -/
example : causeOf 0 0 false ([10, 0, 0, 0, 0, 0x40, 72, 0] ++ List.replicate 32 0 ++ [21] ++ List.replicate 31 0) =
      some (.custom .invalidRecord "build_id had invalid length (21 > 20)") := by decide +kernel
/-- READ with GROUP; READ with an unknown flag. -/
example : causeOf 8#64 0 false ([8, 0, 0, 0, 0, 0, 24, 0] ++ List.replicate 16 0) =
      some (.custom .unsupportedConfig "attempted to parse a SingleRead with a config that has GROUP set in read_format") ∧
    causeOf 32#64 0 false ([8, 0, 0, 0, 0, 0, 24, 0] ++ List.replicate 16 0) =
      some (.custom .unsupportedConfig "read_format contains unsupported flags") := by decide +kernel
/-- A sample with a group of 2^63 entries of two words; with 2^63 of one word. -/
example : causeOf 12#64 16#64 false ([9, 0, 0, 0, 0, 0, 16, 0] ++ List.replicate 7 0 ++ [0x80]) =
      some (.custom .invalidRecord "number of elements in group read was too large for data type") ∧
    causeOf 8#64 16#64 false ([9, 0, 0, 0, 0, 0, 16, 0] ++ List.replicate 7 0 ++ [0x80]) =
      some (.custom .invalidRecord "array length in bytes larger than usize::MAX") := by decide +kernel
/-- A sample with 8 bytes of stack of which 9 are said to be in use. -/
example : causeOf 0 0x2000#64 false ([9, 0, 0, 0, 0, 0, 32, 0] ++ (8 :: List.replicate 7 0) ++ List.replicate 8 1 ++
      (9 :: List.replicate 7 0)) =
      some (.custom .invalidRecord "stack dyn_size was greater than the record size") := by decide +kernel
/-- A reader that fails in the middle of the header. -/
example : (match (P.parseRecord (Parser.new (⟨[], [.data [2, 0, 0, 0], .error ⟨false, "disk on fire"⟩]⟩ : BufReader)
      (ParseConfig.default (.little .little) .little))).res with
    | .error (.err e) => e == .ofIo ⟨false, "disk on fire"⟩
    | _ => false) = true := by decide +kernel

end
end Perf
