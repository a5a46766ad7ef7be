import Verif.Props.Inputs
/-!
# Framing of records: C01, C04, C05, C06, C07, C08, C34, C45
-/
namespace Perf
variable {β : Type} [ParseBuf β] [Lawful β] {O : Type} {p : Parser β} {f : Flat}

/-! ## C01 -/

/-- The call came back with a value or an error: no panic, no endless loop. -/
def Returns {α : Type} (r : Except Fault α) : Prop := (∃ a, r = .ok a) ∨ ∃ e, r = .error (.err e)

/-- The visitor's own methods return (they are user code). -/
def Visitor.Total (v : Visitor Cow O) : Prop := ∀ r md, Returns (v.apply r md)

theorem c01_record_with_header (hp : RepP p f) (v : Visitor Cow O) (hv : v.Total) (h : Header) :
    Returns (P.recordWithHeader v h p).res := by
  obtain ⟨_, _, h3⟩ := P.recordWithHeader_run hp v h
  rcases hs : Spec.metadataWithHeader h f with e | ⟨⟨r, md⟩, f'⟩ <;> rw [hs] at h3
  · cases e with
    | stuck => exact h3.elim
    | err e => exact .inr ⟨e, h3⟩
  · rcases h3.2 with ⟨a, _, h4⟩ | ⟨e, h4, _⟩
    · rw [h4]; exact hv a md
    · exact .inr ⟨e, h4⟩

/-- `parse_record` with any visitor whose methods return. -/
theorem c01_record (hp : RepP p f) (v : Visitor Cow O) (hv : v.Total) : Returns (P.record v p).res := by
  rcases P.record_run hp v with ⟨_, h, _⟩ | ⟨_, q, hq, _, h⟩
  · exact .inr ⟨_, h⟩
  · rw [h]; exact c01_record_with_header hq v hv _

/-- Parsing a `Record` with a given header. Here the visitor (`RecordVisitor`) is the crate's own; its
`visit_unimplemented` is `unimplemented!()`. -/
theorem c01_parse_record_with_header (hp : RepP p f) (h : Header) : Returns (P.parseRecordWithHeader h p).res := by
  obtain ⟨_, _, h3⟩ := P.recordWithHeader_run hp (recordVisitor Cow) h
  show Returns (P.recordWithHeader (recordVisitor Cow) h p).res
  rcases hs : Spec.metadataWithHeader h f with e | ⟨⟨r, md⟩, f'⟩ <;> rw [hs] at h3
  · cases e with
    | stuck => exact h3.elim
    | err e => exact .inr ⟨e, h3⟩
  · rcases h3.2 with ⟨a, h5, h4⟩ | ⟨e, h4, _⟩
    · rw [h4, recordVisitor_apply a md h5.1]; exact .inl ⟨a, rfl⟩
    · exact .inr ⟨e, h4⟩

/-- **C01** for every lawful buffer: parsing a `Record` returns. -/
theorem c01_parse_record (hp : RepP p f) : Returns (P.parseRecord p).res := by
  rcases P.record_run hp (recordVisitor Cow) with ⟨_, h, _⟩ | ⟨_, q, hq, _, h⟩
  · exact .inr ⟨_, h⟩
  · show Returns (P.record (recordVisitor Cow) p).res
    rw [h]; exact c01_parse_record_with_header hq _

/-- C01 for an in-memory slice with any content at any address. -/
theorem c01_slice (addr : Nat) (data : List Byte) (cfg : ParseConfig) (hw : cfg.Wf) :
    Returns (P.parseRecord (Parser.new (⟨addr, data⟩ : Slice) cfg)).res := c01_parse_record (RepP.slice addr data hw)

/-- C01 for a `BufReader` over a reader that answers its `read` calls in any way. -/
theorem c01_reader (es : List ReadEvent) (cfg : ParseConfig) (hw : cfg.Wf) :
    Returns (P.parseRecord (Parser.new (⟨[], es⟩ : BufReader) cfg)).res := c01_parse_record (RepP.reader es hw)

/-- C01 for data in borrowed nonempty pieces. -/
theorem c01_pieces (ps : List Slice) (h : ∀ p ∈ ps, p.data ≠ []) (cfg : ParseConfig) (hw : cfg.Wf) :
    Returns (P.parseRecord (Parser.new (⟨ps⟩ : ChunkBuf) cfg)).res := c01_parse_record (RepP.pieces ps h hw)

example : RepP demoLostParser demoLostFlat := demoLost_rep
example : (match (P.parseRecord demoLostParser).res with
  | .ok (.lost r) => r == ⟨7, 3⟩
  | _ => false) = true := by decide +kernel
/-- A visitor that only counts: every method it does not override returns. -/
example : Visitor.Total ({ unimplemented := fun _ => .ok 0 } : Visitor Cow Nat) := by
  intro r md; cases r <;> exact .inl ⟨0, rfl⟩

/-! ## C04 -/

/-- Whatever the outcome, a record whose bytes are all there is skipped completely. -/
theorem P.record_state (hp : RepP p f) (v : Visitor Cow O) (h8 : 8 ≤ (headerAt f).size.toNat)
    (hle : (headerAt f).size.toNat ≤ f.s.bytes.length) :
    RepP (P.record v p).st (f.adv (headerAt f).size.toNat) := by
  rcases P.record_run hp v with ⟨h, _⟩ | ⟨_, q, hq, _, h⟩
  · omega
  · rw [h]
    obtain ⟨h1, _⟩ := P.recordWithHeader_run hq v (headerAt f)
    have h4 := (h1 h8 (by simp; omega)).1
    rwa [Flat.adv_adv, Nat.add_sub_cancel' h8] at h4

/-- **C04** After `parse_record` succeeds the parser stands `header.size` bytes further, and those bytes were there. -/
theorem c04_record (hp : RepP p f) (v : Visitor Cow O) {o : O} (hok : (P.record v p).res = .ok o) :
    (headerAt f).size.toNat ≤ f.s.bytes.length ∧
    (P.record v p).st.data.offset = p.data.offset + (headerAt f).size.toNat ∧
    RepP (P.record v p).st (f.adv (headerAt f).size.toNat) := by
  have hsz : 8 ≤ (headerAt f).size.toNat ∧ (headerAt f).size.toNat ≤ f.s.bytes.length := by
    rcases P.record_run hp v with ⟨_, h, _⟩ | ⟨h8, q, hq, _, h⟩
    · rw [h] at hok; cases hok
    · rw [h] at hok
      obtain ⟨_, _, h3⟩ := P.recordWithHeader_run hq v (headerAt f)
      rcases Spec.metadata_cases (headerAt f) (f.adv 8) with h | h | h | h | h
      · rw [h.2, hok] at h3; cases h3
      · rw [h.2.2, hok] at h3; cases h3
      all_goals
        have h2 := h.2.1
        simp only [Flat.adv_bytes, List.length_drop] at h2
        exact ⟨h.1, by omega⟩
  have h4 := P.record_state hp v hsz.1 hsz.2
  exact ⟨hsz.2, by rw [h4.off, hp.off]; rfl, h4⟩

example : (match (P.record (recordVisitor Cow) demoLostParser).res with
  | .ok _ => true
  | _ => false) = true ∧ (headerAt demoLostFlat).size = 24 := by decide +kernel

/-! ## C05 -/

/-- **C05** If the header is readable, its size is at least 8 and that many bytes are there, then the parser stands
`header.size` bytes further whatever the result. -/
theorem c05_resync (hp : RepP p f) (v : Visitor Cow O) (h8 : 8 ≤ (headerAt f).size.toNat)
    (hle : (headerAt f).size.toNat ≤ f.s.bytes.length) :
    (P.record v p).st.data.offset = p.data.offset + (headerAt f).size.toNat ∧
    RepP (P.record v p).st (f.adv (headerAt f).size.toNat) := by
  have h4 := P.record_state hp v h8 hle
  exact ⟨by rw [h4.off, hp.off]; rfl, h4⟩

/-- A LOST record cut to one of its two fields, followed by a good one: an error, then the good record. -/
def demoBad : List Byte := [2, 0, 0, 0, 0, 0, 16, 0, 9, 0, 0, 0, 0, 0, 0, 0] ++ demoLost
example : (match (P.parseRecord (Parser.new (⟨0, demoBad⟩ : Slice) demoCfg)) with
  | ⟨.error (.err e), st, _⟩ => e == .eof && st.data.offset == 16 && (match (P.parseRecord st).res with
      | .ok (.lost r) => r == ⟨7, 3⟩
      | _ => false)
  | _ => false) = true := by decide +kernel

/-! ## C06 -/

/-- **C06** With fewer bytes than a header, or fewer than the header announces, the result is the buffer's end error. -/
theorem c06_truncated (hp : RepP p f) (v : Visitor Cow O)
    (hlt : f.s.bytes.length < 8 ∨ 8 ≤ (headerAt f).size.toNat ∧ f.s.bytes.length < (headerAt f).size.toNat) :
    (P.record v p).res = .error (.err f.s.fin) := by
  rcases P.record_run hp v with ⟨_, h, _⟩ | ⟨h8, q, hq, _, h⟩
  · exact h
  · rcases hlt with h' | ⟨h', hlt⟩
    · omega
    · rw [h]
      obtain ⟨_, _, h3⟩ := P.recordWithHeader_run hq v (headerAt f)
      rcases Spec.metadata_cases (headerAt f) (f.adv 8) with h | h | h | h | h
      · have := h.1; omega
      · rw [h.2.2] at h3; exact h3
      all_goals
        have h2 := h.2.1
        simp only [Flat.adv_bytes, List.length_drop] at h2
        omega

/-- In particular every strict prefix of a record in a slice gives `Eof`. `bs` are the bytes of a record, i.e. the size
in its header is its length. -/
theorem c06_slice_prefix (addr : Nat) (bs : List Byte) (cfg : ParseConfig) (hw : cfg.Wf) (h8 : 8 ≤ bs.length)
    (hsize : (cfg.endian.conv16 ((bs.drop 6).take 2)).toNat = bs.length) (k : Nat) (hk : k < bs.length)
    (v : Visitor Cow O) :
    (P.record v (Parser.new (⟨addr, bs.take k⟩ : Slice) cfg)).res = .error (.err .eof) := by
  refine c06_truncated (RepP.slice addr (bs.take k) hw) v ?_
  have hl : (bs.take k).length = k := by simp; omega
  rcases Nat.lt_or_ge k 8 with h | h
  · exact .inl (by simp only [hl]; exact h)
  · right
    have : (headerAt ⟨⟨bs.take k, .at addr, .eof⟩, 0, cfg⟩).size = cfg.endian.conv16 ((bs.drop 6).take 2) := by
      simp only [headerAt, List.drop_take, List.take_take]
      rw [Nat.min_eq_left (by omega)]
    rw [this, hsize]
    exact ⟨h8, by simp only [hl]; exact hk⟩

example : (demoCfg.endian.conv16 (((demoLost.take 24).drop 6).take 2)).toNat = (demoLost.take 24).length := by decide
example : f.s.bytes.length < 8 → (P.parseRecord p).res = .error (.err f.s.fin) ∨ ¬ RepP p f :=
  fun h => by
    by_cases hp : RepP p f
    · exact .inl (c06_truncated hp _ (.inl h))
    · exact .inr hp

/-! ## C07 -/

/-- **C07** A header size below 8: `InvalidRecord`, and only the header is consumed. -/
theorem c07_small_size (hp : RepP p f) (v : Visitor Cow O) (h8 : 8 ≤ f.s.bytes.length)
    (hs : (headerAt f).size.toNat < 8) :
    (∃ e, (P.record v p).res = .error (.err e) ∧ e.kind = .invalidRecord) ∧
    (P.record v p).st.data.offset = p.data.offset + 8 ∧ RepP (P.record v p).st (f.adv 8) := by
  rcases P.record_run hp v with ⟨h, _⟩ | ⟨_, q, hq, _, h⟩
  · omega
  · rw [h]
    have : P.recordWithHeader v (headerAt f) q =
        ⟨.error (.err (.custom .invalidRecord "header size was too small to be valid")), q, []⟩ := by
      unfold P.recordWithHeader P.metadataWithHeader
      apply P.bind_err
      rw [P.ite_pos hs]
      rfl
    rw [this]
    exact ⟨⟨_, rfl, rfl⟩, by show q.data.offset = _; rw [hq.off, hp.off]; rfl, hq⟩

example : (match (P.parseRecord (Parser.new (⟨0, [2, 0, 0, 0, 0, 0, 7, 0, 1, 2, 3]⟩ : Slice) demoCfg)) with
  | ⟨.error (.err e), st, _⟩ => e.kind == .invalidRecord && st.data.offset == 8
  | _ => false) = true := by decide +kernel

/-! ## C08 -/

/-- **C08** With `sample_id_all`, a record (not MMAP = 1, not SAMPLE = 9) whose body is shorter than the trailer
configured by `sample_type` is `InvalidRecord`. -/
theorem c08_small_trailer (hp : RepP p f) (v : Visitor Cow O) (hall : f.cfg.sampleIdAll = true)
    (h1 : (headerAt f).type_ ≠ 1#32) (h9 : (headerAt f).type_ ≠ 9#32) (h8 : 8 ≤ (headerAt f).size.toNat)
    (hle : (headerAt f).size.toNat ≤ f.s.bytes.length)
    (hs : (headerAt f).size.toNat - 8 < trailerLen f.cfg.sampleType) :
    ∃ e, (P.record v p).res = .error (.err e) ∧ e.kind = .invalidRecord := by
  rcases P.record_run hp v with ⟨h, _⟩ | ⟨_, q, hq, _, h⟩
  · omega
  · rw [h]
    have hest : SampleId.estimateLen f.cfg = trailerLen f.cfg.sampleType := by
      rw [estimateLen_eq, hall, if_pos rfl]
    obtain ⟨_, _, h3⟩ := P.recordWithHeader_run hq v (headerAt f)
    have hlen : (headerAt f).size.toNat - 8 ≤ (f.adv 8).s.bytes.length := by simp; omega
    have hty : ¬ ((headerAt f).type_.toNat = 1 ∨ (headerAt f).type_.toNat = 9) := by
      rintro (h | h)
      · exact h1 (BitVec.eq_of_toNat_eq h)
      · exact h9 (BitVec.eq_of_toNat_eq h)
    rcases Spec.metadata_cases (headerAt f) (f.adv 8) with h | h | h | h | h
    · have := h.1; omega
    · have := h.2.1; omega
    · exact absurd h.2.2.1 hty
    · rw [h.2.2.2.2] at h3; exact ⟨_, h3, rfl⟩
    · have := h.2.2.2.1
      simp only [Flat.adv_cfg] at this
      omega

/-- sample_id_all with TID and TIME, but only 8 bytes of body. -/
def demoAllCfg : ParseConfig :=
  { demoCfg with config := ⟨ConfigFlags.new 0#64 (SampleFlags.TID ||| SampleFlags.TIME) true false 0#16, 0#64, 0#64⟩ }
example : demoAllCfg.sampleIdAll = true ∧ trailerLen demoAllCfg.sampleType = 16 ∧
    (match (P.parseRecord (Parser.new (⟨0, [2, 0, 0, 0, 0, 0, 16, 0, 1, 2, 3, 4, 5, 6, 7, 8]⟩ : Slice) demoAllCfg)).res with
    | .error (.err e) => e.kind == .invalidRecord
    | _ => false) = true := by decide +kernel

/-! ## C34 -/

/-- **C34** No memory request made while parsing a record exceeds `max 16384` (bytes supplied).
(The log contains every `Vec::with_capacity` and `to_vec` of input-dependent size, in whatever parser it happens.) -/
theorem c34_bounded_allocation (hp : RepP p f) (v : Visitor Cow O) :
    ∀ n ∈ (P.record v p).log, n ≤ max 16384 f.s.bytes.length := by
  rcases P.record_run hp v with ⟨_, _, h⟩ | ⟨h8, q, hq, _, h⟩
  · rw [h]; intro n hn; cases hn
  · rw [h]
    have h2 := (P.recordWithHeader_run hq v (headerAt f)).2.1
    intro n hn
    have := h2 n hn
    simp only [Flat.adv_bytes, List.length_drop] at this
    omega

/-- A record announcing 2^63 namespace entries in a body of 24 bytes, read in a foreign byte order through a reader. -/
example : ((P.parseRecord (Parser.new (⟨[], [.data ([0, 0, 0, 16, 0, 0, 0, 24, 0, 0, 0, 1, 0, 0, 0, 1] ++
    [0x80, 0, 0, 0, 0, 0, 0, 0])]⟩ : BufReader) (.default (.big .little) .little))).log).length > 0 := by decide +kernel

/-! ## C45 -/

/-- **C45** The errors of `parse_record` (over the crate's own visitor): the buffer's end error, `Eof` at the end of
the record, `InvalidRecord` or `UnsupportedConfig`. -/
theorem c45_error_kinds (hp : RepP p f) {e : ParseError} (he : (P.parseRecord p).res = .error (.err e)) :
    e = f.s.fin ∨ e = .eof ∨ e.kind = .invalidRecord ∨ e.kind = .unsupportedConfig := by
  rcases P.record_run hp (recordVisitor Cow) with ⟨_, h, _⟩ | ⟨h8, q, hq, _, h⟩
  · have : (P.parseRecord p).res = .error (.err f.s.fin) := h
    rw [this] at he; cases he; exact .inl rfl
  · have h0 : P.parseRecord p = P.recordWithHeader (recordVisitor Cow) (headerAt f) q := h
    rw [h0] at he
    obtain ⟨_, _, h3⟩ := P.recordWithHeader_run hq (recordVisitor Cow) (headerAt f)
    have hbody : ∀ {r : Flat} {md : Metadata}, r.s.fin = .eof →
        BodyOk (recordVisitor Cow) md r (P.recordWithHeader (recordVisitor Cow) (headerAt f) q).res →
        e = f.s.fin ∨ e = .eof ∨ e.kind = .invalidRecord ∨ e.kind = .unsupportedConfig := by
      intro r md hr hb
      rcases hb.2 with ⟨a, h5, h4⟩ | ⟨e', h4, h5⟩
      · rw [he, recordVisitor_apply a md h5.1] at h4; cases h4
      · rw [he] at h4; cases h4
        rcases h5 with h5 | h5 | h5
        · exact .inr (.inl (h5.trans hr))
        · exact .inr (.inr (.inl h5))
        · exact .inr (.inr (.inr h5))
    rcases Spec.metadata_cases (headerAt f) (f.adv 8) with h | h | h | h | ⟨_, _, _, _, sid, g, _, h⟩
    · rw [h.2] at h3; simp only [he] at h3; cases h3; exact .inr (.inr (.inl rfl))
    · rw [h.2.2] at h3; simp only [he] at h3; cases h3; exact .inl rfl
    · rw [h.2.2.2] at h3; exact hbody rfl h3
    · rw [h.2.2.2.2] at h3; simp only [he] at h3; cases h3; exact .inr (.inr (.inl rfl))
    · rw [h] at h3; exact hbody rfl h3

/-- An `External` error is always the buffer's own, and so is `UnsupportedData`. -/
theorem c45_external (hp : RepP p f) {e : ParseError} (he : (P.parseRecord p).res = .error (.err e))
    (hk : e.kind = .external ∨ e.kind = .unsupportedData) : e = f.s.fin := by
  rcases c45_error_kinds hp he with h | h | h | h
  · exact h
  · subst h; rcases hk with hk | hk <;> cases hk
  · rw [h] at hk; rcases hk with hk | hk <;> cases hk
  · rw [h] at hk; rcases hk with hk | hk <;> cases hk

example : (match (P.parseRecord (Parser.new (⟨[], [.data [2, 0, 0, 0], .error ⟨false, "disk on fire"⟩]⟩ : BufReader)
    demoCfg)).res with
  | .error (.err e) => e == ⟨.external, some "disk on fire"⟩
  | _ => false) = true := by decide +kernel

end Perf
