import Verif.Props.Streams
import Verif.Proof.Post
/-!
# Parts of records: C13 (no panic), C16, C18, C19, C20, C21, C22, C48, C49, C50
-/
namespace Perf
variable {β : Type} [ParseBuf β] [Lawful β] {p : Parser β} {f : Flat} {o : Order} {tl : List Byte}

/-! ## C13, continued -/

omit [Lawful β] in
theorem Post.mmapDetail : Post (fun d => ∀ id len, d = MmapDetail.buildId id len → len.toNat ≤ id.length)
    (parseMmapDetail : P β MmapDetail) := by
  unfold parseMmapDetail
  refine Post.skip fun _ => Post.ite (fun _ => ?_) fun _ => ?_
  · refine Post.skip fun _ => Post.skip fun _ => Post.skip fun _ => Post.skip fun _ => Post.ite (fun _ => Post.fail _) fun h => ?_
    refine Post.pure ?_
    intro id len he; cases he
    omega
  · exact Post.skip fun _ => Post.skip fun _ => Post.skip fun _ => Post.skip fun _ => Post.pure nofun

omit [Lawful β] in
/-- On any buffer at all, `build_id()` of a parsed MMAP2 does not panic. -/
theorem c13_build_id_returns {p : Parser β} {m : Mmap2 Cow} (h : ((parseMmap2 : P β (Mmap2 Cow)) p).res = .ok m) :
    m.buildId.isSome = true := by
  have h1 : Post (fun m : Mmap2 Cow => ∀ id len, m.detail = MmapDetail.buildId id len → len.toNat ≤ id.length)
      (parseMmap2 : P β (Mmap2 Cow)) := by
    unfold parseMmap2
    refine Post.skip fun _ => Post.skip fun _ => Post.skip fun _ => Post.skip fun _ => Post.skip fun _ =>
      Post.bind Post.mmapDetail fun d hd => ?_
    exact Post.skip fun _ => Post.skip fun _ => Post.skip fun _ => Post.pure hd
  have h2 := h1 p m h
  unfold Mmap2.buildId
  cases hd : m.detail with
  | default => rfl
  | buildId id len => simp only [if_pos (h2 id len hd), Option.isSome_some]

/-- The same for records. -/
theorem c13_record_build_id_returns (hp : RepP p f) {m : Mmap2 Cow} (h : (P.parseRecord p).res = .ok (.mmap2 m)) :
    m.buildId.isSome = true := by
  obtain ⟨_, γ, _, q, _, h2⟩ := (P.parseRecord_produced hp h).2.mmap2
  exact c13_build_id_returns h2

/-! ## C16 -/

theorem contains_optv (rf : U64) (i : Nat) (hi : i < 64) (m : U64) (hm : m = 1#64 <<< i) (x : U64) :
    thenSome (contains rf m) (if rf.getLsbD i then x else 0#64) = optv (rf.getLsbD i) x := by
  rw [contains_rf rf i hi m hm]
  cases rf.getLsbD i <;> rfl

/-- The accessors of a value read with `read_format` bits `rf`. -/
theorem KRead.accessors (rf : U64) (v : KRead) :
    (v.readValue rf).value = v.value ∧ (v.readValue rf).getTimeEnabled = optv (rf.getLsbD 0) v.timeEnabled ∧
    (v.readValue rf).getTimeRunning = optv (rf.getLsbD 1) v.timeRunning ∧
    (v.readValue rf).getId = optv (rf.getLsbD 2) v.id ∧ (v.readValue rf).getLost = optv (rf.getLsbD 4) v.lost :=
  ⟨rfl, contains_optv rf 0 (by omega) _ rfl _, contains_optv rf 1 (by omega) _ rfl _, contains_optv rf 2 (by omega) _ rfl _,
    contains_optv rf 4 (by omega) _ rfl _⟩

theorem KRead.enc_le (rf : U64) (v : KRead) : (v.enc o rf).length ≤ 40 := by
  unfold KRead.enc
  cases rf.getLsbD 0 <;> cases rf.getLsbD 1 <;> cases rf.getLsbD 2 <;> cases rf.getLsbD 4 <;> simp

/-- **C16** for a READ record. `KRead.enc` writes the value and exactly the fields whose bit (0, 1, 2, 4) is set. Bit 3 is
GROUP; bit 5 of `readFormat` is how the configuration remembers that there were bits it does not know. -/
theorem c16_read (hp : RepP p f) (hs : Src f.cfg o) (misc : U16) (t : KTrailer) (pid tid : U32) (v : KRead)
    (h3 : f.cfg.readFormat.getLsbD 3 = false) (h5 : f.cfg.readFormat.getLsbD 5 = false)
    (hb : f.s.bytes = (KRecord.mk misc (.read pid tid v) t).enc o f.cfg ++ tl) :
    ∃ r : Read, (P.parseRecord p).res = .ok (.read r) ∧ r.pid = pid ∧ r.tid = tid ∧ r.values.value = v.value ∧
      r.values.getTimeEnabled = optv (f.cfg.readFormat.getLsbD 0) v.timeEnabled ∧
      r.values.getTimeRunning = optv (f.cfg.readFormat.getLsbD 1) v.timeRunning ∧
      r.values.getId = optv (f.cfg.readFormat.getLsbD 2) v.id ∧
      r.values.getLost = optv (f.cfg.readFormat.getLsbD 4) v.lost := by
  have hsize : (KRecord.mk misc (.read pid tid v) t).size o f.cfg < 65536 := by
    have h1 := (KRecord.mk misc (.read pid tid v) t).encTrailer_le (o := o) f.cfg
    have h2 := v.enc_le (o := o) f.cfg.readFormat
    unfold KRecord.size
    simp only [KBody.enc, List.length_append, e32_length]
    omega
  obtain ⟨⟨a, h1, h2⟩, _⟩ := P.parseRecord_enc hp hs _ (by exact ⟨h3, h5⟩) hsize nofun hb
  rw [h1]
  cases a <;> simp only [Record.view, KBody.value, reduceCtorEq, Record.read.injEq] at h2
  subst h2
  exact ⟨_, rfl, rfl, rfl, v.accessors _⟩

/-- The same for a `ReadValue` parsed on its own; exactly its bytes are consumed. -/
theorem c16_read_value (hp : RepP p f) (hs : Src f.cfg o) (v : KRead)
    (h3 : f.cfg.readFormat.getLsbD 3 = false) (h5 : f.cfg.readFormat.getLsbD 5 = false)
    (hb : f.s.bytes = v.enc o f.cfg.readFormat ++ tl) :
    ∃ r : ReadValue, ((parseReadValue : P β ReadValue) p).res = .ok r ∧ r.value = v.value ∧
      r.getTimeEnabled = optv (f.cfg.readFormat.getLsbD 0) v.timeEnabled ∧
      r.getTimeRunning = optv (f.cfg.readFormat.getLsbD 1) v.timeRunning ∧
      r.getId = optv (f.cfg.readFormat.getLsbD 2) v.id ∧ r.getLost = optv (f.cfg.readFormat.getLsbD 4) v.lost ∧
      RepP ((parseReadValue : P β ReadValue) p).st (f.adv (v.enc o f.cfg.readFormat).length) := by
  obtain ⟨r, h1, rfl, h2⟩ := Refines.reads Refines.readValue hp
    (Reads.readValue (nd := ⟨false, false⟩) (k := 0) hs v h3 h5) nofun nofun hb
  obtain ⟨a1, a2, a3, a4, a5⟩ := v.accessors f.cfg.readFormat
  exact ⟨_, h1, a1, a2, a3, a4, a5, h2⟩

/-- `read_format = TOTAL_TIME_RUNNING | LOST`, big endian. -/
def demoReadCfg : ParseConfig :=
  { demoBigCfg with config := ⟨ConfigFlags.new 0x12#64 0#64 false false 0#16, 0#64, 0#64⟩ }
example : demoReadCfg.readFormat.getLsbD 3 = false ∧ demoReadCfg.readFormat.getLsbD 5 = false ∧
    (match (P.parseRecord (Parser.new (⟨1, (KRecord.mk 0 (.read 1 2 ⟨3, 4, 5, 6, 7⟩) ⟨1, 2, 3, 4, 5, 6, 7, 8⟩).enc .big
      demoReadCfg⟩ : Slice) demoReadCfg)).res with
    | .ok (.read r) => r.values.value == 3 && r.values.getTimeEnabled == none && r.values.getTimeRunning == some 5 &&
        r.values.getId == none && r.values.getLost == some 7
    | _ => false) = true := by decide +kernel

/-! ## C18 -/

/-- Which fields of a sample are there, for the `sample_type` bits `st`. -/
structure PresentIff (st : U64) (hwIndex : Bool) (s : Sample Cow) : Prop where
  ip : s.ip.isSome = st.getLsbD 0
  pid : s.pid.isSome = st.getLsbD 1
  tid : s.tid.isSome = st.getLsbD 1
  time : s.time.isSome = st.getLsbD 2
  addr : s.addr.isSome = st.getLsbD 3
  id : s.id.isSome = (st.getLsbD 6 || st.getLsbD 16)
  streamId : s.streamId.isSome = st.getLsbD 9
  cpu : s.cpu.isSome = st.getLsbD 7
  period : s.period.isSome = st.getLsbD 8
  values : s.values.isSome = st.getLsbD 4
  callchain : s.callchain.isSome = st.getLsbD 5
  raw : s.raw.isSome = st.getLsbD 10
  lbrHwIndex : s.lbrHwIndex.isSome = (st.getLsbD 11 && hwIndex)
  lbr : s.lbr.isSome = st.getLsbD 11
  regsUser : s.regsUser.isSome = st.getLsbD 12
  stackUser : s.stackUser.isSome = st.getLsbD 13
  weight : s.weight.isSome = st.getLsbD 14
  dataSrc : s.dataSrc.isSome = st.getLsbD 15
  transaction : s.transaction.isSome = st.getLsbD 17
  regsIntr : s.regsIntr.isSome = st.getLsbD 18
  physAddr : s.physAddr.isSome = st.getLsbD 19
  aux : s.aux.isSome = st.getLsbD 20
  cgroup : s.cgroup.isSome = st.getLsbD 21
  dataPageSize : s.dataPageSize.isSome = st.getLsbD 22
  codePageSize : s.codePageSize.isSome = st.getLsbD 23

omit [Lawful β] in
theorem Post.lbr (b : Bool) : Post (fun x => x.2.isSome = b) (parseLbr b : P β (Cow BranchEntry × Option U64)) := by
  unfold parseLbr
  exact Post.skip fun _ => Post.bind (Post.parseIf _ _) fun _ h => Post.skip fun _ => Post.pure h

omit [Lawful β] in
/-- **C18** On any buffer at all. -/
theorem c18_present {p : Parser β} {s : Sample Cow} (h : ((parseSample : P β (Sample Cow)) p).res = .ok s) :
    PresentIff p.config.sampleType p.config.branchHwIndex s := by
  unfold parseSample at h
  obtain ⟨cfg, h1, h2⟩ := P.bind_res h
  cases h1
  clear h
  have e (m : U64) (i : Nat) (hm : m = 1#64 <<< i) (hi : i < 64) :
    contains p.config.sampleType m = p.config.sampleType.getLsbD i := contains_rf _ i hi m hm
  revert h2
  have key : ∀ (cfg : ParseConfig) {m : P β (Sample Cow)} {q : Parser β},
      Post (PresentIff cfg.sampleType cfg.branchHwIndex) m → (m q).res = .ok s →
      PresentIff cfg.sampleType cfg.branchHwIndex s := fun _ _ _ h h' => h _ _ h'
  refine key p.config ?_
  simp only [e SampleFlags.IDENTIFIER 16 rfl (by omega), e SampleFlags.IP 0 rfl (by omega), e SampleFlags.TID 1 rfl (by omega),
    e SampleFlags.TIME 2 rfl (by omega), e SampleFlags.ADDR 3 rfl (by omega), e SampleFlags.ID 6 rfl (by omega),
    e SampleFlags.STREAM_ID 9 rfl (by omega), e SampleFlags.CPU 7 rfl (by omega), e SampleFlags.PERIOD 8 rfl (by omega),
    e SampleFlags.READ 4 rfl (by omega), e SampleFlags.CALLCHAIN 5 rfl (by omega), e SampleFlags.RAW 10 rfl (by omega),
    e SampleFlags.BRANCH_STACK 11 rfl (by omega), e SampleFlags.REGS_USER 12 rfl (by omega),
    e SampleFlags.STACK_USER 13 rfl (by omega), e SampleFlags.WEIGHT 14 rfl (by omega),
    e SampleFlags.DATA_SRC 15 rfl (by omega), e SampleFlags.TRANSACTION 17 rfl (by omega),
    e SampleFlags.REGS_INTR 18 rfl (by omega), e SampleFlags.PHYS_ADDR 19 rfl (by omega), e SampleFlags.AUX 20 rfl (by omega),
    e SampleFlags.CGROUP 21 rfl (by omega), e SampleFlags.DATA_PAGE_SIZE 22 rfl (by omega),
    e SampleFlags.CODE_PAGE_SIZE 23 rfl (by omega)]
  refine Post.bind (Post.parseIf _ _) fun identifier h16 => ?_
  refine Post.bind (Post.parseIf _ _) fun ip h0 => ?_
  refine Post.bind (Post.parseIf _ _) fun pid h1 => ?_
  refine Post.bind (Post.parseIf _ _) fun tid h1' => ?_
  refine Post.bind (Post.parseIf _ _) fun time h2 => ?_
  refine Post.bind (Post.parseIf _ _) fun addr h3 => ?_
  refine Post.bind (Post.parseIf _ _) fun id h6 => ?_
  refine Post.bind (Post.parseIf _ _) fun streamId h9 => ?_
  refine Post.bind (Post.parseIf _ _) fun cpu h7 => ?_
  refine Post.bind (Post.parseIf _ _) fun period h8 => ?_
  refine Post.bind (Post.parseIf _ _) fun values h4 => ?_
  refine Post.bind (Post.parseIf _ _) fun callchain h5 => ?_
  refine Post.bind (Post.parseIf _ _) fun raw h10 => ?_
  refine Post.bind (Post.parseIf_of _ (Post.lbr _)) fun lbr h11 => ?_
  refine Post.bind (Post.parseIf _ _) fun regsUser h12 => ?_
  refine Post.bind (Post.parseIf _ _) fun stackUser h13 => ?_
  refine Post.bind (Post.parseIf _ _) fun weight h14 => ?_
  refine Post.bind (Post.parseIf _ _) fun dataSrc h15 => ?_
  refine Post.bind (Post.parseIf _ _) fun transaction h17 => ?_
  refine Post.bind (Post.parseIf _ _) fun regsIntr h18 => ?_
  refine Post.bind (Post.parseIf _ _) fun physAddr h19 => ?_
  refine Post.bind (Post.parseIf _ _) fun cgroup h21 => ?_
  refine Post.bind (Post.parseIf _ _) fun dataPageSize h22 => ?_
  refine Post.bind (Post.parseIf _ _) fun codePageSize h23 => ?_
  refine Post.bind (Post.parseIf _ _) fun aux h20 => ?_
  refine Post.pure ⟨h0, h1, h1', h2, h3, ?_, h9, h7, h8, h4, h5, h10, ?_, ?_, h12, h13, h14, h15, h17, h18, h19, h20, h21,
    h22, h23⟩
  · simp only [← h6, ← h16]
    cases id <;> cases identifier <;> rfl
  · cases lbr with
    | none => rw [← h11.1]; rfl
    | some l => rw [← h11.1]; exact h11.2 l rfl
  · rw [← h11.1]; cases lbr <;> rfl

/-- **C18** for samples returned by `parse_record`. -/
theorem c18_record (hp : RepP p f) {s : Sample Cow} (h : (P.parseRecord p).res = .ok (.sample s)) :
    PresentIff f.cfg.sampleType f.cfg.branchHwIndex s := by
  obtain ⟨_, γ, _, q, h1, h2⟩ := (P.parseRecord_produced hp h).2.sample
  have h3 := c18_present h2
  rw [h1, ParseConfig.withMisc_sampleType, ParseConfig.withMisc_branchHwIndex] at h3
  exact h3

/-! ## C19 -/

/-- **C19** `size`, the data, and padding up to a multiple of 8: the data is returned, exactly these bytes are consumed. -/
theorem c19_raw (hp : RepP p f) (hs : Src f.cfg o) (data pad : List Byte) (hlim : data.length < 2 ^ 32)
    (hpad : pad.length < 8) (h8 : (4 + data.length + pad.length) % 8 = 0)
    (hb : f.s.bytes = e32 o (BitVec.ofNat 32 data.length) ++ data ++ pad ++ tl) :
    (∃ c : Cow Byte, ((ParserM.padded 8 parseRawInner : P β (Cow Byte)) p).res = .ok c ∧ c.data = data) ∧
    RepP ((ParserM.padded 8 parseRawInner : P β (Cow Byte)) p).st (f.adv (4 + data.length + pad.length)) := by
  obtain ⟨c, h1, h2, h3⟩ := Refines.reads Refines.raw hp
    (Reads.raw (nd := ⟨false, false⟩) (k := 0) hs { demoSampleBody with raw := data, rawPad := pad } hlim ⟨hpad, h8⟩)
    nofun nofun hb
  refine ⟨⟨c, h1, h2⟩, ?_⟩
  have : (KSample.encRaw o { demoSampleBody with raw := data, rawPad := pad }).length = 4 + data.length + pad.length := by
    simp [KSample.encRaw]; omega
  rw [this] at h3
  exact h3

/-- 5 bytes of data need 7 of padding; the parser is then at offset 16. -/
example : (match ((ParserM.padded 8 parseRawInner : P BufReader (Cow Byte))
      (Parser.new ⟨[], chop 3 6 [5, 0, 0, 0, 1, 2, 3, 4, 5, 0, 0, 0, 0, 0, 0, 0, 99]⟩ demoCfg)) with
    | ⟨.ok c, st, _⟩ => c.data == [1, 2, 3, 4, 5] && st.data.offset == 16
    | _ => false) = true := by decide +kernel

/-- **C19** In a whole sample (as in `c17_sample_partial`): the raw data is exactly the data, and the fields behind it, from the
branch stack to the AUX data, are the kernel's. -/
theorem c19_sample (hp : RepP p f) (hs : Src f.cfg o) (misc : U16) (t : KTrailer) (s : KSample)
    (hok : s.Ok f.cfg.endian.isNative o f.cfg.sampleType f.cfg.readFormat f.cfg.regsUser f.cfg.regsIntr f.cfg.branchHwIndex)
    (hal : f.cfg.endian.isNative = true → AlMod f.s.al 0)
    (hsize : (KRecord.mk misc (.sample s) t).size o f.cfg < 65536)
    (hb : f.s.bytes = (KRecord.mk misc (.sample s) t).enc o f.cfg ++ tl)
    (hraw : f.cfg.sampleType.getLsbD 10 = true) :
    ∃ a : Sample Cow, (P.parseRecord p).res = .ok (.sample a) ∧ a.raw.map Cow.data = some s.raw ∧
      a.lbr.map Cow.data = optv (f.cfg.sampleType.getLsbD 11) s.lbr ∧
      a.stackUser.map Cow.data = optv (f.cfg.sampleType.getLsbD 13) (if s.stack = [] then [] else s.stack.take s.dynSize.toNat) ∧
      a.weight = optv (f.cfg.sampleType.getLsbD 14 || f.cfg.sampleType.getLsbD 24) s.weight ∧
      a.dataSrc = optv (f.cfg.sampleType.getLsbD 15) s.dataSrc ∧
      a.transaction = optv (f.cfg.sampleType.getLsbD 17) s.transaction ∧
      a.physAddr = optv (f.cfg.sampleType.getLsbD 19) s.physAddr ∧
      a.aux.map Cow.data = optv (f.cfg.sampleType.getLsbD 20) s.aux ∧
      a.cgroup = optv (f.cfg.sampleType.getLsbD 21) s.cgroup ∧
      a.dataPageSize = optv (f.cfg.sampleType.getLsbD 22) s.dataPageSize ∧
      a.codePageSize = optv (f.cfg.sampleType.getLsbD 23) s.codePageSize := by
  obtain ⟨⟨a, h1, h2⟩, _⟩ := c17_sample_partial hp hs misc t s hok hal hsize hb
  simp only [Sample.view, KSample.value, Sample.mk.injEq, hraw] at h2
  obtain ⟨_, _, _, _, _, _, _, _, _, _, _, h11, _, h13, _, h15, h16, h17, h18, _, h20, h21, h22, h23, h24⟩ := h2
  exact ⟨a, h1, h11, h13, h15, h16, h17, h18, h20, h21, h22, h23, h24⟩

/-- Raw data of 5 bytes between an IP and a weight. -/
example : (match (P.parseRecord (Parser.new (⟨4096, (KRecord.mk 0 (.sample
        { demoSampleBody with ip := 3, raw := [1, 2, 3, 4, 5], rawPad := [0, 0, 0, 0, 0, 0, 0], weight := 9 }) ⟨1, 2, 3, 4, 5, 6, 7, 8⟩).enc .little
        { demoCfg with config := ⟨ConfigFlags.new 0#64 (SampleFlags.IP ||| SampleFlags.RAW ||| SampleFlags.WEIGHT) false false 0#16, 0#64, 0#64⟩ }⟩ : Slice)
      { demoCfg with config := ⟨ConfigFlags.new 0#64 (SampleFlags.IP ||| SampleFlags.RAW ||| SampleFlags.WEIGHT) false false 0#16, 0#64, 0#64⟩ })).res with
    | .ok (.sample a) => a.raw.map Cow.data == some [1, 2, 3, 4, 5] && a.weight == some 9 && a.ip == some 3
    | _ => false) = true := by decide +kernel

/-! ## C20 -/

/-- **C20** A dump followed by `dyn_size ≤ size`. -/
theorem c20_stack (hp : RepP p f) (hs : Src f.cfg o) (data : List Byte) (dyn : U64) (h0 : data ≠ [])
    (hlim : data.length < 2 ^ 64) (hle : dyn.toNat ≤ data.length)
    (hb : f.s.bytes = e64 o (BitVec.ofNat 64 data.length) ++ data ++ e64 o dyn ++ tl) :
    (∃ c : Cow Byte, ((parseStackUser : P β (Cow Byte)) p).res = .ok c ∧ c.data = data.take dyn.toNat) ∧
    RepP ((parseStackUser : P β (Cow Byte)) p).st (f.adv (16 + data.length)) := by
  obtain ⟨c, h1, h2, h3⟩ := Refines.reads Refines.stackUser hp
    (Reads.stack (nd := ⟨false, false⟩) (k := 0) (tl := tl) hs { demoSampleBody with stack := data, dynSize := dyn } hlim
      (fun _ => hle) (fun h => absurd h h0)) nofun nofun (by simpa [KSample.encStack, h0] using hb)
  refine ⟨⟨c, h1, h2.trans (if_neg h0)⟩, ?_⟩
  have : (KSample.encStack o { demoSampleBody with stack := data, dynSize := dyn }).length = 16 + data.length := by
    simp [KSample.encStack, h0]; omega
  rw [this] at h3
  exact h3

/-- **C20** `dyn_size` beyond the dump. -/
theorem c20_too_large (hp : RepP p f) (hs : Src f.cfg o) (data : List Byte) (dyn : U64) (h0 : data ≠ [])
    (hlim : data.length < 2 ^ 64) (hgt : data.length < dyn.toNat)
    (hb : f.s.bytes = e64 o (BitVec.ofNat 64 data.length) ++ data ++ e64 o dyn ++ tl) :
    ∃ e, ((parseStackUser : P β (Cow Byte)) p).res = .error (.err e) ∧ e.kind = .invalidRecord := by
  have hpos : 0 < data.length := List.length_pos_iff.2 h0
  have hf : Fails f.cfg (parseStackUser : Spec (List Byte))
      (e64 o (BitVec.ofNat 64 data.length) ++ (data ++ (e64 o dyn ++ []))) .invalidRecord := by
    unfold parseStackUser
    refine Fails.bind_right (fun _ => Reads.u64 hs _) ?_
    rw [toNat_ofNat_lt hlim]
    refine Fails.bind_right (fun _ => Reads.array rfl (by simp [h0])) ?_
    have : (parseDynSize (BitVec.ofNat 64 data.length) : Spec U64) = parseU64 := by
      unfold parseDynSize
      rw [if_neg]
      rw [toNat_ofNat_lt hlim]
      omega
    rw [this]
    refine Fails.bind_right (fun _ => Reads.u64 hs _) ?_
    intro g tl hg hb
    refine ⟨.custom .invalidRecord "stack dyn_size was greater than the record size", ?_, rfl⟩
    rw [if_pos (show dyn.toNat > (ParserM.elems Spec data).length from hgt)]
    rfl
  obtain ⟨e, h1, h2⟩ := hf f tl rfl (by rw [hb]; simp)
  have h3 := Refines.stackUser p f hp
  rw [h1] at h3
  exact ⟨e, h3, h2⟩

/-- **C20** `size = 0`: no `dyn_size` is read; the stack is empty. (If these 8 bytes are the last ones of the record the
call fails, see `c48_stack_false`.) -/
theorem c20_zero (hp : RepP p f) (hs : Src f.cfg o) (h0 : tl ≠ []) (hb : f.s.bytes = e64 o 0 ++ tl) :
    (∃ c : Cow Byte, ((parseStackUser : P β (Cow Byte)) p).res = .ok c ∧ c.data = []) ∧
    RepP ((parseStackUser : P β (Cow Byte)) p).st (f.adv 8) := by
  obtain ⟨c, h1, h2, h3⟩ := Refines.reads Refines.stackUser hp
    (Reads.stack (nd := ⟨false, false⟩) (k := 0) (tl := tl) hs { demoSampleBody with stack := [] } (by decide)
      (fun h => absurd rfl h) (fun _ => h0)) nofun nofun (by simpa [KSample.encStack] using hb)
  exact ⟨⟨c, h1, h2⟩, by simpa [KSample.encStack] using h3⟩

example : (match ((parseStackUser : P Slice (Cow Byte))
      (Parser.new ⟨1, [3, 0, 0, 0, 0, 0, 0, 0, 7, 8, 9, 2, 0, 0, 0, 0, 0, 0, 0, 99]⟩ demoCfg)) with
    | ⟨.ok c, st, _⟩ => c.data == [7, 8] && st.data.offset == 19
    | _ => false) = true := by decide +kernel

/-- **C20** In a whole sample (as in `c17_sample_partial`): the dumped stack cut to `dyn_size`, and the weight behind it. -/
theorem c20_sample (hp : RepP p f) (hs : Src f.cfg o) (misc : U16) (t : KTrailer) (s : KSample)
    (hok : s.Ok f.cfg.endian.isNative o f.cfg.sampleType f.cfg.readFormat f.cfg.regsUser f.cfg.regsIntr f.cfg.branchHwIndex)
    (hal : f.cfg.endian.isNative = true → AlMod f.s.al 0)
    (hsize : (KRecord.mk misc (.sample s) t).size o f.cfg < 65536)
    (hb : f.s.bytes = (KRecord.mk misc (.sample s) t).enc o f.cfg ++ tl)
    (hst : f.cfg.sampleType.getLsbD 13 = true) :
    ∃ (a : Sample Cow) (c : Cow Byte), (P.parseRecord p).res = .ok (.sample a) ∧ a.stackUser = some c ∧
      (s.stack = [] → c.data = []) ∧ (s.stack ≠ [] → c.data = s.stack.take s.dynSize.toNat) ∧
      a.weight = optv (f.cfg.sampleType.getLsbD 14 || f.cfg.sampleType.getLsbD 24) s.weight := by
  obtain ⟨⟨a, h1, h2⟩, _⟩ := c17_sample_partial hp hs misc t s hok hal hsize hb
  simp only [Sample.view, KSample.value, Sample.mk.injEq, hst] at h2
  obtain ⟨_, _, _, _, _, _, _, _, _, _, _, _, _, _, _, h15, h16, _⟩ := h2
  rcases ha : a.stackUser with _ | c
  · rw [ha] at h15; cases h15
  · rw [ha] at h15
    have h' : c.data = if s.stack = [] then [] else s.stack.take s.dynSize.toNat := by
      simpa [optv] using h15
    exact ⟨a, c, h1, ha, fun h => by rw [h', if_pos h], fun h => by rw [h', if_neg h], h16⟩

/-! ## C21, C22 -/

/-- The fields that open a sample, for any continuation. -/
def KSample.encHead (o : Order) (st : U64) (s : KSample) : List Byte :=
  opt (st.getLsbD 16) (e64 o s.identifier) ++ opt (st.getLsbD 0) (e64 o s.ip) ++
  opt (st.getLsbD 1) (e32 o s.pid ++ e32 o s.tid) ++ opt (st.getLsbD 2) (e64 o s.time) ++
  opt (st.getLsbD 3) (e64 o s.addr) ++ opt (st.getLsbD 6) (e64 o s.id) ++ opt (st.getLsbD 9) (e64 o s.streamId) ++
  opt (st.getLsbD 7) (e32 o s.cpu ++ e32 o s.res) ++ opt (st.getLsbD 8) (e64 o s.period)

/-- These fields as they should be returned. -/
def KSample.HeadIs (st : U64) (s : KSample) (a : Sample Cow) : Prop :=
  a.id = (if st.getLsbD 6 then some s.id else optv (st.getLsbD 16) s.identifier) ∧ a.ip = optv (st.getLsbD 0) s.ip ∧
  a.pid = optv (st.getLsbD 1) s.pid ∧ a.tid = optv (st.getLsbD 1) s.tid ∧
  a.time = optv (st.getLsbD 2) s.time ∧ a.addr = optv (st.getLsbD 3) s.addr ∧
  a.streamId = optv (st.getLsbD 9) s.streamId ∧ a.cpu = optv (st.getLsbD 7) s.cpu ∧
  a.period = optv (st.getLsbD 8) s.period

/-- **C21** for samples: whatever follows, if parsing succeeds then `id()` is ID if requested and else IDENTIFIER, and
the other fields are where they should be. -/
theorem c21_sample (hp : RepP p f) (hs : Src f.cfg o) (s : KSample)
    (hb : f.s.bytes = s.encHead o f.cfg.sampleType ++ tl) {a : Sample Cow}
    (ha : ((parseSample : P β (Sample Cow)) p).res = .ok a) :
    s.HeadIs f.cfg.sampleType a := by
  unfold parseSample at ha
  obtain ⟨cfg, h1, ha⟩ := P.bind_res ha
  cases h1
  have hst : ((ParserM.config : P β ParseConfig) p).st = p := rfl
  have hc : p.config = f.cfg := hp.cfg
  rw [hst, hc] at ha
  have e (m : U64) (i : Nat) (hm : m = 1#64 <<< i) (hi : i < 64) :
    contains f.cfg.sampleType m = f.cfg.sampleType.getLsbD i := contains_rf _ i hi m hm
  unfold KSample.encHead at hb
  simp only [opt_append, List.append_assoc] at hb
  obtain ⟨q0, hq0, hb0, ha⟩ := P.bind_reads ha (Refines.parseIf_eq _ Refines.u64) hp
    (Reads.parseIf (f.cfg.sampleType.getLsbD 16) (e _ 16 rfl (by omega)) fun _ => Reads.u64 hs s.identifier) hb
  obtain ⟨q1, hq1, hb1, ha⟩ := P.bind_reads ha (Refines.parseIf_eq _ Refines.u64) hq0
    (Reads.parseIf (f.cfg.sampleType.getLsbD 0) (e _ 0 rfl (by omega)) fun _ => Reads.u64 hs s.ip) hb0
  obtain ⟨q2, hq2, hb2, ha⟩ := P.bind_reads ha (Refines.parseIf_eq _ Refines.u32) hq1
    (Reads.parseIf (f.cfg.sampleType.getLsbD 1) (e _ 1 rfl (by omega)) fun _ => Reads.u32 hs s.pid) hb1
  obtain ⟨q3, hq3, hb3, ha⟩ := P.bind_reads ha (Refines.parseIf_eq _ Refines.u32) hq2
    (Reads.parseIf (f.cfg.sampleType.getLsbD 1) (e _ 1 rfl (by omega)) fun _ => Reads.u32 hs s.tid) hb2
  obtain ⟨q4, hq4, hb4, ha⟩ := P.bind_reads ha (Refines.parseIf_eq _ Refines.u64) hq3
    (Reads.parseIf (f.cfg.sampleType.getLsbD 2) (e _ 2 rfl (by omega)) fun _ => Reads.u64 hs s.time) hb3
  obtain ⟨q5, hq5, hb5, ha⟩ := P.bind_reads ha (Refines.parseIf_eq _ Refines.u64) hq4
    (Reads.parseIf (f.cfg.sampleType.getLsbD 3) (e _ 3 rfl (by omega)) fun _ => Reads.u64 hs s.addr) hb4
  obtain ⟨q6, hq6, hb6, ha⟩ := P.bind_reads ha (Refines.parseIf_eq _ Refines.u64) hq5
    (Reads.parseIf (f.cfg.sampleType.getLsbD 6) (e _ 6 rfl (by omega)) fun _ => Reads.u64 hs s.id) hb5
  obtain ⟨q7, hq7, hb7, ha⟩ := P.bind_reads ha (Refines.parseIf_eq _ Refines.u64) hq6
    (Reads.parseIf (f.cfg.sampleType.getLsbD 9) (e _ 9 rfl (by omega)) fun _ => Reads.u64 hs s.streamId) hb6
  rw [← List.append_assoc (opt _ _), ← opt_append] at hb7
  obtain ⟨q8, hq8, hb8, ha⟩ := P.bind_reads ha (Refines.parseIf_eq _ Refines.cpu) hq7
    (Reads.parseIf (f.cfg.sampleType.getLsbD 7) (e _ 7 rfl (by omega)) fun _ => Reads.cpu hs s.cpu s.res) hb7
  obtain ⟨q9, hq9, hb9, ha⟩ := P.bind_reads ha (Refines.parseIf_eq _ Refines.u64) hq8
    (Reads.parseIf (f.cfg.sampleType.getLsbD 8) (e _ 8 rfl (by omega)) fun _ => Reads.u64 hs s.period) hb8
  have hq : ∀ {m : P β (Sample Cow)} {q : Parser β} {Q : Sample Cow → Prop}, Post Q m → (m q).res = .ok a → Q a :=
    fun h h' => h _ _ h'
  revert ha
  refine hq (Q := s.HeadIs f.cfg.sampleType) ?_
  iterate 15 refine Post.skip fun _ => ?_
  exact Post.pure ⟨or_optv _ _ _, rfl, rfl, rfl, rfl, rfl, rfl, rfl, rfl⟩

/-- The kernel's values for the trailer, taken from a sample. -/
def KSample.trailer (s : KSample) : KTrailer := ⟨s.pid, s.tid, s.time, s.id, s.streamId, s.cpu, s.res, s.identifier⟩

/-- **C22** `SampleId::from_sample` of a parsed sample is what the kernel's trailer for the same values decodes to. -/
theorem c22_from_sample (hp : RepP p f) (hs : Src f.cfg o) (s : KSample)
    (hb : f.s.bytes = s.encHead o f.cfg.sampleType ++ tl) {a : Sample Cow}
    (ha : ((parseSample : P β (Sample Cow)) p).res = .ok a) :
    SampleId.fromSample a = s.trailer.value f.cfg.sampleType := by
  obtain ⟨h1, _, h2, h3, h4, _, h5, h6, _⟩ := c21_sample hp hs s hb ha
  unfold SampleId.fromSample KTrailer.value
  rw [h1, h2, h3, h4, h5, h6]
  rfl

/-- The accessors of `from_sample` are the sample's. -/
theorem c22_from_sample_fields (a : Sample Cow) :
    (SampleId.fromSample a).pid = a.pid ∧ (SampleId.fromSample a).tid = a.tid ∧ (SampleId.fromSample a).time = a.time ∧
    (SampleId.fromSample a).id = a.id ∧ (SampleId.fromSample a).streamId = a.streamId ∧
    (SampleId.fromSample a).cpu = a.cpu := ⟨rfl, rfl, rfl, rfl, rfl, rfl⟩

/-- **C21, C22** The trailer: with `sample_id_all` set, the kernel's `struct sample_id` is decoded, ID preferred over
IDENTIFIER, and exactly its bytes are consumed. -/
theorem c22_trailer (hp : RepP p f) (hs : Src f.cfg o) (hall : f.cfg.sampleIdAll = true) (t : KTrailer)
    (hb : f.s.bytes = t.enc o f.cfg.sampleType ++ tl) :
    ((parseSampleId : P β SampleId) p).res = .ok
      { pid := optv (f.cfg.sampleType.getLsbD 1) t.pid, tid := optv (f.cfg.sampleType.getLsbD 1) t.tid
        time := optv (f.cfg.sampleType.getLsbD 2) t.time
        id := if f.cfg.sampleType.getLsbD 6 then some t.id else optv (f.cfg.sampleType.getLsbD 16) t.identifier
        streamId := optv (f.cfg.sampleType.getLsbD 9) t.streamId, cpu := optv (f.cfg.sampleType.getLsbD 7) t.cpu } ∧
    RepP ((parseSampleId : P β SampleId) p).st (f.adv (t.enc o f.cfg.sampleType).length) := by
  obtain ⟨r, h1, rfl, h3⟩ := Refines.reads Refines.sampleId hp
    (Reads.trailer (nd := ⟨false, false⟩) (k := 0) hs t hall) nofun nofun hb
  exact ⟨h1, h3⟩

/-- **C22** The estimate is what parsing consumes, for any content: with that many bytes parsing succeeds and consumes
exactly them, with fewer it fails with the buffer's end error. -/
theorem c22_estimate (hp : RepP p f) :
    (SampleId.estimateLen f.cfg ≤ f.s.bytes.length → ∃ s, ((parseSampleId : P β SampleId) p).res = .ok s ∧
      RepP ((parseSampleId : P β SampleId) p).st (f.adv (SampleId.estimateLen f.cfg)) ∧
      ((parseSampleId : P β SampleId) p).st.data.offset = p.data.offset + SampleId.estimateLen f.cfg) ∧
    (f.s.bytes.length < SampleId.estimateLen f.cfg →
      ((parseSampleId : P β SampleId) p).res = .error (.err f.s.fin)) := by
  have h := Refines.sampleId p f hp
  obtain ⟨h1, h2⟩ := Fixed.sampleId (cfg := f.cfg) f rfl
  constructor
  · intro hle
    obtain ⟨s, hs⟩ := h1 hle
    rw [hs] at h
    obtain ⟨a, h3, rfl, h4⟩ := h
    exact ⟨a, h3, h4, by rw [h4.off, hp.off]; rfl⟩
  · intro hlt
    rw [h2 hlt] at h
    exact h

/-- The estimate is the length of the kernel's trailer, or 0 without `sample_id_all`. -/
theorem c22_estimate_len (cfg : ParseConfig) (t : KTrailer) :
    SampleId.estimateLen cfg = if cfg.sampleIdAll then (t.enc o cfg.sampleType).length else 0 := by
  rw [estimateLen_eq, KTrailer.enc_length]

/-- **C22** Without `sample_id_all` the `SampleId` is empty and nothing is read. -/
theorem c22_off {β : Type} [ParseBuf β] (p : Parser β) (hall : p.config.sampleIdAll = false) :
    SampleId.estimateLen p.config = 0 ∧ ((parseSampleId : P β SampleId) p) =
      ⟨.ok { pid := none, tid := none, time := none, id := none, streamId := none, cpu := none }, p, []⟩ := by
  constructor
  · rw [estimateLen_eq, hall]; rfl
  · unfold parseSampleId
    rw [P.bind_ok (show (ParserM.config : P β ParseConfig) p = ⟨.ok p.config, p, []⟩ from rfl)]
    simp only [hall, Bool.not_false, if_true]
    rfl

/-- All fields but STREAM_ID, big endian. -/
def demoTrailerCfg : ParseConfig :=
  { demoBigCfg with config := ⟨ConfigFlags.new 0#64 0x100c6#64 true false 0#16, 0#64, 0#64⟩ }
example : demoTrailerCfg.sampleIdAll = true ∧ SampleId.estimateLen demoTrailerCfg = 40 ∧
    (match ((parseSampleId : P Slice SampleId) (Parser.new ⟨0, KTrailer.enc .big demoTrailerCfg.sampleType
      ⟨1, 2, 3, 4, 5, 6, 7, 8⟩⟩ demoTrailerCfg)) with
    | ⟨.ok s, st, _⟩ => s == ⟨some 1, some 2, some 3, some 4, none, some 6⟩ && st.data.offset == 40
    | _ => false) = true := by decide +kernel

/-! ## C48 -/

/-- **C48** Full statement: an empty callchain, branch stack, register dump, stack or AUX area is parsed as empty also when
nothing follows (`tl = []`). What holds: callchains, branch stacks and registers in a foreign byte order always, and
everything if something follows. -/
theorem c48_empty_partial (hp : RepP p f) (hs : Src f.cfg o) (h : f.cfg.endian.isNative = true → tl ≠ [])
    (hal : f.cfg.endian.isNative = true → AlMod f.s.al 0) (hb : f.s.bytes = e64 o 0 ++ tl) :
    (∃ c : Cow U64, ((parseCallchain : P β (Cow U64)) p).res = .ok c ∧ c.data = []) ∧
    (∃ c : Cow BranchEntry, ((parseLbr false : P β (Cow BranchEntry × Option U64)) p).res = .ok (c, none) ∧ c.data = []) ∧
    (tl ≠ [] → ∃ c : Cow Byte, ((parseAuxData : P β (Cow Byte)) p).res = .ok c ∧ c.data = []) ∧
    (tl ≠ [] → ∃ c : Cow Byte, ((parseStackUser : P β (Cow Byte)) p).res = .ok c ∧ c.data = []) := by
  refine ⟨?_, ?_, fun h0 => ?_, fun h0 => (c20_zero hp hs h0 hb).1⟩
  · obtain ⟨c, h1, h2, _⟩ := Refines.reads Refines.callchain hp
      (Reads.callchain (nd := ⟨true, false⟩) (tl := tl) hs { demoSampleBody with callchain := [] } (by decide)
        (fun h1 _ => h h1)) nofun (fun _ => hal) (by simpa [KSample.encCallchain] using hb)
    exact ⟨c, h1, h2⟩
  · obtain ⟨⟨c, hw⟩, h1, h2, _⟩ := Refines.reads (Refines.lbr false) hp
      (Reads.lbr (nd := ⟨true, false⟩) (tl := tl) hs { demoSampleBody with lbr := [] } false (by decide)
        (fun h1 _ => h h1)) nofun (fun _ => hal) (by simpa [KSample.encLbr] using hb)
    have h2' : (c.data, hw) = ([], none) := h2
    injection h2' with h3 h4
    subst h4
    exact ⟨c, h1, h3⟩
  · have hr : Reads f.cfg ⟨false, false⟩ 0 (parseAuxData : Spec (List Byte)) (e64 o 0 ++ []) tl [] := by
      unfold parseAuxData
      exact Reads.bind (Reads.u64 hs _) (Reads.array rfl (by simpa using h0))
    obtain ⟨c, h1, h2, _⟩ := Refines.reads Refines.auxData hp hr nofun nofun (by simpa using hb)
    exact ⟨c, h1, h2⟩

/-- Samples whose last field is empty, one per kind of field: all are refused with `Eof` ... -/
def demoEmptyCfg (st : U64) : ParseConfig := { demoCfg with config := ⟨ConfigFlags.new 0#64 st false false 0#16, 0#64, 0#64⟩ }
def isEof (r : Except Fault (Record Cow)) : Bool := match r with
  | .error (.err e) => e == .eof
  | _ => false
def emptySample : List Byte := [9, 0, 0, 0, 0, 0, 16, 0, 0, 0, 0, 0, 0, 0, 0, 0]
theorem c48_callchain_false :
    isEof (P.parseRecord (Parser.new (⟨0, emptySample⟩ : Slice) (demoEmptyCfg SampleFlags.CALLCHAIN))).res = true := by
  decide +kernel
theorem c48_lbr_false :
    isEof (P.parseRecord (Parser.new (⟨0, emptySample⟩ : Slice) (demoEmptyCfg SampleFlags.BRANCH_STACK))).res = true := by
  decide +kernel
theorem c48_regs_false :
    isEof (P.parseRecord (Parser.new (⟨0, emptySample⟩ : Slice) (demoEmptyCfg SampleFlags.REGS_USER))).res = true := by
  decide +kernel
theorem c48_stack_false :
    isEof (P.parseRecord (Parser.new (⟨0, emptySample⟩ : Slice) (demoEmptyCfg SampleFlags.STACK_USER))).res = true := by
  decide +kernel
theorem c48_aux_false :
    isEof (P.parseRecord (Parser.new (⟨0, emptySample⟩ : Slice) (demoEmptyCfg SampleFlags.AUX))).res = true := by
  decide +kernel
/-- ... although with one more field after it the same field is accepted. -/
example : (match (P.parseRecord (Parser.new (⟨0, [9, 0, 0, 0, 0, 0, 24, 0, 0, 0, 0, 0, 0, 0, 0, 0, 7, 0, 0, 0, 0, 0, 0, 0]⟩ : Slice)
      (demoEmptyCfg (SampleFlags.CALLCHAIN ||| SampleFlags.WEIGHT)))).res with
    | .ok (.sample s) => s.callchain.map Cow.data == some [] && s.weight == some 7
    | _ => false) = true := by decide +kernel

/-! ## C49 -/

/-- **C49** Full statement: also for `abi = 0` (NONE), where the kernel writes no registers (`KRegs.enc`); and without
`hend`, `hal` (see C48, C33). -/
theorem c49_registers_partial (hp : RepP p f) (hs : Src f.cfg o) (r : KRegs) (ha : r.abi ≠ 0#64)
    (hl : r.values.length = popcount f.cfg.regsUser)
    (hend : f.cfg.endian.isNative = true → r.values = [] → tl ≠ []) (hal : f.cfg.endian.isNative = true → AlMod f.s.al 0)
    (hb : f.s.bytes = r.enc o ++ tl) :
    ∃ x : Registers Cow, ((parseRegistersUser : P β (Registers Cow)) p).res = .ok x ∧ x.abi = r.abi ∧
      x.mask = f.cfg.regsUser ∧ x.regs.data = r.values ∧
      RepP ((parseRegistersUser : P β (Registers Cow)) p).st (f.adv (r.enc o).length) := by
  have hr : Reads f.cfg ⟨true, false⟩ 0 (parseRegistersUser : Spec (Registers List)) (r.enc o) tl
      ⟨r.abi, f.cfg.regsUser, r.values⟩ := by
    unfold parseRegistersUser
    exact Reads.config (Reads.regs (nd := ⟨true, false⟩) hs r _ ha hl hend)
  obtain ⟨x, h1, h2, h3⟩ := Refines.reads Refines.registersUser hp hr nofun (fun _ => hal) hb
  have h2' : x.view = ⟨r.abi, f.cfg.regsUser, r.values⟩ := h2
  simp only [Registers.view, Registers.mk.injEq] at h2'
  exact ⟨x, h1, h2'.1, h2'.2.1, h2'.2.2, h3⟩

/-- A sample of a kernel thread (no user registers, abi NONE) with REGS_USER (one register) and WEIGHT: the weight
is taken for a register value and the weight is missing. -/
theorem c49_abi_none_false :
    isEof (P.parseRecord (Parser.new (⟨0, (KRecord.mk 0 (.sample { demoSampleBody with regsUser := ⟨0, []⟩ })
        ⟨1, 2, 3, 4, 5, 6, 7, 8⟩).enc .little
        { demoCfg with config := ⟨ConfigFlags.new 0#64 (SampleFlags.REGS_USER ||| SampleFlags.WEIGHT) false false 0#16, 1#64, 0#64⟩ }⟩ : Slice)
      { demoCfg with config := ⟨ConfigFlags.new 0#64 (SampleFlags.REGS_USER ||| SampleFlags.WEIGHT) false false 0#16, 1#64, 0#64⟩ })).res
      = true := by decide +kernel

/-- **C49** In a whole sample (as in `c17_sample_partial`, so with a nonzero abi): both register dumps. -/
theorem c49_sample_partial (hp : RepP p f) (hs : Src f.cfg o) (misc : U16) (t : KTrailer) (s : KSample)
    (hok : s.Ok f.cfg.endian.isNative o f.cfg.sampleType f.cfg.readFormat f.cfg.regsUser f.cfg.regsIntr f.cfg.branchHwIndex)
    (hal : f.cfg.endian.isNative = true → AlMod f.s.al 0)
    (hsize : (KRecord.mk misc (.sample s) t).size o f.cfg < 65536)
    (hb : f.s.bytes = (KRecord.mk misc (.sample s) t).enc o f.cfg ++ tl)
    (hu : f.cfg.sampleType.getLsbD 12 = true) (hi : f.cfg.sampleType.getLsbD 18 = true) :
    ∃ (a : Sample Cow) (u i : Registers Cow), (P.parseRecord p).res = .ok (.sample a) ∧ a.regsUser = some u ∧ a.regsIntr = some i ∧
      u.abi = s.regsUser.abi ∧ u.mask = f.cfg.regsUser ∧ u.regs.data = s.regsUser.values ∧
      i.abi = s.regsIntr.abi ∧ i.mask = f.cfg.regsIntr ∧ i.regs.data = s.regsIntr.values := by
  obtain ⟨⟨a, h1, h2⟩, _⟩ := c17_sample_partial hp hs misc t s hok hal hsize hb
  simp only [Sample.view, KSample.value, Sample.mk.injEq, hu, hi] at h2
  obtain ⟨_, _, _, _, _, _, _, _, _, _, _, _, _, _, h14, _, _, _, _, h19, _⟩ := h2
  rcases ha : a.regsUser with _ | u
  · rw [ha] at h14; cases h14
  rcases hb' : a.regsIntr with _ | i
  · rw [hb'] at h19; cases h19
  rw [ha] at h14
  rw [hb'] at h19
  have h14' := Option.some.inj h14
  have h19' := Option.some.inj h19
  simp only [Registers.view, Registers.mk.injEq] at h14' h19'
  exact ⟨a, u, i, h1, ha, hb', h14'.1, h14'.2.1, h14'.2.2, h19'.1, h19'.2.1, h19'.2.2⟩

/-! ## C50 -/

/-- **C50** Full statement: also with `WEIGHT_STRUCT` (bit 24). For every other `sample_type`, the sample is consumed
completely, i.e. each field the kernel wrote is the one returned (this is `c17_sample_partial`). -/
theorem c50_consumed_partial (hp : RepP p f) (hs : Src f.cfg o) (misc : U16) (t : KTrailer) (s : KSample)
    (hok : s.Ok f.cfg.endian.isNative o f.cfg.sampleType f.cfg.readFormat f.cfg.regsUser f.cfg.regsIntr f.cfg.branchHwIndex)
    (hal : f.cfg.endian.isNative = true → AlMod f.s.al 0)
    (hsize : (KRecord.mk misc (.sample s) t).size o f.cfg < 65536)
    (hb : f.s.bytes = (KRecord.mk misc (.sample s) t).enc o f.cfg ++ tl) :
    ∃ a : Sample Cow, (P.parseRecord p).res = .ok (.sample a) ∧
      a.weight = optv (f.cfg.sampleType.getLsbD 14) s.weight ∧ a.dataSrc = optv (f.cfg.sampleType.getLsbD 15) s.dataSrc ∧
      a.transaction = optv (f.cfg.sampleType.getLsbD 17) s.transaction ∧
      a.physAddr = optv (f.cfg.sampleType.getLsbD 19) s.physAddr ∧ a.cgroup = optv (f.cfg.sampleType.getLsbD 21) s.cgroup ∧
      a.dataPageSize = optv (f.cfg.sampleType.getLsbD 22) s.dataPageSize ∧
      a.codePageSize = optv (f.cfg.sampleType.getLsbD 23) s.codePageSize ∧
      a.aux.map Cow.data = optv (f.cfg.sampleType.getLsbD 20) s.aux := by
  obtain ⟨⟨a, h1, h2⟩, _⟩ := c17_sample_partial hp hs misc t s hok hal hsize hb
  have hw := hok.weightStruct
  simp only [Sample.view, KSample.value, Sample.mk.injEq, hw, Bool.or_false] at h2
  exact ⟨a, h1, by simp only [h2, and_self]⟩

/-- WEIGHT_STRUCT with DATA_SRC: the weight is returned as the data source. -/
theorem c50_weight_struct_false :
    (match (P.parseRecord (Parser.new (⟨0, (KRecord.mk 0 (.sample { demoSampleBody with weight := 111, dataSrc := 222 })
        ⟨1, 2, 3, 4, 5, 6, 7, 8⟩).enc .little (demoEmptyCfg (SampleFlags.WEIGHT_STRUCT ||| SampleFlags.DATA_SRC))⟩ : Slice)
      (demoEmptyCfg (SampleFlags.WEIGHT_STRUCT ||| SampleFlags.DATA_SRC)))).res with
    | .ok (.sample s) => s.dataSrc == some 111 && s.weight == none
    | _ => false) = true := by decide +kernel

end Perf
