import Verif.Proof.RoundTrip
import Verif.Props.Framing
/-!
# Decoding the kernel's layouts: C10, C11, C12, C13, C14, C15, C17, C30

The layouts are those of `Verif/Spec/Kernel.lean`. `Src cfg o` says that the configuration reads byte order `o`
(`Src.native`, `Src.little`, `Src.big`, `Src.dynamic`); `RepP p f` that the parser stands at the flat input `f`
(`RepP.slice`, `RepP.reader`, `RepP.pieces`), so each theorem covers every kind of buffer and every chunking.
-/
namespace Perf
variable {β : Type} [ParseBuf β] [Lawful β] {O : Type} {p : Parser β} {f : Flat} {o : Order} {tl : List Byte}

/-- Parsing an encoded record as a `Record`. -/
theorem P.parseRecord_enc (hp : RepP p f) (hs : Src f.cfg o) (r : KRecord) (hok : r.body.Ok o f.cfg r.misc)
    (hsize : r.size o f.cfg < 65536)
    (hal : r.body.needsAlignment = true → f.cfg.endian.isNative = true → AlMod f.s.al 0)
    (hb : f.s.bytes = r.enc o f.cfg ++ tl) :
    (∃ a : Record Cow, (P.parseRecord p).res = .ok a ∧ a.view = r.body.value f.cfg r.misc) ∧
    RepP (P.parseRecord p).st (f.adv (r.enc o f.cfg).length) := by
  obtain ⟨⟨a, h1, h2⟩, h3, _⟩ := P.record_enc hp hs r hok hsize hal hb (recordVisitor Cow)
  refine ⟨⟨a, ?_, h1⟩, h3⟩
  show (P.record (recordVisitor Cow) p).res = _
  rw [h2, recordVisitor_value h1 _ rfl]

/-! ## C11 -/

/-- The records without variable-length data, as the crate's `Record`. -/
def KBody.fixed (misc : U16) : KBody → Option (Record Cow)
  | .lost r => some (.lost r)
  | .exit r => some (.exit r)
  | .fork r => some (.fork r)
  | .throttle r => some (.throttle r)
  | .unthrottle r => some (.unthrottle r)
  | .itraceStart r => some (.itraceStart r)
  | .lostSamples r => some (.lostSamples r)
  | .aux r => some (.aux r)
  | .bpfEvent r => some (.bpfEvent r)
  | .auxOutputHwId r => some (.auxOutputHwId r)
  | .switchCpuWide pid tid => some (.switchCpuWide (if misc.getLsbD 13 then .out pid tid else .in pid tid))
  | _ => none

theorem trailerLen_le (st : U64) : trailerLen st ≤ 48 := by
  unfold trailerLen
  have := List.length_filter_le (fun i => st.getLsbD i) [1, 2, 6, 9, 7, 16]
  simp only [List.length_cons, List.length_nil] at this
  omega

theorem KRecord.encTrailer_le (r : KRecord) (cfg : ParseConfig) : (r.encTrailer o cfg).length ≤ 48 := by
  unfold KRecord.encTrailer
  split
  · rw [KTrailer.enc_length]; exact trailerLen_le _
  · simp

/-- **C11** For the eleven fixed-layout record types, any field values (a BPF tag has 8 bytes), any misc and any
trailer: parsing the kernel layout returns exactly the values. -/
theorem c11_fixed (hp : RepP p f) (hs : Src f.cfg o) (r : KRecord) {a : Record Cow} (hfix : r.body.fixed r.misc = some a)
    (htag : ∀ b, r.body = .bpfEvent b → b.tag.length = 8) (hb : f.s.bytes = r.enc o f.cfg ++ tl) :
    (P.parseRecord p).res = .ok a ∧ RepP (P.parseRecord p).st (f.adv (r.enc o f.cfg).length) := by
  have hok : r.body.Ok o f.cfg r.misc := by
    cases hr : r.body <;> rw [hr] at hfix htag <;> simp only [KBody.fixed, reduceCtorEq] at hfix
    case bpfEvent b => exact htag b rfl
    all_goals trivial
  have hna : r.body.needsAlignment = false := by
    cases hr : r.body <;> rw [hr] at hfix <;> simp only [KBody.fixed, reduceCtorEq] at hfix <;> rfl
  have hbl : (r.body.enc o f.cfg).length ≤ 24 := by
    cases hr : r.body <;> rw [hr] at hfix htag <;> simp only [KBody.fixed, reduceCtorEq] at hfix
    case bpfEvent b => simp [KBody.enc, htag b rfl]
    all_goals simp [KBody.enc]
  have hsize : r.size o f.cfg < 65536 := by
    have := r.encTrailer_le (o := o) f.cfg
    unfold KRecord.size; omega
  obtain ⟨⟨a', h1, h2⟩, h3⟩ := P.parseRecord_enc hp hs r hok hsize (by rw [hna]; nofun) hb
  refine ⟨?_, h3⟩
  rw [h1]
  congr 1
  cases hr : r.body <;> rw [hr] at hfix h2 <;> simp only [KBody.fixed, reduceCtorEq, Option.some.injEq] at hfix <;>
    subst hfix <;> cases a' <;> simp_all [Record.view, KBody.value]

/-- A `SWITCH_CPU_WIDE` (out) in big endian, read through a reader that delivers it in two pieces. -/
def demoSwitch : KRecord := ⟨0x2000, .switchCpuWide 5 6, ⟨1, 2, 3, 4, 5, 6, 7, 8⟩⟩
def demoBigCfg : ParseConfig := .default (.big .little) .little
example : demoSwitch.body.fixed demoSwitch.misc = some (.switchCpuWide (.out 5 6)) := rfl
example : (match (P.parseRecord (Parser.new (⟨[], [.data ((demoSwitch.enc .big demoBigCfg).take 9),
      .data ((demoSwitch.enc .big demoBigCfg).drop 9)]⟩ : BufReader) demoBigCfg)).res with
    | .ok (.switchCpuWide r) => r == .out 5 6
    | _ => false) = true := by decide +kernel

/-! ## C12 -/

/-- **C12** MMAP. The name is any byte string not ending in NUL, padded with any number of NULs (not both empty). -/
theorem c12_mmap (hp : RepP p f) (hs : Src f.cfg o) (misc : U16) (t : KTrailer) (pid tid : U32) (addr len pgoff : U64)
    (name : KName) (hn : name.Ok) (hsize : (KRecord.mk misc (.mmap pid tid addr len pgoff name) t).size o f.cfg < 65536)
    (hb : f.s.bytes = (KRecord.mk misc (.mmap pid tid addr len pgoff name) t).enc o f.cfg ++ tl) :
    ∃ c : Cow Byte, (P.parseRecord p).res = .ok (.mmap ⟨pid, tid, addr, len, pgoff, c⟩) ∧ c.data = name.text := by
  obtain ⟨⟨a, h1, h2⟩, _⟩ := P.parseRecord_enc hp hs _ (by exact hn) hsize nofun hb
  rw [h1]
  cases a <;> simp only [Record.view, KBody.value, reduceCtorEq, Record.mmap.injEq] at h2
  rename_i r; obtain ⟨_, _, _, _, _, c⟩ := r
  simp only [Mmap.view, Mmap.mk.injEq] at h2
  obtain ⟨rfl, rfl, rfl, rfl, rfl, h2⟩ := h2
  exact ⟨c, rfl, h2⟩

/-- **C12** COMM. -/
theorem c12_comm (hp : RepP p f) (hs : Src f.cfg o) (misc : U16) (t : KTrailer) (pid tid : U32)
    (name : KName) (hn : name.Ok) (hsize : (KRecord.mk misc (.comm pid tid name) t).size o f.cfg < 65536)
    (hb : f.s.bytes = (KRecord.mk misc (.comm pid tid name) t).enc o f.cfg ++ tl) :
    ∃ c : Cow Byte, (P.parseRecord p).res = .ok (.comm ⟨pid, tid, c⟩) ∧ c.data = name.text := by
  obtain ⟨⟨a, h1, h2⟩, _⟩ := P.parseRecord_enc hp hs _ (by exact hn) hsize nofun hb
  rw [h1]
  cases a <;> simp only [Record.view, KBody.value, reduceCtorEq, Record.comm.injEq] at h2
  rename_i r; obtain ⟨_, _, c⟩ := r
  simp only [Comm.view, Comm.mk.injEq] at h2
  obtain ⟨rfl, rfl, h2⟩ := h2
  exact ⟨c, rfl, h2⟩

/-- **C12** CGROUP. -/
theorem c12_cgroup (hp : RepP p f) (hs : Src f.cfg o) (misc : U16) (t : KTrailer) (id : U64)
    (name : KName) (hn : name.Ok) (hsize : (KRecord.mk misc (.cgroup id name) t).size o f.cfg < 65536)
    (hb : f.s.bytes = (KRecord.mk misc (.cgroup id name) t).enc o f.cfg ++ tl) :
    ∃ c : Cow Byte, (P.parseRecord p).res = .ok (.cgroup ⟨id, c⟩) ∧ c.data = name.text := by
  obtain ⟨⟨a, h1, h2⟩, _⟩ := P.parseRecord_enc hp hs _ (by exact hn) hsize nofun hb
  rw [h1]
  cases a <;> simp only [Record.view, KBody.value, reduceCtorEq, Record.cgroup.injEq] at h2
  rename_i r; obtain ⟨_, c⟩ := r
  simp only [CGroup.view, CGroup.mk.injEq] at h2
  obtain ⟨rfl, h2⟩ := h2
  exact ⟨c, rfl, h2⟩

/-- **C12** KSYMBOL. -/
theorem c12_ksymbol (hp : RepP p f) (hs : Src f.cfg o) (misc : U16) (t : KTrailer) (addr : U64) (len : U32)
    (ksymType flags : U16) (name : KName) (hn : name.Ok)
    (hsize : (KRecord.mk misc (.ksymbol addr len ksymType flags name) t).size o f.cfg < 65536)
    (hb : f.s.bytes = (KRecord.mk misc (.ksymbol addr len ksymType flags name) t).enc o f.cfg ++ tl) :
    ∃ c : Cow Byte, (P.parseRecord p).res = .ok (.ksymbol ⟨addr, len, ksymType, flags, c⟩) ∧ c.data = name.text := by
  obtain ⟨⟨a, h1, h2⟩, _⟩ := P.parseRecord_enc hp hs _ (by exact hn) hsize nofun hb
  rw [h1]
  cases a <;> simp only [Record.view, KBody.value, reduceCtorEq, Record.ksymbol.injEq] at h2
  rename_i r; obtain ⟨_, _, _, _, c⟩ := r
  simp only [KSymbol.view, KSymbol.mk.injEq] at h2
  obtain ⟨rfl, rfl, rfl, rfl, h2⟩ := h2
  exact ⟨c, rfl, h2⟩

/-- A COMM named "a\0b" with two NULs of padding and a trailer. -/
def demoComm : KRecord := ⟨0, .comm 1 2 ⟨[0x61, 0, 0x62], 2⟩, ⟨1, 2, 3, 4, 5, 6, 7, 8⟩⟩
example : KName.Ok ⟨[0x61, 0, 0x62], 2⟩ := by constructor <;> decide
example : (match (P.parseRecord (Parser.new (⟨[⟨3, (demoComm.enc .little demoAllCfg).take 18⟩,
      ⟨77, (demoComm.enc .little demoAllCfg).drop 18⟩]⟩ : ChunkBuf) demoAllCfg)).res with
    | .ok (.comm r) => r.comm.data == [0x61, 0, 0x62] && r.pid == 1 && r.tid == 2
    | _ => false) = true := by decide +kernel

/-! ## C13 -/

/-- **C13** MMAP2 with either layout of the detail, as selected by bit 14 of misc (`KDetail.Ok`). -/
theorem c13_mmap2 (hp : RepP p f) (hs : Src f.cfg o) (misc : U16) (t : KTrailer) (pid tid : U32) (addr len pgoff : U64)
    (d : KDetail) (hd : d.Ok misc) (prot flags : U32) (name : KName) (hn : name.Ok)
    (hsize : (KRecord.mk misc (.mmap2 pid tid addr len pgoff d prot flags name) t).size o f.cfg < 65536)
    (hb : f.s.bytes = (KRecord.mk misc (.mmap2 pid tid addr len pgoff d prot flags name) t).enc o f.cfg ++ tl) :
    ∃ c : Cow Byte, c.data = name.text ∧
      (P.parseRecord p).res = .ok (.mmap2 ⟨pid, tid, addr, len, pgoff, prot, flags, c, d.value⟩) := by
  obtain ⟨⟨a, h1, h2⟩, _⟩ := P.parseRecord_enc hp hs _ (by exact ⟨hd, hn⟩) hsize nofun hb
  rw [h1]
  cases a <;> simp only [Record.view, KBody.value, reduceCtorEq, Record.mmap2.injEq] at h2
  rename_i r; obtain ⟨_, _, _, _, _, _, _, c, _⟩ := r
  simp only [Mmap2.view, Mmap2.mk.injEq] at h2
  obtain ⟨rfl, rfl, rfl, rfl, rfl, rfl, rfl, h2, rfl⟩ := h2
  exact ⟨c, h2, rfl⟩

/-- The accessors of a decoded device/inode record. -/
theorem c13_inode_accessors (hp : RepP p f) (hs : Src f.cfg o) (misc : U16) (hm : misc.getLsbD 14 = false) (t : KTrailer)
    (pid tid : U32) (addr len pgoff : U64) (maj min : U32) (ino gen : U64) (prot flags : U32) (name : KName) (hn : name.Ok)
    (hsize : (KRecord.mk misc (.mmap2 pid tid addr len pgoff (.inode maj min ino gen) prot flags name) t).size o f.cfg < 65536)
    (hb : f.s.bytes = (KRecord.mk misc (.mmap2 pid tid addr len pgoff (.inode maj min ino gen) prot flags name) t).enc o f.cfg ++ tl) :
    ∃ m : Mmap2 Cow, (P.parseRecord p).res = .ok (.mmap2 m) ∧ m.maj = some maj ∧ m.min = some min ∧ m.ino = some ino ∧
      m.inoGeneration = some gen ∧ m.buildId = some none := by
  obtain ⟨c, _, h⟩ := c13_mmap2 hp hs misc t pid tid addr len pgoff _ (show KDetail.Ok misc (.inode maj min ino gen) from hm)
    prot flags name hn hsize hb
  exact ⟨_, h, rfl, rfl, rfl, rfl, rfl⟩

/-- The accessors of a decoded build-id record: `build_id()` is the first `size` of the 20 stored bytes. -/
theorem c13_build_id_accessors (hp : RepP p f) (hs : Src f.cfg o) (misc : U16) (hm : misc.getLsbD 14 = true) (t : KTrailer)
    (pid tid : U32) (addr len pgoff : U64) (size r1 : U8) (r2 : U16) (id : List Byte) (hid : id.length = 20)
    (hle : size.toNat ≤ 20) (prot flags : U32) (name : KName) (hn : name.Ok)
    (hsize : (KRecord.mk misc (.mmap2 pid tid addr len pgoff (.buildId size r1 r2 id) prot flags name) t).size o f.cfg < 65536)
    (hb : f.s.bytes = (KRecord.mk misc (.mmap2 pid tid addr len pgoff (.buildId size r1 r2 id) prot flags name) t).enc o f.cfg ++ tl) :
    ∃ m : Mmap2 Cow, (P.parseRecord p).res = .ok (.mmap2 m) ∧ m.buildId = some (some (id.take size.toNat)) ∧
      m.maj = none ∧ m.min = none ∧ m.ino = none ∧ m.inoGeneration = none := by
  obtain ⟨c, _, h⟩ := c13_mmap2 hp hs misc t pid tid addr len pgoff _
    (show KDetail.Ok misc (.buildId size r1 r2 id) from ⟨hm, hid, hle⟩) prot flags name hn hsize hb
  refine ⟨_, h, ?_, rfl, rfl, rfl, rfl⟩
  simp only [Mmap2.buildId, KDetail.value]
  rw [if_pos (by omega)]

/-- On an input that starts with `bs`, the flat parser fails with an error of kind `kd`. -/
def Fails (cfg : ParseConfig) {α : Type} (s : Spec α) (bs : List Byte) (kd : ErrorKind) : Prop :=
  ∀ (f : Flat) (tl : List Byte), f.cfg = cfg → f.s.bytes = bs ++ tl → ∃ e, s f = .error (.err e) ∧ e.kind = kd

theorem Fails.bind_left {cfg : ParseConfig} {α α' : Type} {s : Spec α} {c : α → Spec α'} {bs : List Byte} {kd : ErrorKind}
    (h : Fails cfg s bs kd) : Fails cfg (s >>= c) bs kd := by
  intro f tl hf hb
  obtain ⟨e, h1, h2⟩ := h f tl hf hb
  exact ⟨e, Spec.bind_err h1, h2⟩

theorem Fails.bind_right {cfg : ParseConfig} {α α' : Type} {s : Spec α} {c : α → Spec α'} {bs bs' : List Byte}
    {kd : ErrorKind} {a : α} (h : ∀ tl, Reads cfg ⟨false, false⟩ 0 s bs tl a) (hc : Fails cfg (c a) bs' kd) :
    Fails cfg (s >>= c) (bs ++ bs') kd := by
  intro f tl hf hb
  rw [List.append_assoc] at hb
  have h1 := h (bs' ++ tl) f hf nofun nofun hb
  obtain ⟨e, h2, h3⟩ := hc (f.adv bs.length) tl hf (by simp [hb])
  exact ⟨e, by rw [Spec.bind_ok h1]; exact h2, h3⟩

/-- **C13** A stored build-id length above 20 is rejected with `InvalidRecord`, whatever else is in the record. -/
theorem c13_build_id_too_long (hp : RepP p f) (hs : Src f.cfg o) (misc : U16) (hm : misc.getLsbD 14 = true) (t : KTrailer)
    (pid tid : U32) (addr len pgoff : U64) (size r1 : U8) (r2 : U16) (id : List Byte) (hid : id.length = 20)
    (hgt : 20 < size.toNat) (prot flags : U32) (name : KName)
    (hsize : (KRecord.mk misc (.mmap2 pid tid addr len pgoff (.buildId size r1 r2 id) prot flags name) t).size o f.cfg < 65536)
    (hb : f.s.bytes = (KRecord.mk misc (.mmap2 pid tid addr len pgoff (.buildId size r1 r2 id) prot flags name) t).enc o f.cfg ++ tl) :
    ∃ e, (P.parseRecord p).res = .error (.err e) ∧ e.kind = .invalidRecord := by
  obtain ⟨h0, h1, _⟩ := P.record_frame hp hs _ hsize hb (recordVisitor Cow)
  have hs' := hs.withMisc misc
  have hf : Fails (f.cfg.withMisc misc) (parseBody 10#32 : Spec (Record List))
      (e32 o pid ++ (e32 o tid ++ (e64 o addr ++ (e64 o len ++ (e64 o pgoff ++ ([size] ++ ([r1] ++ (e16 o r2 ++ id))))))))
      .invalidRecord := by
    refine Fails.bind_left ?_
    unfold parseMmap2
    refine Fails.bind_right (fun _ => Reads.u32 hs' _) ?_
    refine Fails.bind_right (fun _ => Reads.u32 hs' _) ?_
    refine Fails.bind_right (fun _ => Reads.u64 hs' _) ?_
    refine Fails.bind_right (fun _ => Reads.u64 hs' _) ?_
    refine Fails.bind_right (fun _ => Reads.u64 hs' _) ?_
    refine Fails.bind_left ?_
    unfold parseMmapDetail
    intro g tl hg hb
    have h1 : ((ParserM.config : Spec ParseConfig) >>= fun cfg =>
        if cfg.misc &&& MISC_MMAP_BUILD_ID ≠ 0#16 then do
          let len ← parseU8
          let _ ← parseU8
          let _ ← parseU16
          let buildId ← ParserM.array 20
          if len.toNat > buildId.length then
            ParserM.fail (.custom .invalidRecord s!"build_id had invalid length ({len.toNat} > 20)")
          else pure (MmapDetail.buildId buildId len)
        else do
          let maj ← parseU32
          let min ← parseU32
          let ino ← parseU64
          let inoGeneration ← parseU64
          pure (.default maj min ino inoGeneration)) g = (do
          let len ← parseU8
          let _ ← parseU8
          let _ ← parseU16
          let buildId ← ParserM.array 20
          if len.toNat > buildId.length then
            ParserM.fail (.custom .invalidRecord s!"build_id had invalid length ({len.toNat} > 20)")
          else pure (MmapDetail.buildId buildId len) : Spec MmapDetail) g := by
      have hmb := misc_bit (f.cfg.withMisc misc).misc 14 MISC_MMAP_BUILD_ID (by decide) (by omega)
      rw [Spec.bind_ok (show (ParserM.config : Spec ParseConfig) g = .ok (g.cfg, g) from rfl), hg]
      rw [ParseConfig.withMisc_misc] at hmb ⊢
      rw [if_pos (by simpa [hm] using hmb)]
    rw [h1]
    have : Fails (f.cfg.withMisc misc) (do
          let len ← parseU8
          let _ ← parseU8
          let _ ← parseU16
          let buildId ← ParserM.array 20
          if len.toNat > buildId.length then
            ParserM.fail (.custom .invalidRecord s!"build_id had invalid length ({len.toNat} > 20)")
          else pure (MmapDetail.buildId buildId len) : Spec MmapDetail) ([size] ++ ([r1] ++ (e16 o r2 ++ id))) .invalidRecord := by
      refine Fails.bind_right (fun _ => Reads.u8 _) ?_
      refine Fails.bind_right (fun _ => Reads.u8 _) ?_
      refine Fails.bind_right (fun _ => Reads.u16 hs' _) ?_
      rw [← List.append_nil id]
      refine Fails.bind_right (a := id) (fun _ => Reads.array hid (ne_nil_of_length hid (by omega))) ?_
      intro g tl hg hb
      rw [if_pos (by rw [hid]; exact hgt)]
      exact ⟨_, rfl, rfl⟩
    exact this g tl hg hb
  have h2 := h1.1
  obtain ⟨e, he, hk⟩ := hf (((f.adv 8).region _).withMisc misc) (e32 o prot ++ (e32 o flags ++ name.enc)) rfl (h0.trans (by
    simp only [KBody.enc, KDetail.enc, List.append_assoc]))
  have he' : (parseBody (KRecord.metadata f.cfg (KRecord.mk misc (.mmap2 pid tid addr len pgoff (.buildId size r1 r2 id)
      prot flags name) t)).ty : Spec (Record List)) (((f.adv 8).region _).withMisc (KRecord.metadata f.cfg
      (KRecord.mk misc (.mmap2 pid tid addr len pgoff (.buildId size r1 r2 id) prot flags name) t)).misc) =
      .error (.err e) := he
  rw [he'] at h2
  exact ⟨e, h2, hk⟩

/-- A build-id record with a 3-byte id. -/
def demoMmap2 : KRecord := ⟨0x4000, .mmap2 1 2 3 4 5 (.buildId 3 0 0 ([0xab, 0xcd, 0xef] ++ List.replicate 17 0)) 6 7
  ⟨[0x78], 3⟩, ⟨1, 2, 3, 4, 5, 6, 7, 8⟩⟩
example : (match (P.parseRecord (Parser.new (⟨8, demoMmap2.enc .little demoCfg⟩ : Slice) demoCfg)).res with
    | .ok (.mmap2 m) => m.buildId == some (some [0xab, 0xcd, 0xef])
    | _ => false) = true := by decide +kernel
example : demoMmap2.body.Ok .little demoCfg demoMmap2.misc := by
  refine ⟨⟨?_, ?_, ?_⟩, ?_, ?_⟩ <;> decide

end Perf
