import Verif.Props.Layouts
/-!
# C14, C15, C17, C30 and streams of records: C10
-/
namespace Perf
variable {β : Type} [ParseBuf β] [Lawful β] {p : Parser β} {f : Flat} {o : Order} {tl : List Byte}

/-! ## C14 -/

/-- **C14**, decoding. Full statement: without the hypotheses `hne` and `hal`. In native byte order the code fails on an
empty list (`c14_empty_native_false`) and, if the entries are at an address that is not a multiple of 8, returns
later bytes instead (`c33_misaligned_false`). Both hypotheses are void in a foreign byte order. -/
theorem c14_namespaces_partial (hp : RepP p f) (hs : Src f.cfg o) (misc : U16) (t : KTrailer) (pid tid : U32)
    (es : List NamespaceEntry) (hne : f.cfg.endian.isNative = true → es ≠ [])
    (hal : f.cfg.endian.isNative = true → AlMod f.s.al 0)
    (hsize : (KRecord.mk misc (.namespaces pid tid es) t).size o f.cfg < 65536)
    (hb : f.s.bytes = (KRecord.mk misc (.namespaces pid tid es) t).enc o f.cfg ++ tl) :
    ∃ ns : Namespaces Cow, (P.parseRecord p).res = .ok (.namespaces ns) ∧ ns.pid = pid ∧ ns.tid = tid ∧
      ns.namespaces.data = es := by
  obtain ⟨⟨a, h1, h2⟩, _⟩ := P.parseRecord_enc hp hs _ (by exact hne) hsize (fun _ => hal) hb
  rw [h1]
  cases a <;> simp only [Record.view, KBody.value, reduceCtorEq, Record.namespaces.injEq] at h2
  rename_i r
  simp only [Namespaces.view, Namespaces.mk.injEq] at h2
  exact ⟨r, rfl, h2⟩

/-- The empty list in native byte order: `Eof`. -/
def demoNoNs : KRecord := ⟨0, .namespaces 1 2 [], ⟨1, 2, 3, 4, 5, 6, 7, 8⟩⟩
theorem c14_empty_native_false :
    (match (P.parseRecord (Parser.new (⟨4096, demoNoNs.enc .little demoCfg⟩ : Slice) demoCfg)).res with
      | .error (.err e) => e == .eof
      | _ => false) = true ∧
    (match (P.parseRecord (Parser.new (⟨4096, demoNoNs.enc .big demoBigCfg⟩ : Slice) demoBigCfg)).res with
      | .ok (.namespaces ns) => ns.namespaces.data == []
      | _ => false) = true := by decide +kernel

/-- Index of each namespace in the kernel's list (`enum { NET_NS_INDEX = 0, UTS, IPC, PID, USER, MNT, CGROUP }` of
linux/perf_event.h). -/
inductive Ns where
  | net | uts | ipc | pid | user | mnt | cgroup
def Ns.index : Ns → Nat
  | .net => 0 | .uts => 1 | .ipc => 2 | .pid => 3 | .user => 4 | .mnt => 5 | .cgroup => 6

/-- **C14**, accessors, except `uts`: the entry at the kernel's index, `none` if there are fewer. -/
theorem c14_accessors_partial (ns : Namespaces Cow) :
    ns.network = ns.namespaces.data[Ns.net.index]? ∧ ns.ipc = ns.namespaces.data[Ns.ipc.index]? ∧
    ns.pidNs = ns.namespaces.data[Ns.pid.index]? ∧ ns.user = ns.namespaces.data[Ns.user.index]? ∧
    ns.cgroup = ns.namespaces.data[Ns.cgroup.index]? := ⟨rfl, rfl, rfl, rfl, rfl⟩

/-- `uts()` returns the user namespace instead, for every record ... -/
theorem c14_uts_is_user (ns : Namespaces Cow) : ns.uts = ns.user := rfl
/-- ... so the claim is false for it: already a record with two namespaces has no `uts()`. -/
theorem c14_uts_false : ¬ ∀ ns : Namespaces Cow, ns.uts = ns.namespaces.data[Ns.uts.index]? := by
  intro h
  exact absurd (h ⟨1, 1, .owned [⟨1, 2⟩, ⟨3, 4⟩]⟩) (by decide)

/-- Seven namespaces, in pieces at odd addresses (foreign byte order) and as one aligned slice (native). -/
def demoNs : KRecord := ⟨0, .namespaces 1 2 ((List.range 7).map fun i => ⟨BitVec.ofNat 64 i, BitVec.ofNat 64 (100 + i)⟩),
  ⟨1, 2, 3, 4, 5, 6, 7, 8⟩⟩
example : (match (P.parseRecord (Parser.new (⟨[⟨3, (demoNs.enc .big demoBigCfg).take 50⟩,
      ⟨77, (demoNs.enc .big demoBigCfg).drop 50⟩]⟩ : ChunkBuf) demoBigCfg)).res,
    (P.parseRecord (Parser.new (⟨4096, demoNs.enc .little demoCfg⟩ : Slice) demoCfg)).res with
    | .ok (.namespaces ns), .ok (.namespaces ms) => ns.cgroup == some ⟨6, 106⟩ && ms.cgroup == some ⟨6, 106⟩ &&
        ns.namespaces.data == ms.namespaces.data
    | _, _ => false) = true := by decide +kernel

/-! ## C15 -/

/-- **C15** Full statement: without `h1` and `h2`. See `c15_owned_false` for `old = []`. `pad` is the kernel's padding:
the record size is a multiple of 8. -/
theorem c15_text_poke_partial (hp : RepP p f) (hs : Src f.cfg o) (misc : U16) (t : KTrailer) (addr : U64)
    (old new pad : List Byte) (h1 : old ≠ []) (h2 : new ++ pad ≠ []) (hpad : pad.length < 8)
    (h8 : (old.length + new.length + pad.length) % 8 = 4)
    (hsize : (KRecord.mk misc (.textPoke addr old new pad) t).size o f.cfg < 65536)
    (hb : f.s.bytes = (KRecord.mk misc (.textPoke addr old new pad) t).enc o f.cfg ++ tl) :
    ∃ tp : TextPoke Cow, (P.parseRecord p).res = .ok (.textPoke tp) ∧ tp.addr = addr ∧ tp.oldBytes.data = old ∧
      tp.newBytes.data = new := by
  obtain ⟨⟨a, h1, h2⟩, _⟩ := P.parseRecord_enc hp hs _ (by exact ⟨h1, h2, hpad, h8⟩) hsize nofun hb
  rw [h1]
  cases a <;> simp only [Record.view, KBody.value, reduceCtorEq, Record.textPoke.injEq] at h2
  rename_i r
  simp only [TextPoke.view, TextPoke.mk.injEq] at h2
  exact ⟨r, rfl, h2⟩

/-- A poke of nothing to 4 bytes, read from a file: the new bytes are reported as the old ones. -/
def demoPoke : KRecord := ⟨0, .textPoke 1 [] [1, 2, 3, 4] [], ⟨1, 2, 3, 4, 5, 6, 7, 8⟩⟩
theorem c15_owned_false :
    (match (P.parseRecord (Parser.new (⟨[], [.data (demoPoke.enc .little demoCfg)]⟩ : BufReader) demoCfg)).res with
    | .ok (.textPoke tp) => tp.oldBytes.data == [1, 2, 3, 4] && tp.newBytes.data == []
    | _ => false) = true := by decide +kernel
/-- The same bytes in memory are decoded correctly. -/
theorem c15_borrowed_example :
    (match (P.parseRecord (Parser.new (⟨4096, demoPoke.enc .little demoCfg⟩ : Slice) demoCfg)).res with
    | .ok (.textPoke tp) => tp.oldBytes.data == [] && tp.newBytes.data == [1, 2, 3, 4]
    | _ => false) = true := by decide +kernel
/-- A poke of 3 to 5 bytes, 4 bytes of padding, from a file. -/
def demoPoke2 : KRecord := ⟨0, .textPoke 1 [1, 2, 3] [4, 5, 6, 7, 8] [0, 0, 0, 0], ⟨1, 2, 3, 4, 5, 6, 7, 8⟩⟩
example : demoPoke2.body.Ok .little demoCfg 0 ∧
    (match (P.parseRecord (Parser.new (⟨[], [.data (demoPoke2.enc .little demoCfg)]⟩ : BufReader) demoCfg)).res with
    | .ok (.textPoke tp) => tp.oldBytes.data == [1, 2, 3] && tp.newBytes.data == [4, 5, 6, 7, 8]
    | _ => false) = true := ⟨by refine ⟨?_, ?_, ?_, ?_⟩ <;> decide, by decide +kernel⟩

/-! ## C17 -/

/-- **C17** Every sample meeting `KSample.Ok` is decoded with every requested field, and nothing is left over (the
parser stands behind the record). Full statement: without the second half of `KSample.Ok` (`WEIGHT_STRUCT`, dumps
without registers, empty arrays at the end of the record) and without `hal`. -/
theorem c17_sample_partial (hp : RepP p f) (hs : Src f.cfg o) (misc : U16) (t : KTrailer) (s : KSample)
    (hok : s.Ok f.cfg.endian.isNative o f.cfg.sampleType f.cfg.readFormat f.cfg.regsUser f.cfg.regsIntr f.cfg.branchHwIndex)
    (hal : f.cfg.endian.isNative = true → AlMod f.s.al 0)
    (hsize : (KRecord.mk misc (.sample s) t).size o f.cfg < 65536)
    (hb : f.s.bytes = (KRecord.mk misc (.sample s) t).enc o f.cfg ++ tl) :
    (∃ a : Sample Cow, (P.parseRecord p).res = .ok (.sample a) ∧
      a.view = s.value f.cfg.sampleType f.cfg.readFormat f.cfg.regsUser f.cfg.regsIntr f.cfg.branchHwIndex) ∧
    RepP (P.parseRecord p).st (f.adv ((KRecord.mk misc (.sample s) t).enc o f.cfg).length) := by
  obtain ⟨⟨a, h1, h2⟩, h3⟩ := P.parseRecord_enc hp hs _ (by exact hok) hsize (fun _ => hal) hb
  refine ⟨?_, h3⟩
  rw [h1]
  cases a <;> simp only [Record.view, KBody.value, reduceCtorEq, Record.sample.injEq] at h2
  exact ⟨_, rfl, h2⟩

/-- All the flags the crate decodes, groups of counters with ids, a hardware index, 2 user and 1 interrupt registers. -/
def demoSampleCfg : ParseConfig :=
  { demoCfg with config := ⟨ConfigFlags.new 0xf#64 0xffffff#64 true true 0#16, 5#64, 8#64⟩ }
def demoSampleBody : KSample :=
  { identifier := 1, ip := 2, pid := 3, tid := 4, time := 5, addr := 6, id := 7, streamId := 8, cpu := 9, res := 10
    period := 11, read := ⟨0, 0, 0, 0, 0⟩, group := ⟨12, 13, [⟨14, 15, 16⟩, ⟨17, 18, 19⟩]⟩, callchain := [20, 21, 22]
    raw := [23, 24, 25], rawPad := [0], lbrHwIndex := 26, lbr := [⟨27, 28, 29⟩], regsUser := ⟨2, [30, 31]⟩
    stack := [32, 33, 34, 35, 36, 37, 38, 39], dynSize := 5, weight := 40, dataSrc := 41, transaction := 42
    regsIntr := ⟨1, [43]⟩, physAddr := 44, cgroup := 45, dataPageSize := 46, codePageSize := 47, aux := [48, 49, 50] }
def demoSample : KRecord := ⟨0, .sample demoSampleBody, ⟨1, 2, 3, 4, 5, 6, 7, 8⟩⟩

theorem demoSample_ok : demoSample.body.Ok .little demoSampleCfg demoSample.misc := by
  constructor <;> decide +kernel

example : (match (P.parseRecord (Parser.new (⟨4096, demoSample.enc .little demoSampleCfg⟩ : Slice) demoSampleCfg)).res with
    | .ok (.sample s) => s.codePageSize == some 47 && s.aux.map Cow.data == some [48, 49, 50] && s.id == some 7 &&
        s.stackUser.map Cow.data == some [32, 33, 34, 35, 36] && s.regsIntr.map (·.regs.data) == some [43]
    | _ => false) = true := by decide +kernel

/-! ## C30 -/

/-- **C30** The same record written in both byte orders, on either host, read with the matching setting: the same
contents. Full statement: without the hypotheses `ok1`, `ok2` and `hal` (see `c14_empty_native_false` for a record on
which the two settings differ). The two sources may be different kinds of buffers. -/
theorem c30_byte_order_partial {β₁ β₂ : Type} [ParseBuf β₁] [Lawful β₁] [ParseBuf β₂] [Lawful β₂]
    (c : RawParseConfig) (host₁ host₂ : Order) {p₁ : Parser β₁} {p₂ : Parser β₂} {f₁ f₂ : Flat} (hp₁ : RepP p₁ f₁) (hp₂ : RepP p₂ f₂)
    (hc₁ : f₁.cfg = ⟨c, Endian.little host₁, host₁⟩) (hc₂ : f₂.cfg = ⟨c, Endian.big host₂, host₂⟩) (r : KRecord)
    (ok₁ : r.body.Ok .little f₁.cfg r.misc) (ok₂ : r.body.Ok .big f₂.cfg r.misc)
    (hal₁ : r.body.needsAlignment = true → f₁.cfg.endian.isNative = true → AlMod f₁.s.al 0)
    (hal₂ : r.body.needsAlignment = true → f₂.cfg.endian.isNative = true → AlMod f₂.s.al 0)
    (hsize₁ : r.size .little f₁.cfg < 65536) (hsize₂ : r.size .big f₂.cfg < 65536) {tl₁ tl₂ : List Byte}
    (hb₁ : f₁.s.bytes = r.enc .little f₁.cfg ++ tl₁) (hb₂ : f₂.s.bytes = r.enc .big f₂.cfg ++ tl₂) :
    ∃ a₁ a₂ : Record Cow, (P.parseRecord p₁).res = .ok a₁ ∧ (P.parseRecord p₂).res = .ok a₂ ∧ a₁.view = a₂.view := by
  obtain ⟨⟨a₁, h1, h2⟩, _⟩ := P.parseRecord_enc hp₁ (by rw [hc₁]; exact Src.little c host₁) r ok₁ hsize₁ hal₁ hb₁
  obtain ⟨⟨a₂, h3, h4⟩, _⟩ := P.parseRecord_enc hp₂ (by rw [hc₂]; exact Src.big c host₂) r ok₂ hsize₂ hal₂ hb₂
  refine ⟨a₁, a₂, h1, h3, ?_⟩
  rw [h2, h4]
  have : ∀ b : KBody, b.value f₁.cfg r.misc = b.value f₂.cfg r.misc := by
    intro b
    rw [hc₁, hc₂]
    cases b <;> rfl
  exact this _

/-! ## C10 -/

/-- `n` calls of `parse_record`: the results, and the parser after them. -/
def parseMany : Nat → Parser β → List (Except Fault (Record Cow)) × Parser β
  | 0, p => ([], p)
  | n + 1, p => ((P.parseRecord p).res :: (parseMany n (P.parseRecord p).st).1, (parseMany n (P.parseRecord p).st).2)

/-- A stream of records as written. -/
def encAll (o : Order) (cfg : ParseConfig) (rs : List KRecord) : List Byte := rs.flatMap fun r => r.enc o cfg

/-- The results contain exactly these records, in order. -/
def Decodes (cfg : ParseConfig) : List (Except Fault (Record Cow)) → List KRecord → Prop
  | [], [] => True
  | x :: xs, r :: rs => (∃ a, x = .ok a ∧ a.view = r.body.value cfg r.misc) ∧ Decodes cfg xs rs
  | _, _ => False

/-- **C10** Full statement: all records, i.e. without `hok` and `hal` (a SWITCH record is lost: `c10_switch_false`).
The hypothesis `hal` is void in foreign byte orders and for readers. -/
theorem c10_stream_partial (hp : RepP p f) (hs : Src f.cfg o) (rs : List KRecord)
    (hok : ∀ r ∈ rs, r.body.Ok o f.cfg r.misc ∧ r.size o f.cfg < 65536)
    (hal : (∃ r ∈ rs, r.body.needsAlignment = true) → f.cfg.endian.isNative = true →
      f.s.al = .temp ∨ AlMod f.s.al 0 ∧ ∀ r ∈ rs, r.size o f.cfg % 8 = 0)
    (hb : f.s.bytes = encAll o f.cfg rs ++ tl) :
    Decodes f.cfg (parseMany rs.length p).1 rs ∧
    RepP (parseMany rs.length p).2 (f.adv (encAll o f.cfg rs).length) := by
  induction rs generalizing p f with
  | nil => exact ⟨trivial, by rw [show (encAll o f.cfg []).length = 0 from rfl, Flat.adv_zero]; exact hp⟩
  | cons r rs ih =>
    have hb' : f.s.bytes = r.enc o f.cfg ++ (encAll o f.cfg rs ++ tl) := by
      rw [hb]; simp [encAll]
    obtain ⟨h1, h3⟩ := P.parseRecord_enc hp hs r (hok r (by simp)).1 (hok r (by simp)).2 (fun h1 h2 => by
      rcases hal ⟨r, by simp, h1⟩ h2 with h | h
      · rw [h]; trivial
      · exact h.1) hb'
    have h4 := ih (p := (P.parseRecord p).st) (f := f.adv (r.enc o f.cfg).length) h3 hs
      (fun r' hr' => hok r' (by simp [hr'])) (fun ⟨r', hr', hn⟩ h2 => by
        rcases hal ⟨r', by simp [hr'], hn⟩ h2 with h | h
        · left
          show f.s.al.add _ = _
          rw [h]; rfl
        · right
          refine ⟨(h.1.add (r.enc o f.cfg).length).congr ?_, fun r'' hr'' => h.2 r'' (by simp [hr''])⟩
          have := h.2 r (by simp)
          rw [r.enc_length]; omega) (by simp [hb', Flat.adv_bytes])
    simp only [List.length_cons, parseMany]
    refine ⟨⟨h1, h4.1⟩, ?_⟩
    have h5 := h4.2
    rw [Flat.adv_adv] at h5
    simpa [encAll] using h5

/-- After the last record the parser is at the end: one more call reports the end of the input. -/
theorem c10_end (hp : RepP p f) (hs : Src f.cfg o) (rs : List KRecord)
    (hok : ∀ r ∈ rs, r.body.Ok o f.cfg r.misc ∧ r.size o f.cfg < 65536)
    (hal : (∃ r ∈ rs, r.body.needsAlignment = true) → f.cfg.endian.isNative = true →
      f.s.al = .temp ∨ AlMod f.s.al 0 ∧ ∀ r ∈ rs, r.size o f.cfg % 8 = 0)
    (hb : f.s.bytes = encAll o f.cfg rs) :
    (P.parseRecord (parseMany rs.length p).2).res = .error (.err f.s.fin) := by
  have h := (c10_stream_partial hp hs rs hok hal (tl := []) (by simpa using hb)).2
  exact c06_truncated h _ (.inl (by simp [hb]))

/-- The kernel's SWITCH record (an empty body) is reported as `Eof`. -/
def demoSwitchIn : KRecord := ⟨0, .switch, ⟨1, 2, 3, 4, 5, 6, 7, 8⟩⟩
theorem c10_switch_false :
    (match (parseMany 2 (Parser.new (⟨4096, encAll .little demoCfg [demoSwitchIn, demoSwitch]⟩ : Slice) demoCfg)).1 with
    | [.error (.err e), .ok (.switchCpuWide r)] => e == .eof && r == .out 5 6
    | _ => false) = true := by decide +kernel

/-- Four records from a reader that delivers 5 bytes at a time. -/
def demoStream : List KRecord := [demoSwitch, demoComm, demoNs, demoPoke2]
def chop (n : Nat) : Nat → List Byte → List ReadEvent
  | 0, _ => []
  | k + 1, bs => .data (bs.take n) :: chop n k (bs.drop n)
example : (match (parseMany 5 (Parser.new (⟨[], chop 5 100 (encAll .little demoAllCfg demoStream)⟩ : BufReader) demoAllCfg)).1 with
    | [.ok (.switchCpuWide _), .ok (.comm _), .ok (.namespaces ns), .ok (.textPoke _), .error (.err e)] =>
      e == .eof && ns.namespaces.data.length == 7
    | _ => false) = true := by decide +kernel

/-- Blocks of bytes that are records as far as framing goes: the size in the header is the length. -/
def Framed (cfg : ParseConfig) (bs : List Byte) : Prop :=
  8 ≤ bs.length ∧ (cfg.endian.conv16 ((bs.drop 6).take 2)).toNat = bs.length

/-- Whatever the contents of the records (including those the crate rejects), `n` calls move over exactly `n` records. -/
theorem c10_frames (hp : RepP p f) (bss : List (List Byte)) (h : ∀ bs ∈ bss, Framed f.cfg bs)
    (hb : f.s.bytes = bss.flatten ++ tl) :
    RepP (parseMany bss.length p).2 (f.adv bss.flatten.length) := by
  induction bss generalizing p f with
  | nil => rw [show ([] : List (List Byte)).flatten.length = 0 from rfl, Flat.adv_zero]; exact hp
  | cons bs bss ih =>
    obtain ⟨h8, hlen⟩ := h bs (by simp)
    have hb' : f.s.bytes = bs ++ (bss.flatten ++ tl) := by rw [hb]; simp
    have hsz : (headerAt f).size.toNat = bs.length := by
      rw [← hlen]
      simp only [headerAt, hb']
      rw [List.drop_append_of_le_length (by omega), List.take_append_of_le_length (by simp; omega)]
    have h3 : RepP (P.parseRecord p).st _ := P.record_state hp (recordVisitor Cow) (by omega) (by rw [hsz, hb']; simp)
    rw [hsz] at h3
    have h4 := ih (f := f.adv bs.length) h3 (fun bs' hbs' => h bs' (by simp [hbs'])) (by simp [hb'])
    simp only [List.length_cons, parseMany]
    rw [Flat.adv_adv] at h4
    simpa using h4

end Perf
