import Verif.Props.Visit
import Verif.Props.User
import Verif.Props.Streams
import Verif.Proof.Plain
/-!
# C74: the custom type of the documentation

src/parse.rs:28-95 shows how to write a type of one's own for samples of a known configuration. It reads the call chain with
`parse_repeated` where `Sample` uses `parse_slice`.
-/
namespace Perf
open ParserM

/-- `CustomSample`, src/parse.rs:48-54. -/
structure DocSample where
  ip : U64
  pid : U32
  tid : U32
  callstack : List U64
  cgroup : U64
deriving DecidableEq

/-- `impl Parse for CustomSample`, src/parse.rs:56-74. -/
def docSampleParse : Prog DocSample :=
  .u64 fun ip => .u32 fun pid => .u32 fun tid => .u64 fun len => .repeated 8 (.u64 .done) len.toNat fun callstack => .u64 fun cgroup =>
    .done { ip, pid, tid, callstack, cgroup }

/-- `parser.parse_metadata()?` and `p.parse()` on the result, src/parse.rs:82-85. -/
def docMain : Prog (Metadata × Except ParseError DocSample) := .metadata docSampleParse fun md r => .done (md, r)

/-- The configuration the example is written for: `IP | TID | CALLCHAIN | CGROUP`. -/
def docSampleType : U64 := 1#64 <<< 0 ||| 1#64 <<< 1 ||| 1#64 <<< 5 ||| 1#64 <<< 21

/-- The same values as `Sample` has them. -/
def DocSample.sample (d : DocSample) : Sample List :=
  { ip := some d.ip, pid := some d.pid, tid := some d.tid, time := none, addr := none, id := none, streamId := none, cpu := none, period := none
    values := none, callchain := some d.callstack, raw := none, lbrHwIndex := none, lbr := none, regsUser := none
    stackUser := none, weight := none, dataSrc := none, transaction := none, regsIntr := none, physAddr := none
    aux := none, cgroup := some d.cgroup, dataPageSize := none, codePageSize := none }

variable {o : Order} {tl : List Byte}

/-- The bytes of a sample in this configuration. -/
theorem docSample_enc (s : KSample) (rf : U64) (hw : Bool) : s.enc o docSampleType rf hw = e64 o s.ip ++ (e32 o s.pid ++ (e32 o s.tid ++
    (e64 o (BitVec.ofNat 64 s.callchain.length) ++ (s.callchain.flatMap (e64 o) ++ e64 o s.cgroup)))) := by
  unfold KSample.enc KSample.parts
  simp [show docSampleType = 0x200023#64 from by decide, opt, KSample.encCallchain]

/-- What `CustomSample` reads from the bytes of a sample. -/
theorem Reads.docSample {cfg : ParseConfig} {nd : Needs} {k : Nat} (hs : Src cfg o) (s : KSample) (rf : U64) (hw : Bool)
    (hl : s.callchain.length < 2 ^ 64) :
    Reads cfg nd k docSampleParse.flat (s.enc o docSampleType rf hw) tl ⟨s.ip, s.pid, s.tid, s.callchain, s.cgroup⟩ := by
  rw [docSample_enc]
  show Reads cfg nd k ((parseU64 : Spec U64) >>= fun ip => (parseU32 : Spec U32) >>= fun pid => (parseU32 : Spec U32) >>= fun tid =>
    (parseU64 : Spec U64) >>= fun len => Spec.repeated ((parseU64 : Spec U64)   >>= Pure.pure) len.toNat >>= fun callstack =>
    (parseU64 : Spec U64) >>= fun cgroup => Pure.pure (⟨ip, pid, tid, callstack, cgroup⟩ : DocSample)) _ tl _
  refine Reads.bind (Reads.u64 hs _) (Reads.bind (Reads.u32 hs _) (Reads.bind (Reads.u32 hs _) (Reads.bind (Reads.u64 hs _) ?_)))
  rw [BitVec.toNat_ofNat, Nat.mod_eq_of_lt hl]
  refine Reads.bind (Reads.repeated (fun x k tl => Reads.last (Reads.u64 hs x) fun _ => Reads.pure x) _ _ _) ?_
  exact Reads.last (Reads.u64 hs _) fun _ => Reads.pure _

variable {β : Type} [ParseBuf β] [Lawful β] {p : Parser β} {f : Flat}

/-- **C74** On a sample the kernel wrote for this configuration, in any byte order, from any buffer, at any address, with anything after
it: the program of the documentation gets the record's type, misc and the sample's fields, and the parser is left behind the record. -/
theorem c74_kernel (hp : RepP p f) (hs : Src f.cfg o) (hst : f.cfg.sampleType = docSampleType) (misc : U16) (s : KSample) (t : KTrailer)
    (hsize : (KRecord.mk misc (.sample s) t).size o f.cfg < 65536) (hb : f.s.bytes = (KRecord.mk misc (.sample s) t).enc o f.cfg ++ tl) :
    (docMain.run β p).res = .ok ({ ty := 9, misc, sampleId := ⟨none, none, none, none, none, none⟩ },
      .ok ⟨s.ip, s.pid, s.tid, s.callchain, s.cgroup⟩) ∧
    RepP (docMain.run β p).st (f.adv ((KRecord.mk misc (.sample s) t).enc o f.cfg).length) := by
  have hlen : s.callchain.length < 2 ^ 64 := by
    have h1 : s.callchain.length ≤ (s.enc o f.cfg.sampleType f.cfg.readFormat f.cfg.branchHwIndex).length := by
      rw [hst, docSample_enc]
      have : (s.callchain.flatMap (e64 o)).length = s.callchain.length * 8 := by
        clear hsize hb
        induction s.callchain with
        | nil => rfl
        | cons x xs ih => rw [List.flatMap_cons, List.length_append, ih, e64_length, List.length_cons]; omega
      simp only [List.length_append, this]
      omega
    have h2 : (KRecord.mk misc (.sample s) t).size o f.cfg =
        8 + (s.enc o f.cfg.sampleType f.cfg.readFormat f.cfg.branchHwIndex).length + ((KRecord.mk misc (.sample s) t).encTrailer o f.cfg).length := rfl
    omega
  obtain ⟨c, h1, h2, h3⟩ := c54_metadata (o := o) (tl := tl) hp hs 9 misc (s.enc o f.cfg.sampleType f.cfg.readFormat f.cfg.branchHwIndex) t hsize hb
  have h4 := Refines.prog docSampleParse Cursor (.inl LawfulEof.eof_law) c _ h2
  have h5 := Reads.docSample (o := o) (tl := []) (cfg := f.cfg) (nd := ⟨false, false⟩) (k := 0) hs s f.cfg.readFormat f.cfg.branchHwIndex hlen
    ⟨⟨s.enc o f.cfg.sampleType f.cfg.readFormat f.cfg.branchHwIndex, f.s.al.add 8, .eof⟩, 0, f.cfg⟩ rfl (by simp) (by simp) (by simp [hst])
  rw [h5] at h4
  obtain ⟨d, h6, rfl, _⟩ := h4
  have h7 : (docMain.run β p) = ((P.metadata : P β _) >>= fun x => P.attemptOn x.1 (docSampleParse.run Cursor) >>= fun r => pure (x.2, r)) p := rfl
  rcases hm : (P.metadata : P β _) p with ⟨r, q, l⟩
  rw [hm] at h1 h3
  have h1 : r = _ := h1
  subst h1
  rw [h7, P.bind_ok hm]
  have h8 : (P.attemptOn c (docSampleParse.run Cursor) : P β _) q =
      ⟨.ok (.ok ⟨s.ip, s.pid, s.tid, s.callchain, s.cgroup⟩), q, (docSampleParse.run Cursor c).log⟩ := by
    unfold P.attemptOn
    rw [h6]
  rw [P.bind_ok h8]
  refine ⟨?_, h3⟩
  have : (9#32 != 9#32) = false := by decide
  simp [Pure.pure, P.pure]

/-! ## Against `Sample`, over any bytes -/

/-- `Sample` and `CustomSample` give the same values; or both fail, with the same error unless `Sample` says the list is too long. -/
inductive SameSample (native : Bool) : Except Fault (Sample Cow) → Except Fault DocSample → Prop where
  | ok (s : Sample Cow) (d : DocSample) : s.view = d.sample → SameSample native (.ok s) (.ok d)
  | error (e : ParseError) : SameSample native (.error (.err e)) (.error (.err e))
  | overlong (e : ParseError) : native = true → SameSample native (.error (.err overlong)) (.error (.err e))

theorem Spec.pure_bind {α γ : Type} (a : α) (k : α → Spec γ) : ((Pure.pure a : Spec α) >>= k) = k a := rfl
theorem Spec.bind_assoc {α γ δ : Type} (s : Spec α) (k : α → Spec γ) (l : γ → Spec δ) : (s >>= k >>= l) = (s >>= fun a => k a >>= l) := by
  funext g
  rcases h : s g with e | ⟨a, g'⟩
  · rw [Spec.bind_err h, Spec.bind_err (Spec.bind_err h)]
  · rw [Spec.bind_ok h]
    rcases h' : k a g' with e | ⟨b, g''⟩
    · rw [Spec.bind_err h', Spec.bind_err (by rw [Spec.bind_ok h, h'])]
    · rw [Spec.bind_ok h', Spec.bind_ok (by rw [Spec.bind_ok h, h'])]

/-- `parseSample` in this configuration. -/
theorem parseSample_doc (hst : f.cfg.sampleType = docSampleType) : (parseSample : Spec (Sample List)) f =
    ((parseU64 : Spec U64) >>= fun ip => (parseU32 : Spec U32) >>= fun pid => (parseU32 : Spec U32) >>= fun tid =>
      (parseU64 : Spec U64) >>= fun len => Spec.slice U64.elem parseU64 len.toNat >>= fun callstack =>
      (parseU64 : Spec U64) >>= fun cgroup => Pure.pure (DocSample.sample ⟨ip, pid, tid, callstack, cgroup⟩)) f := by
  unfold parseSample
  have h : ∀ {α : Type} (k : ParseConfig → Spec α), ((ParserM.config : Spec ParseConfig) >>= k) f = k f.cfg f := fun _ => rfl
  rw [h, hst]
  simp only [show contains docSampleType SampleFlags.IDENTIFIER = false from rfl, show contains docSampleType SampleFlags.IP = true from rfl,
    show contains docSampleType SampleFlags.TID = true from rfl, show contains docSampleType SampleFlags.TIME = false from rfl,
    show contains docSampleType SampleFlags.ADDR = false from rfl, show contains docSampleType SampleFlags.ID = false from rfl,
    show contains docSampleType SampleFlags.STREAM_ID = false from rfl, show contains docSampleType SampleFlags.CPU = false from rfl,
    show contains docSampleType SampleFlags.PERIOD = false from rfl, show contains docSampleType SampleFlags.READ = false from rfl,
    show contains docSampleType SampleFlags.CALLCHAIN = true from rfl, show contains docSampleType SampleFlags.RAW = false from rfl,
    show contains docSampleType SampleFlags.BRANCH_STACK = false from rfl, show contains docSampleType SampleFlags.REGS_USER = false from rfl,
    show contains docSampleType SampleFlags.STACK_USER = false from rfl, show contains docSampleType SampleFlags.WEIGHT = false from rfl,
    show contains docSampleType SampleFlags.DATA_SRC = false from rfl, show contains docSampleType SampleFlags.TRANSACTION = false from rfl,
    show contains docSampleType SampleFlags.REGS_INTR = false from rfl, show contains docSampleType SampleFlags.PHYS_ADDR = false from rfl,
    show contains docSampleType SampleFlags.CGROUP = true from rfl, show contains docSampleType SampleFlags.DATA_PAGE_SIZE = false from rfl,
    show contains docSampleType SampleFlags.CODE_PAGE_SIZE = false from rfl, show contains docSampleType SampleFlags.AUX = false from rfl,
    parseIf, Spec.pure_bind, Spec.bind_assoc, parseCallchain]
  rfl


/-- The relation on flat results. -/
inductive FlatSame (native : Bool) : Except SFault (Sample List × Flat) → Except SFault (DocSample × Flat) → Prop where
  | ok (d : DocSample) (g : Flat) : FlatSame native (.ok (d.sample, g)) (.ok (d, g))
  | error (e : ParseError) : FlatSame native (.error (.err e)) (.error (.err e))
  | overlong (e : ParseError) : native = true → FlatSame native (.error (.err overlong)) (.error (.err e))

/-- Both begin by reading the same integer. -/
theorem FlatSame.int {native : Bool} {T : Type} {n : Nat} {m : Spec T} {f : Flat} (hm : Fixed f.cfg m n) {k : T → Spec (Sample List)}
    {k' : T → Spec DocSample} (h : ∀ a, n ≤ f.s.bytes.length → FlatSame native (k a (f.adv n)) (k' a (f.adv n))) :
    FlatSame native ((m >>= k) f) ((m >>= k') f) := by
  have := hm f rfl
  by_cases hl : n ≤ f.s.bytes.length
  · obtain ⟨a, h2⟩ := this.1 hl
    rw [Spec.bind_ok h2, Spec.bind_ok h2]; exact h a hl
  · have h2 := this.2 (by omega)
    rw [Spec.bind_err h2, Spec.bind_err h2]; exact .error _

theorem flatSame (hst : f.cfg.sampleType = docSampleType) (hl : f.s.bytes.length < usizeLimit)
    (hal : f.cfg.endian.isNative = true → AlMod f.s.al 0) :
    FlatSame f.cfg.endian.isNative ((parseSample : Spec (Sample List)) f) (docSampleParse.flat f) := by
  rw [parseSample_doc hst]
  show FlatSame _ _ (((parseU64 : Spec U64) >>= fun ip => (parseU32 : Spec U32) >>= fun pid => (parseU32 : Spec U32) >>= fun tid =>
    (parseU64 : Spec U64) >>= fun len => Spec.repeated ((parseU64 : Spec U64) >>= Pure.pure) len.toNat >>= fun callstack =>
    (parseU64 : Spec U64) >>= fun cgroup => Pure.pure (⟨ip, pid, tid, callstack, cgroup⟩ : DocSample)) f)
  refine FlatSame.int Fixed.u64 fun ip h1 => FlatSame.int Fixed.u32 fun pid h2 => FlatSame.int Fixed.u32 fun tid h3 =>
    FlatSame.int Fixed.u64 fun len h4 => ?_
  simp only [Flat.adv_adv] at *
  have hi : ((parseU64 : Spec U64) >>= Pure.pure) = parseU64 := by
    funext g
    rcases h : (parseU64 : Spec U64) g with e | ⟨a, g'⟩
    · rw [Spec.bind_err h]
    · rw [Spec.bind_ok h]; rfl
  rw [hi]
  generalize hg : f.adv _ = g
  have hgc : g.cfg = f.cfg := by rw [← hg]; rfl
  have hgl : g.s.bytes.length < usizeLimit := by rw [← hg]; simp; omega
  have hga : f.cfg.endian.isNative = true → AlMod g.s.al 0 := fun h => by
    rw [← hg]
    exact ((hal h).add 24).congr rfl
  -- after the list both read `cgroup`; a list that does not fit is the end of the input for both
  have hshort : g.s.bytes.length < len.toNat * 8 → Spec.repeated (parseU64 : Spec U64) len.toNat g = .error (.err g.s.fin) :=
    fun h => Spec.repeated_short ItemOk.u64 _ _ h
  have hok : len.toNat * 8 ≤ g.s.bytes.length → ∃ xs, Spec.repeated (parseU64 : Spec U64) len.toNat g = .ok (xs, g.adv (len.toNat * 8)) :=
    fun h => ⟨_, Spec.repeated_ok ItemOk.u64 _ _ h⟩
  generalize hrep : Spec.repeated (parseU64 : Spec U64) len.toNat = m at *
  have hboth : Spec.slice U64.elem parseU64 len.toNat g = m g → FlatSame f.cfg.endian.isNative
      ((Spec.slice U64.elem parseU64 len.toNat >>= fun callstack =>
        (parseU64 : Spec U64) >>= fun cgroup => Pure.pure (DocSample.sample ⟨ip, pid, tid, callstack, cgroup⟩)) g)
      ((m >>= fun callstack =>
        (parseU64 : Spec U64) >>= fun cgroup => Pure.pure (⟨ip, pid, tid, callstack, cgroup⟩ : DocSample)) g) := by
    intro he
    by_cases h : len.toNat * 8 ≤ g.s.bytes.length
    · obtain ⟨xs, hx⟩ := hok h
      rw [Spec.bind_ok hx, Spec.bind_ok (he.trans hx)]
      exact FlatSame.int Fixed.u64 fun cg _ => .ok ⟨ip, pid, tid, xs, cg⟩ _
    · have hx := hshort (by omega)
      rw [Spec.bind_err hx, Spec.bind_err (he.trans hx)]
      exact .error _
  have hs : U64.elem.size = 8 := rfl
  by_cases hnat : f.cfg.endian.isNative = true
  · by_cases h1 : len.toNat * 8 ≥ usizeLimit
    · have hx : Spec.slice U64.elem parseU64 len.toNat g = .error (.err overlong) := by
        unfold Spec.slice
        rw [if_pos (by rw [hgc]; exact hnat), if_pos (by rw [hs]; exact h1)]
        rfl
      rw [Spec.bind_err hx, Spec.bind_err (hshort (by omega))]
      exact .overlong _ hnat
    · by_cases h2 : g.s.bytes = []
      · by_cases h3 : len.toNat = 0
        · have hx : Spec.slice U64.elem parseU64 len.toNat g = .error (.err g.s.fin) := by
            unfold Spec.slice
            rw [if_pos (by rw [hgc]; exact hnat), if_neg (by rw [hs]; exact h1), if_pos h2]
          obtain ⟨xs, hy⟩ := hok (by omega)
          have hz : (parseU64 : Spec U64) g = .error (.err g.s.fin) := Spec.u64_short g (by rw [h2]; decide)
          rw [Spec.bind_err hx, Spec.bind_ok hy, h3]
          rw [Spec.bind_err (by simpa using hz)]
          exact .error _
        · refine hboth ?_
          unfold Spec.slice
          rw [if_pos (by rw [hgc]; exact hnat), if_neg (by rw [hs]; exact h1), if_pos h2, hshort (by rw [h2]; simp; omega)]
      · refine hboth ?_
        unfold Spec.slice
        have hna : g.s.al.aligned = true := by
          have := hga hnat
          cases hal : g.s.al with
          | unknown => rw [hal] at this; exact this.elim
          | temp => rfl
          | «at» n => rw [hal] at this; simpa [Al.aligned, AlMod] using this
        rw [if_pos (by rw [hgc]; exact hnat), if_neg (by rw [hs]; exact h1), if_neg h2, if_neg (by rw [hna]; simp), hrep]
  · refine hboth ?_
    unfold Spec.slice
    rw [if_neg (by rw [hgc]; exact hnat), hrep]

/-- **C74** Over any bytes and from any buffer: `Sample` and the type of the documentation succeed on the same input and give the same
values, and when they fail they fail with the same error, except where `Sample` says that the list is longer than memory. Asked for: the
configuration, and in the host's byte order that borrowed data begins at a multiple of 8. -/
theorem c74_agree_partial (hp : RepP p f) (hst : f.cfg.sampleType = docSampleType) (hl : f.s.bytes.length < usizeLimit)
    (hal : f.cfg.endian.isNative = true → AlMod f.s.al 0) :
    SameSample f.cfg.endian.isNative ((parseSample : P β (Sample Cow)) p).res (docSampleParse.run β p).res := by
  have h1 := Refines.sample p f hp
  have h2 := Refines.prog docSampleParse β (.inr (by simp [docSampleParse, Prog.NoRest])) p f hp
  have h3 := flatSame hst hl hal
  generalize (parseSample : Spec (Sample List)) f = a at *
  generalize docSampleParse.flat f = b at *
  cases h3 with
  | ok d g =>
    obtain ⟨x, h4, h5, _⟩ := h1
    obtain ⟨y, h6, rfl, _⟩ := h2
    rw [h4, h6]
    exact .ok _ _ h5
  | error e =>
    rw [show _ = _ from h1, show _ = _ from h2]
    exact .error _
  | overlong e h =>
    rw [show _ = _ from h1, show _ = _ from h2]
    exact .overlong _ h

/-! ## Concrete cases -/

/-- A sample with two addresses, on a little endian host. -/
def docConfig (native : Bool) : ParseConfig :=
  ParseConfig.ofAttr (if native then Endian.native .little else Endian.little .big) (if native then .little else .big) { sampleType := docSampleType }
def docBody (n : Nat) : List Byte :=
  e64 .little 0x1111 ++ e32 .little 7 ++ e32 .little 8 ++ e64 .little (BitVec.ofNat 64 n) ++ e64 .little 0xaa ++ e64 .little 0xbb ++ e64 .little 0xcc

/-- Aligned or foreign: the same. -/
example : ∀ native : Bool, (match ((parseSample : P Slice (Sample Cow)) (Parser.new ⟨0, docBody 2⟩ (docConfig native))).res,
      (docSampleParse.run Slice (Parser.new ⟨0, docBody 2⟩ (docConfig native))).res with
    | .ok s, .ok d => s.callchain.map Cow.data == some [0xaa#64, 0xbb#64] && d == ⟨0x1111, 7, 8, [0xaa, 0xbb], 0xcc⟩
    | _, _ => false) = true := by decide +kernel

/-- The whole program of the documentation on a record with misc bits, at an odd address, with a byte after it. -/
example : ∀ native : Bool, (match (docMain.run Slice (Parser.new ⟨1, e32 .little 9 ++ e16 .little 2 ++ e16 .little 56 ++ docBody 2 ++ [9]⟩ (docConfig native))) with
    | ⟨.ok (md, .ok d), q, _⟩ => md.ty == 9 && md.misc == 2 && d == ⟨0x1111, 7, 8, [0xaa, 0xbb], 0xcc⟩ && q.data.buf.data == [9]
    | _ => false) = true := by decide +kernel

/-- Too long a list, native: two different errors. -/
example : (match ((parseSample : P Slice (Sample Cow)) (Parser.new ⟨0, docBody (2 ^ 63)⟩ (docConfig true))).res,
      (docSampleParse.run Slice (Parser.new ⟨0, docBody (2 ^ 63)⟩ (docConfig true))).res with
    | .error (.err a), .error (.err b) => a == overlong && b == .eof
    | _, _ => false) = true := by decide +kernel

/-- **C74** needs the alignment: at an odd address in the host's byte order `Sample` skips the first address of the list (B2) and then finds
too few bytes, where the type of the documentation returns the sample. -/
theorem c74_misaligned_false : (match ((parseSample : P Slice (Sample Cow)) (Parser.new ⟨1, docBody 2⟩ (docConfig true))).res,
      (docSampleParse.run Slice (Parser.new ⟨1, docBody 2⟩ (docConfig true))).res with
    | .error (.err a), .ok d => a == .eof && d == ⟨0x1111, 7, 8, [0xaa, 0xbb], 0xcc⟩
    | _, _ => false) = true := by decide +kernel

end Perf
