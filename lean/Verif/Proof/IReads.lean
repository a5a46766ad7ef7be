import Verif.Spec.KernelAll
import Verif.Proof.Encode
import Verif.Proof.MendedRec
/-!
# The ideal parsers on everything the kernel writes

`IReads cfg s bs tl a`: on an input that starts with `bs` and continues with `tl`, `s` yields `a` and has consumed exactly `bs`.
-/
namespace Perf
open ParserM
variable {α α' T : Type} {cfg : ParseConfig} {tl : List Byte} {o : Order}

/-- See the top of the file. -/
def IReads (cfg : ParseConfig) (s : Ideal α) (bs tl : List Byte) (a : α) : Prop :=
  ∀ i : Input, i.cfg = cfg → i.fin.kind = .eof → i.bytes = bs ++ tl → s i = .ok (a, i.adv bs.length)

theorem IReads.pure (a : α) : IReads cfg (Pure.pure a : Ideal α) [] tl a := by
  intro i _ _ _
  show (Except.ok (a, i) : Except ParseError (α × Input)) = _
  rw [List.length_nil, Input.adv_zero]

theorem IReads.pure' {a b : α} (h : a = b) : IReads cfg (Pure.pure a : Ideal α) [] tl b := h ▸ IReads.pure a

theorem IReads.bind {s : Ideal α} {c : α → Ideal α'} {bs bs' : List Byte} {a : α} {b : α'}
    (h : IReads cfg s bs (bs' ++ tl) a) (hc : IReads cfg (c a) bs' tl b) : IReads cfg (s >>= c) (bs ++ bs') tl b := by
  intro i hi he hb
  rw [List.append_assoc] at hb
  rw [Ideal.bind_ok (h i hi he hb), hc (i.adv bs.length) hi he (by simp [hb]), Input.adv_adv, List.length_append]

/-- The last parser of a sequence. -/
theorem IReads.last {s : Ideal α} {c : α → Ideal α'} {bs : List Byte} {a : α} {b : α'}
    (h : IReads cfg s bs tl a) (hc : IReads cfg (c a) [] tl b) : IReads cfg (s >>= c) bs tl b := by
  have := IReads.bind (bs' := []) (tl := tl) h hc
  rwa [List.append_nil] at this

theorem IReads.config {c : ParseConfig → Ideal α} {bs : List Byte} {a : α} (h : IReads cfg (c cfg) bs tl a) :
    IReads cfg ((ParserM.config : Ideal ParseConfig) >>= c) bs tl a := by
  intro i hi he hb
  have : ((ParserM.config : Ideal ParseConfig) >>= c) i = c i.cfg i := rfl
  rw [this, hi]
  exact h i hi he hb

theorem IReads.take {n : Nat} {bs : List Byte} (hn : bs.length = n) : IReads cfg (Ideal.take n) bs tl bs := by
  intro i _ _ hb
  rw [Ideal.take_ok (by rw [hb]; simp; omega), hb, ← hn]
  simp

theorem IReads.u8 (x : U8) : IReads cfg (parseU8 : Ideal U8) [x] tl x := by
  have h := IReads.take (cfg := cfg) (tl := tl) (bs := [x]) (n := 1) rfl
  refine IReads.last h (IReads.pure' ?_)
  simp [fromLE, leNat]

theorem IReads.u16 (hs : Src cfg o) (x : U16) : IReads cfg (parseU16 : Ideal U16) (e16 o x) tl x :=
  IReads.last (IReads.take (e16_length o x)) (IReads.config (IReads.pure' (hs.conv16 x)))
theorem IReads.u32 (hs : Src cfg o) (x : U32) : IReads cfg (parseU32 : Ideal U32) (e32 o x) tl x :=
  IReads.last (IReads.take (e32_length o x)) (IReads.config (IReads.pure' (hs.conv32 x)))
theorem IReads.u64 (hs : Src cfg o) (x : U64) : IReads cfg (parseU64 : Ideal U64) (e64 o x) tl x :=
  IReads.last (IReads.take (e64_length o x)) (IReads.config (IReads.pure' (hs.conv64 x)))

/-- An optional part: `b` is the code's test, `c` the kernel's flag. -/
theorem IReads.parseIf {s : Ideal α} {bs : List Byte} {a : α} {b : Bool} (c : Bool) (hbc : b = c)
    (h : c = true → IReads cfg s bs tl a) : IReads cfg (Perf.parseIf b s) (opt c bs) tl (optv c a) := by
  subst hbc
  cases b with
  | true => exact IReads.last (h rfl) (IReads.pure _)
  | false => exact IReads.pure _

/-- The rest of the input. -/
theorem IReads.rest {bs : List Byte} : IReads cfg Ideal.rest bs [] bs := by
  intro i _ he hb
  rw [List.append_nil] at hb
  unfold Ideal.rest
  rw [if_pos he, hb]

/-- A name up to the end of the input. -/
theorem IReads.name {n : KName} (h : n.text.getLast? ≠ some 0#8) :
    IReads cfg (ParserM.restTrimNul : Ideal (List Byte)) n.enc [] n.text :=
  IReads.last IReads.rest (IReads.pure' (trimNul_pad _ _ h))

/-- Items one after the other. -/
theorem IReads.repeated {item : Ideal T} {en : T → List Byte} (hi : ∀ x tl, IReads cfg item (en x) tl x) :
    ∀ (xs : List T) (tl : List Byte), IReads cfg (Ideal.repeated item xs.length) (xs.flatMap en) tl xs := by
  intro xs
  induction xs with
  | nil => intro tl; exact IReads.pure _
  | cons x xs ih =>
    intro tl
    rw [List.flatMap_cons]
    exact IReads.bind (hi x _) (IReads.last (ih _) (IReads.pure _))

/-- A counted slice of items, wherever it starts. -/
theorem IReads.slice {e : Elem T} {item : Ideal T} {en : T → List Byte} (hi : ∀ x tl, IReads cfg item (en x) tl x)
    (xs : List T) {n : Nat} (hn : n = xs.length) (hlim : xs.length * e.size < usizeLimit) :
    IReads cfg (ParserM.slice e item n : Ideal (List T)) (xs.flatMap en) tl xs := by
  subst hn
  intro i h1 h2 h3
  show Ideal.slice e item xs.length i = _
  unfold Ideal.slice
  rw [if_neg (by omega)]
  exact IReads.repeated hi xs tl i h1 h2 h3

/-! ## Records without variable parts -/

/-- Work through a sequence of integer parsers. -/
macro "ireads" hs:term : tactic => `(tactic|
  repeat first
    | with_reducible exact IReads.pure _
    | refine IReads.last (IReads.u64 $hs _) ?_
    | refine IReads.last (IReads.u32 $hs _) ?_
    | refine IReads.last (IReads.u16 $hs _) ?_
    | refine IReads.bind (IReads.u64 $hs _) ?_
    | refine IReads.bind (IReads.u32 $hs _) ?_
    | refine IReads.bind (IReads.u16 $hs _) ?_)

theorem IReads.lost (hs : Src cfg o) (r : Lost) : IReads cfg (parseLost : Ideal Lost) (e64 o r.id ++ e64 o r.lost) tl r := by
  unfold parseLost
  ireads hs

theorem IReads.exit (hs : Src cfg o) (r : Exit) : IReads cfg (parseExit : Ideal Exit)
    (e32 o r.pid ++ e32 o r.ppid ++ e32 o r.tid ++ e32 o r.ptid ++ e64 o r.time) tl r := by
  unfold parseExit
  simp only [List.append_assoc]
  ireads hs

theorem IReads.throttle (hs : Src cfg o) (r : Throttle) : IReads cfg (parseThrottle : Ideal Throttle)
    (e64 o r.time ++ e64 o r.id ++ e64 o r.streamId) tl r := by
  unfold parseThrottle
  simp only [List.append_assoc]
  ireads hs

theorem IReads.aux (hs : Src cfg o) (r : Aux) : IReads cfg (parseAux : Ideal Aux)
    (e64 o r.auxOffset ++ e64 o r.auxSize ++ e64 o r.flags) tl r := by
  unfold parseAux
  simp only [List.append_assoc]
  ireads hs

theorem IReads.itraceStart (hs : Src cfg o) (r : ITraceStart) : IReads cfg (parseITraceStart : Ideal ITraceStart)
    (e32 o r.pid ++ e32 o r.tid) tl r := by
  unfold parseITraceStart
  ireads hs

theorem IReads.lostSamples (hs : Src cfg o) (r : LostSamples) : IReads cfg (parseLostSamples : Ideal LostSamples)
    (e64 o r.lost) tl r := by
  unfold parseLostSamples
  ireads hs

theorem IReads.auxOutputHwId (hs : Src cfg o) (r : AuxOutputHwId) :
    IReads cfg (parseAuxOutputHwId : Ideal AuxOutputHwId) (e64 o r.hwId) tl r := by
  unfold parseAuxOutputHwId
  ireads hs

theorem IReads.bpfEvent (hs : Src cfg o) (r : BpfEvent) (h : r.tag.length = 8) :
    IReads cfg (parseBpfEvent : Ideal BpfEvent) (e16 o r.ty ++ e16 o r.flags ++ e32 o r.id ++ r.tag) tl r := by
  unfold parseBpfEvent
  simp only [List.append_assoc]
  ireads hs
  exact IReads.last (IReads.take h) (IReads.pure _)

theorem IReads.switchCpuWide (hs : Src cfg o) (pid tid : U32) :
    IReads cfg (parseSwitchCpuWide : Ideal SwitchCpuWide) (e32 o pid ++ e32 o tid) tl
      (if cfg.misc.getLsbD 13 then .out pid tid else .in pid tid) := by
  unfold parseSwitchCpuWide
  ireads hs
  refine IReads.config ?_
  have h := misc_bit cfg.misc 13 MISC_SWITCH_OUT (by decide) (by omega)
  by_cases hb : cfg.misc.getLsbD 13 = true
  · rw [if_pos (h.2 hb), if_pos hb]; exact IReads.pure _
  · rw [if_neg (fun h' => hb (h.1 h')), if_neg hb]; exact IReads.pure _

/-! ## Records with a name -/

theorem IReads.mmap (hs : Src cfg o) (pid tid : U32) (addr len pgoff : U64) {name : KName} (hn : name.text.getLast? ≠ some 0#8) :
    IReads cfg (parseMmap : Ideal (Mmap List))
      (e32 o pid ++ e32 o tid ++ e64 o addr ++ e64 o len ++ e64 o pgoff ++ name.enc) []
      ⟨pid, tid, addr, len, pgoff, name.text⟩ := by
  unfold parseMmap
  simp only [List.append_assoc]
  ireads hs
  exact IReads.last (IReads.name hn) (IReads.pure _)

theorem IReads.comm (hs : Src cfg o) (pid tid : U32) {name : KName} (hn : name.text.getLast? ≠ some 0#8) :
    IReads cfg (parseComm : Ideal (Comm List)) (e32 o pid ++ e32 o tid ++ name.enc) [] ⟨pid, tid, name.text⟩ := by
  unfold parseComm
  simp only [List.append_assoc]
  ireads hs
  exact IReads.last (IReads.name hn) (IReads.pure _)

theorem IReads.ksymbol (hs : Src cfg o) (addr : U64) (len : U32) (ksymType flags : U16) {name : KName}
    (hn : name.text.getLast? ≠ some 0#8) :
    IReads cfg (parseKSymbol : Ideal (KSymbol List))
      (e64 o addr ++ e32 o len ++ e16 o ksymType ++ e16 o flags ++ name.enc) []
      ⟨addr, len, ksymType, flags, name.text⟩ := by
  unfold parseKSymbol
  simp only [List.append_assoc]
  ireads hs
  exact IReads.last (IReads.name hn) (IReads.pure _)

theorem IReads.cgroup (hs : Src cfg o) (id : U64) {name : KName} (hn : name.text.getLast? ≠ some 0#8) :
    IReads cfg (parseCGroup : Ideal (CGroup List)) (e64 o id ++ name.enc) [] ⟨id, name.text⟩ := by
  unfold parseCGroup
  ireads hs
  exact IReads.last (IReads.name hn) (IReads.pure _)

theorem IReads.mmapDetail (hs : Src cfg o) (d : KDetail) (h : d.Ok cfg.misc) :
    IReads cfg (parseMmapDetail : Ideal MmapDetail) (d.enc o) tl d.value := by
  unfold parseMmapDetail
  refine IReads.config ?_
  have hm := misc_bit cfg.misc 14 MISC_MMAP_BUILD_ID (by decide) (by omega)
  cases d with
  | inode maj min ino gen =>
    have h : cfg.misc.getLsbD 14 = false := h
    rw [if_neg (fun h' => by have := hm.1 h'; rw [h] at this; cases this)]
    simp only [KDetail.enc, List.append_assoc]
    ireads hs
    exact IReads.pure _
  | buildId size r1 r2 id =>
    obtain ⟨h, hid, hsz⟩ : _ ∧ _ ∧ _ := h
    rw [if_pos (hm.2 h)]
    simp only [KDetail.enc, List.append_assoc]
    refine IReads.bind (IReads.u8 _) (IReads.bind (IReads.u8 _) (IReads.bind (IReads.u16 hs _) ?_))
    refine IReads.last (IReads.take hid) ?_
    rw [if_neg (by omega)]
    exact IReads.pure _

theorem IReads.mmap2 (hs : Src cfg o) (pid tid : U32) (addr len pgoff : U64) (d : KDetail) (h : d.Ok cfg.misc)
    (prot flags : U32) {name : KName} (hn : name.text.getLast? ≠ some 0#8) :
    IReads cfg (parseMmap2 : Ideal (Mmap2 List))
      (e32 o pid ++ e32 o tid ++ e64 o addr ++ e64 o len ++ e64 o pgoff ++ d.enc o ++ e32 o prot ++ e32 o flags ++ name.enc) []
      ⟨pid, tid, addr, len, pgoff, prot, flags, name.text, d.value⟩ := by
  unfold parseMmap2
  simp only [List.append_assoc]
  ireads hs
  refine IReads.bind (IReads.mmapDetail hs d h) ?_
  ireads hs
  exact IReads.last (IReads.name hn) (IReads.pure _)

/-! ## Arrays -/

theorem IReads.namespaceEntry (hs : Src cfg o) (e : NamespaceEntry) (tl : List Byte) :
    IReads cfg (parseNamespaceEntry : Ideal NamespaceEntry) (e64 o e.dev ++ e64 o e.inode) tl e := by
  unfold parseNamespaceEntry
  ireads hs

theorem IReads.namespaces (hs : Src cfg o) (pid tid : U32) (es : List NamespaceEntry) (hlen : es.length < 65536) :
    IReads cfg (parseNamespaces : Ideal (Namespaces List))
      (e32 o pid ++ e32 o tid ++ e64 o (BitVec.ofNat 64 es.length) ++ es.flatMap fun e => e64 o e.dev ++ e64 o e.inode) tl
      ⟨pid, tid, es⟩ := by
  unfold parseNamespaces
  simp only [List.append_assoc]
  ireads hs
  refine IReads.last (IReads.slice (en := fun e : NamespaceEntry => e64 o e.dev ++ e64 o e.inode)
    (fun x tl => IReads.namespaceEntry hs x tl) es (toNat_ofNat_lt (by omega)) ?_) (IReads.pure _)
  simp only [NamespaceEntry.elem]
  unfold usizeLimit
  omega

theorem IReads.textPoke (hs : Src cfg o) (addr : U64) (old new pad : List Byte)
    (hp : pad.length < 8) (hm : (old.length + new.length + pad.length) % 8 = 4) (ho : old.length < 65536)
    (hn : new.length < 65536) :
    IReads cfg (parseTextPoke : Ideal (TextPoke List))
      (e64 o addr ++ e16 o (BitVec.ofNat 16 old.length) ++ e16 o (BitVec.ofNat 16 new.length) ++ (old ++ new ++ pad)) tl
      ⟨addr, old, new⟩ := by
  unfold parseTextPoke
  simp only [List.append_assoc]
  ireads hs
  rw [toNat_ofNat_lt ho, toNat_ofNat_lt hn]
  have hl : (old ++ (new ++ pad)).length = roundUpMod (old.length + new.length) 4 8 := by
    unfold roundUpMod
    simp only [List.length_append]
    split <;> omega
  refine IReads.last (IReads.take hl) ?_
  have hsp : (cowSplitAt (old ++ (new ++ pad)) old.length : Ideal (List Byte × List Byte)) =
      Pure.pure (old, new ++ pad) := by
    show (Pure.pure ((old ++ (new ++ pad)).take old.length, (old ++ (new ++ pad)).drop old.length) : Ideal _) = _
    simp
  rw [hsp]
  refine IReads.last (IReads.pure _) (IReads.pure' ?_)
  have : (cowTruncate Ideal (new ++ pad) new.length : List Byte) = new := by
    show (new ++ pad).take new.length = new
    simp
  rw [this]

/-! ## Counter values -/

theorem IReads.readValue (hs : Src cfg o) (v : KRead) (h3 : cfg.readFormat.getLsbD 3 = false)
    (h5 : cfg.readFormat.getLsbD 5 = false) :
    IReads cfg (parseReadValue : Ideal ReadValue) (v.enc o cfg.readFormat) tl (v.readValue cfg.readFormat) := by
  unfold parseReadValue KRead.enc
  refine IReads.config ?_
  have hg : contains cfg.readFormat ReadFormat.GROUP = false :=
    (contains_rf _ 3 (by omega) _ rfl).trans h3
  have hd := diff_zero cfg h5
  simp only [hg, Bool.false_eq_true, if_false, hd, ne_eq, not_true_eq_false, List.append_assoc]
  refine IReads.bind (IReads.u64 hs _) ?_
  refine IReads.bind (IReads.parseIf _ (contains_rf _ 0 (by omega) _ rfl) fun _ => IReads.u64 hs _) ?_
  refine IReads.bind (IReads.parseIf _ (contains_rf _ 1 (by omega) _ rfl) fun _ => IReads.u64 hs _) ?_
  refine IReads.bind (IReads.parseIf _ (contains_rf _ 2 (by omega) _ rfl) fun _ => IReads.u64 hs _) ?_
  refine IReads.last (IReads.parseIf _ (contains_rf _ 4 (by omega) _ rfl) fun _ => IReads.u64 hs _) (IReads.pure' ?_)
  simp only [getD_optv, KRead.readValue]

theorem IReads.read (hs : Src cfg o) (pid tid : U32) (v : KRead) (h3 : cfg.readFormat.getLsbD 3 = false)
    (h5 : cfg.readFormat.getLsbD 5 = false) :
    IReads cfg (parseRead : Ideal Read) (e32 o pid ++ e32 o tid ++ v.enc o cfg.readFormat) tl
      ⟨pid, tid, v.readValue cfg.readFormat⟩ := by
  unfold parseRead
  simp only [List.append_assoc]
  ireads hs
  exact IReads.last (IReads.readValue hs v h3 h5) (IReads.pure _)

/-- A slice of `u64`s. -/
theorem IReads.words (hs : Src cfg o) (xs : List U64) {n : Nat} (hn : n = xs.length) (hlim : 8 * xs.length < 2 ^ 64) :
    IReads cfg (ParserM.slice U64.elem parseU64 n : Ideal (List U64)) (xs.flatMap (e64 o)) tl xs :=
  IReads.slice (en := e64 o) (fun x _ => IReads.u64 hs x) xs hn (by
    simp only [U64.elem]; unfold usizeLimit; omega)

theorem IReads.readGroup (hs : Src cfg o) (g : KGroup) (h3 : cfg.readFormat.getLsbD 3 = true)
    (h5 : cfg.readFormat.getLsbD 5 = false) (hlen : (g.enc o cfg.readFormat).length < 65536) :
    IReads cfg (parseReadGroup : Ideal (ReadGroup List)) (g.enc o cfg.readFormat) tl (g.readGroup cfg.readFormat) := by
  have hw := words_length cfg.readFormat g.counters
  have hf := flatMap_e64_length o (g.counters.flatMap (KCounter.words cfg.readFormat))
  have he1 : 1 ≤ ReadFormat.elementLen cfg.readFormat := by unfold ReadFormat.elementLen; omega
  have hlen' : ((g.counters.flatMap (KCounter.words cfg.readFormat)).flatMap (e64 o)).length < 65536 := by
    unfold KGroup.enc at hlen
    simp only [List.length_append] at hlen
    omega
  have hcl : g.counters.length ≤ g.counters.length * ReadFormat.elementLen cfg.readFormat :=
    Nat.le_mul_of_pos_right _ he1
  have hn : (BitVec.ofNat 64 g.counters.length).toNat = g.counters.length := by
    apply toNat_ofNat_lt
    omega
  unfold parseReadGroup KGroup.enc
  refine IReads.config ?_
  have hg : contains cfg.readFormat ReadFormat.GROUP = true :=
    (contains_rf _ 3 (by omega) _ rfl).trans h3
  have hd := diff_zero cfg h5
  simp only [hg, Bool.not_true, Bool.false_eq_true, if_false, hd, ne_eq, not_true_eq_false, List.append_assoc]
  refine IReads.bind (IReads.u64 hs _) ?_
  refine IReads.bind (IReads.parseIf _ (contains_rf _ 0 (by omega) _ rfl) fun _ => IReads.u64 hs _) ?_
  refine IReads.bind (IReads.parseIf _ (contains_rf _ 1 (by omega) _ rfl) fun _ => IReads.u64 hs _) ?_
  rw [hn, if_neg (by unfold usizeLimit; omega)]
  refine IReads.last (IReads.words hs _ hw.symm (by omega)) (IReads.pure' ?_)
  simp only [getD_optv, KGroup.readGroup]

/-! ## Samples -/

theorem IReads.cpu (hs : Src cfg o) (cpu res : U32) :
    IReads cfg (parseCpu : Ideal U32) (e32 o cpu ++ e32 o res) tl cpu := by
  unfold parseCpu
  ireads hs

theorem IReads.branchEntry (hs : Src cfg o) (e : BranchEntry) (tl : List Byte) :
    IReads cfg (parseBranchEntry : Ideal BranchEntry) (encBranch o e) tl e := by
  unfold parseBranchEntry encBranch
  simp only [List.append_assoc]
  ireads hs

theorem IReads.callchain (hs : Src cfg o) (s : KSample) (hlim : 8 * s.callchain.length < 2 ^ 64) :
    IReads cfg (parseCallchain : Ideal (List U64)) (s.encCallchain o) tl s.callchain := by
  unfold parseCallchain KSample.encCallchain
  exact IReads.bind (IReads.u64 hs _) (IReads.words hs _ (toNat_ofNat_lt (by omega)) hlim)

theorem IReads.regs (hs : Src cfg o) (r : KRegs) (mask : U64) (h : r.Written mask) :
    IReads cfg (mendedRegisters mask : Ideal (Registers List)) (r.enc o) tl ⟨r.abi, mask, r.values⟩ := by
  unfold KRegs.Written at h
  unfold mendedRegisters KRegs.enc
  refine IReads.bind (IReads.u64 hs _) ?_
  unfold mendedRegs
  by_cases ha : r.abi = 0#64
  · rw [if_pos ha] at h
    rw [if_pos ha, if_pos ha, h]
    exact IReads.last (IReads.pure _) (IReads.pure _)
  · rw [if_neg ha] at h
    rw [if_neg ha, if_neg ha]
    refine IReads.last (IReads.words hs _ h.symm ?_) (IReads.pure _)
    rw [h]
    unfold popcount
    refine Nat.lt_of_le_of_lt (Nat.mul_le_mul_left 8 (List.length_filter_le _ _)) ?_
    simp

theorem IReads.lbr (hs : Src cfg o) (s : KSample) (hw : Bool) (hlim : s.lbr.length < 65536) :
    IReads cfg (parseLbr hw : Ideal (List BranchEntry × Option U64)) (s.encLbr o hw) tl (s.lbr, optv hw s.lbrHwIndex) := by
  unfold parseLbr KSample.encLbr
  simp only [List.append_assoc]
  refine IReads.bind (IReads.u64 hs _) ?_
  refine IReads.bind (IReads.parseIf _ rfl fun _ => IReads.u64 hs _) ?_
  refine IReads.last (IReads.slice (en := encBranch o) (fun x _ => IReads.branchEntry hs x _) _
    (toNat_ofNat_lt (by omega)) ?_) (IReads.pure _)
  simp only [BranchEntry.elem]
  unfold usizeLimit
  omega

theorem IReads.raw (hs : Src cfg o) (s : KSample) (hlim : s.raw.length < 2 ^ 32)
    (h : s.rawPad.length < 8 ∧ (4 + s.raw.length + s.rawPad.length) % 8 = 0) :
    IReads cfg (ParserM.padded 8 parseRawInner : Ideal (List Byte)) (s.encRaw o) tl s.raw := by
  have hin : IReads cfg (parseRawInner : Ideal (List Byte)) (e32 o (BitVec.ofNat 32 s.raw.length) ++ s.raw)
      (s.rawPad ++ tl) s.raw := by
    unfold parseRawInner
    refine IReads.bind (IReads.u32 hs _) ?_
    rw [toNat_ofNat_lt (by omega)]
    exact IReads.take rfl
  intro f hf he hb
  have hb' : f.bytes = e32 o (BitVec.ofNat 32 s.raw.length) ++ s.raw ++ (s.rawPad ++ tl) := by
    rw [hb]; simp [KSample.encRaw]
  have h1 := hin f hf he hb'
  have hlen : (e32 o (BitVec.ofNat 32 s.raw.length) ++ s.raw).length = 4 + s.raw.length := by simp
  rw [hlen] at h1
  show Ideal.padded 8 parseRawInner f = _
  unfold Ideal.padded
  rw [h1]
  have hoff : (f.adv (4 + s.raw.length)).off - f.off = 4 + s.raw.length := by simp [Input.adv]
  have htot : (s.encRaw o).length = 4 + s.raw.length + s.rawPad.length := by simp [KSample.encRaw]; omega
  simp only [hoff, htot]
  by_cases h0 : (4 + s.raw.length) % 8 = 0
  · rw [if_pos h0]
    have : s.rawPad.length = 0 := by omega
    rw [this, Nat.add_zero]
  · rw [if_neg h0]
    have hp : 8 - (4 + s.raw.length) % 8 = s.rawPad.length := by omega
    have hbs : (f.adv (4 + s.raw.length)).bytes = s.rawPad ++ tl := by
      rw [Input.adv_bytes, hb', ← hlen]; exact List.drop_left
    rw [hp, Ideal.take_ok (by rw [hbs]; simp)]
    simp only [Input.adv_adv]

theorem IReads.stack (hs : Src cfg o) (s : KSample) (hlim : s.stack.length < 2 ^ 64)
    (h : s.stack ≠ [] → s.dynSize.toNat ≤ s.stack.length) :
    IReads cfg (parseStackUser : Ideal (List Byte)) (s.encStack o) tl
      (if s.stack = [] then [] else s.stack.take s.dynSize.toNat) := by
  unfold parseStackUser KSample.encStack
  simp only [List.append_assoc]
  refine IReads.bind (IReads.u64 hs _) ?_
  rw [toNat_ofNat_lt (show s.stack.length < 2 ^ 64 by omega)]
  refine IReads.bind (IReads.take rfl) ?_
  by_cases h0 : s.stack = []
  · rw [if_pos h0, h0]
    have : (parseDynSize (BitVec.ofNat 64 ([] : List Byte).length) : Ideal U64) = Pure.pure 0#64 := rfl
    rw [this]
    refine IReads.last (IReads.pure _) ?_
    exact IReads.pure _
  · rw [if_neg h0]
    have hpos : 0 < s.stack.length := List.length_pos_iff.2 h0
    have : (parseDynSize (BitVec.ofNat 64 s.stack.length) : Ideal U64) = parseU64 := by
      unfold parseDynSize
      rw [if_neg]
      rw [toNat_ofNat_lt (show s.stack.length < 2 ^ 64 by omega)]
      omega
    rw [this, if_neg h0]
    refine IReads.last (IReads.u64 hs _) ?_
    have hle : ¬ s.dynSize.toNat > (elems Ideal s.stack).length := by
      have := h h0
      show ¬ s.dynSize.toNat > s.stack.length
      omega
    rw [if_neg hle]
    exact IReads.pure _

theorem IReads.auxData (hs : Src cfg o) (s : KSample) (hlim : s.aux.length < 2 ^ 64) :
    IReads cfg (parseAuxData : Ideal (List Byte)) (s.encAux o) tl s.aux := by
  unfold parseAuxData KSample.encAux
  refine IReads.bind (IReads.u64 hs _) ?_
  rw [toNat_ofNat_lt (show s.aux.length < 2 ^ 64 by omega)]
  exact IReads.take rfl

theorem IReads.values (hs : Src cfg o) (s : KSample) (h5 : cfg.readFormat.getLsbD 5 = false)
    (hlen : (s.encValues o cfg.readFormat).length < 65536) :
    IReads cfg (parseValues : Ideal (ReadGroup List)) (s.encValues o cfg.readFormat) tl (s.readGroup cfg.readFormat) := by
  unfold parseValues KSample.readGroup
  refine IReads.config ?_
  unfold KSample.encValues at hlen ⊢
  cases h3 : cfg.readFormat.getLsbD 3 with
  | true =>
    have hg : contains cfg.readFormat ReadFormat.GROUP = true := (contains_rf _ 3 (by omega) _ rfl).trans h3
    rw [h3, if_pos rfl] at hlen
    simp only [hg, if_true]
    exact IReads.readGroup hs _ h3 h5 hlen
  | false =>
    have hg : contains cfg.readFormat ReadFormat.GROUP = false := (contains_rf _ 3 (by omega) _ rfl).trans h3
    simp only [hg, Bool.false_eq_true, if_false]
    refine IReads.last (IReads.readValue hs _ h3 h5) (IReads.pure' ?_)
    have hid : contains cfg.readFormat ReadFormat.ID = cfg.readFormat.getLsbD 2 := contains_rf _ 2 (by omega) _ rfl
    have hlost : contains cfg.readFormat ReadFormat.LOST = cfg.readFormat.getLsbD 4 := contains_rf _ 4 (by omega) _ rfl
    unfold ReadGroup.ofValue KRead.readValue KCounter.words
    simp only [ReadValue.getId, ReadValue.getLost, hid, hlost, thenSome]
    congr 1
    cases cfg.readFormat.getLsbD 2 <;> cases cfg.readFormat.getLsbD 4 <;> rfl

theorem IReads.sample (hs : Src cfg o) (s : KSample)
    (h : s.Written cfg.sampleType cfg.readFormat cfg.regsUser cfg.regsIntr)
    (hlen : (s.enc o cfg.sampleType cfg.readFormat cfg.branchHwIndex).length < 65536) :
    IReads cfg (mendedSample : Ideal (Sample List)) (s.enc o cfg.sampleType cfg.readFormat cfg.branchHwIndex) tl
      (s.value cfg.sampleType cfg.readFormat cfg.regsUser cfg.regsIntr cfg.branchHwIndex) := by
  have hpart : ∀ {c : Bool} {bs : List Byte}, opt c bs ∈ s.parts o cfg.sampleType cfg.readFormat cfg.branchHwIndex →
      c = true → bs.length < 65536 := fun hm hc => KSample.part_length hlen hm hc
  unfold mendedSample
  refine IReads.config ?_
  have e (m : U64) (i : Nat) (hm : m = 1#64 <<< i) (hi : i < 64) :
    contains cfg.sampleType m = cfg.sampleType.getLsbD i := contains_rf _ i hi m hm
  have u64 (b c : Bool) (hbc : b = c) (x : U64) (tl : List Byte) :
      IReads cfg (Perf.parseIf b (parseU64 : Ideal U64)) (opt c (e64 o x)) tl (optv c x) :=
    IReads.parseIf c hbc fun _ => IReads.u64 hs x
  unfold KSample.enc KSample.parts
  simp only [List.flatten_cons, List.flatten_nil]
  refine IReads.bind (u64 _ _ (e _ 16 rfl (by omega)) _ _) ?_
  refine IReads.bind (u64 _ _ (e _ 0 rfl (by omega)) _ _) ?_
  rw [opt_append, List.append_assoc]
  refine IReads.bind (IReads.parseIf _ (e _ 1 rfl (by omega)) fun _ => IReads.u32 hs _) ?_
  refine IReads.bind (IReads.parseIf _ (e _ 1 rfl (by omega)) fun _ => IReads.u32 hs _) ?_
  refine IReads.bind (u64 _ _ (e _ 2 rfl (by omega)) _ _) ?_
  refine IReads.bind (u64 _ _ (e _ 3 rfl (by omega)) _ _) ?_
  refine IReads.bind (u64 _ _ (e _ 6 rfl (by omega)) _ _) ?_
  refine IReads.bind (u64 _ _ (e _ 9 rfl (by omega)) _ _) ?_
  refine IReads.bind (IReads.parseIf _ (e _ 7 rfl (by omega)) fun _ => IReads.cpu hs _ _) ?_
  refine IReads.bind (u64 _ _ (e _ 8 rfl (by omega)) _ _) ?_
  refine IReads.bind (IReads.parseIf _ (e _ 4 rfl (by omega)) fun hc => IReads.values hs s (h.readFormat hc)
    (hpart (by simp [KSample.parts]) hc)) ?_
  refine IReads.bind (IReads.parseIf _ (e _ 5 rfl (by omega)) fun hc => IReads.callchain hs s
    (by have := hpart (bs := s.encCallchain o) (by simp [KSample.parts]) hc; rw [KSample.encCallchain_length] at this; omega)) ?_
  refine IReads.bind (IReads.parseIf _ (e _ 10 rfl (by omega)) fun hc => IReads.raw hs s
    (by have := hpart (bs := s.encRaw o) (by simp [KSample.parts]) hc; simp [KSample.encRaw] at this; omega) (h.rawPad hc)) ?_
  refine IReads.bind (IReads.parseIf _ (e _ 11 rfl (by omega)) fun hc => IReads.lbr hs s _
    (by have := hpart (bs := s.encLbr o cfg.branchHwIndex) (by simp [KSample.parts]) hc
        rw [KSample.encLbr_length] at this; omega)) ?_
  refine IReads.bind (IReads.parseIf _ (e _ 12 rfl (by omega)) fun hc => IReads.config (IReads.regs hs _ _ (h.regsUser hc))) ?_
  refine IReads.bind (IReads.parseIf _ (e _ 13 rfl (by omega)) fun hc => IReads.stack hs s
    (by have := hpart (bs := s.encStack o) (by simp [KSample.parts]) hc; simp [KSample.encStack] at this; omega)
    (h.stack hc)) ?_
  refine IReads.bind (u64 _ _ (congr (congrArg or (e SampleFlags.WEIGHT 14 rfl (by omega))) (e SampleFlags.WEIGHT_STRUCT 24 rfl (by omega))) _ _) ?_
  refine IReads.bind (u64 _ _ (e _ 15 rfl (by omega)) _ _) ?_
  refine IReads.bind (u64 _ _ (e _ 17 rfl (by omega)) _ _) ?_
  refine IReads.bind (IReads.parseIf _ (e _ 18 rfl (by omega)) fun hc => IReads.config (IReads.regs hs _ _ (h.regsIntr hc))) ?_
  refine IReads.bind (u64 _ _ (e _ 19 rfl (by omega)) _ _) ?_
  refine IReads.bind (u64 _ _ (e _ 21 rfl (by omega)) _ _) ?_
  refine IReads.bind (u64 _ _ (e _ 22 rfl (by omega)) _ _) ?_
  refine IReads.bind (u64 _ _ (e _ 23 rfl (by omega)) _ _) ?_
  rw [List.append_nil]
  refine IReads.last (IReads.parseIf _ (e _ 20 rfl (by omega)) fun hc => IReads.auxData hs s
    (by have := hpart (bs := s.encAux o) (by simp [KSample.parts]) hc; simp [KSample.encAux] at this; omega))
    (IReads.pure' ?_)
  rw [or_optv]
  unfold KSample.value
  congr 1
  · cases cfg.sampleType.getLsbD 11 <;> simp [optv]
  · cases cfg.sampleType.getLsbD 11 <;> simp [optv]

/-! ## Trailers and bodies -/

theorem IReads.trailer (hs : Src cfg o) (t : KTrailer) (hall : cfg.sampleIdAll = true) :
    IReads cfg (parseSampleId : Ideal SampleId) (t.enc o cfg.sampleType) tl (t.value cfg.sampleType) := by
  unfold parseSampleId KTrailer.enc
  refine IReads.config ?_
  have e (m : U64) (i : Nat) (hm : m = 1#64 <<< i) (hi : i < 64) :
    contains cfg.sampleType m = cfg.sampleType.getLsbD i := contains_rf _ i hi m hm
  simp only [hall, Bool.not_true, Bool.false_eq_true, if_false, opt_append, List.append_assoc]
  refine IReads.bind (IReads.parseIf _ (e _ 1 rfl (by omega)) fun _ => IReads.u32 hs _) ?_
  refine IReads.bind (IReads.parseIf _ (e _ 1 rfl (by omega)) fun _ => IReads.u32 hs _) ?_
  refine IReads.bind (IReads.parseIf _ (e _ 2 rfl (by omega)) fun _ => IReads.u64 hs _) ?_
  refine IReads.bind (IReads.parseIf _ (e _ 6 rfl (by omega)) fun _ => IReads.u64 hs _) ?_
  refine IReads.bind (IReads.parseIf _ (e _ 9 rfl (by omega)) fun _ => IReads.u64 hs _) ?_
  rw [← List.append_assoc, ← opt_append]
  refine IReads.bind (IReads.parseIf _ (e _ 7 rfl (by omega)) fun _ => IReads.cpu hs _ _) ?_
  refine IReads.last (IReads.parseIf _ (e _ 16 rfl (by omega)) fun _ => IReads.u64 hs _) (IReads.pure' ?_)
  rw [or_optv]
  rfl

/-- The ideal parser for the body's type decodes whatever body the kernel writes. -/
theorem KBody.ireads (hs : Src cfg o) (b : KBody) (h : b.Written cfg cfg.misc) (hlen : (b.enc o cfg).length < 65536) :
    IReads cfg (mendedBody b.type : Ideal (Record List)) (b.enc o cfg) [] (b.value cfg cfg.misc) := by
  cases b with
  | mmap pid tid addr len pgoff name => exact IReads.last (IReads.mmap hs _ _ _ _ _ h) (IReads.pure _)
  | lost r => exact IReads.last (IReads.lost hs r) (IReads.pure _)
  | comm pid tid name => exact IReads.last (IReads.comm hs _ _ h) (IReads.pure _)
  | exit r => exact IReads.last (IReads.exit hs r) (IReads.pure _)
  | throttle r => exact IReads.last (IReads.throttle hs r) (IReads.pure _)
  | unthrottle r => exact IReads.last (IReads.throttle hs r) (IReads.pure _)
  | fork r => exact IReads.last (IReads.exit hs r) (IReads.pure _)
  | read pid tid v => exact IReads.last (IReads.read hs _ _ v h.1 h.2) (IReads.pure _)
  | sample s => exact IReads.last (IReads.sample hs s h hlen) (IReads.pure _)
  | mmap2 pid tid addr len pgoff d prot flags name =>
    exact IReads.last (IReads.mmap2 hs _ _ _ _ _ d h.1 _ _ h.2) (IReads.pure _)
  | aux r => exact IReads.last (IReads.aux hs r) (IReads.pure _)
  | itraceStart r => exact IReads.last (IReads.itraceStart hs r) (IReads.pure _)
  | lostSamples r => exact IReads.last (IReads.lostSamples hs r) (IReads.pure _)
  | switch => exact IReads.pure _
  | switchCpuWide pid tid => exact IReads.last (IReads.switchCpuWide hs pid tid) (IReads.pure _)
  | namespaces pid tid es =>
    refine IReads.last (IReads.namespaces hs pid tid es ?_) (IReads.pure _)
    have hl : es.length ≤ (es.flatMap fun e => e64 o e.dev ++ e64 o e.inode).length := by
      clear hlen h
      induction es with
      | nil => simp
      | cons x xs ih => rw [List.flatMap_cons, List.length_append, List.length_cons]; simp; simp at ih; omega
    simp only [KBody.enc, List.length_append] at hlen
    omega
  | ksymbol addr len ty flags name => exact IReads.last (IReads.ksymbol hs _ _ _ _ h) (IReads.pure _)
  | bpfEvent r => exact IReads.last (IReads.bpfEvent hs r h) (IReads.pure _)
  | cgroup id name => exact IReads.last (IReads.cgroup hs _ h) (IReads.pure _)
  | textPoke addr old new pad =>
    obtain ⟨h3, h4⟩ : _ ∧ _ := h
    simp only [KBody.enc, List.length_append] at hlen
    exact IReads.last (IReads.textPoke hs addr old new pad h3 h4 (by omega) (by omega)) (IReads.pure _)
  | auxOutputHwId r => exact IReads.last (IReads.auxOutputHwId hs r) (IReads.pure _)
  | other ty data =>
    have h2 : ty = 0#32 ∨ 22 ≤ ty.toNat := h
    have : (mendedBody ty : Ideal (Record List)) = (do let d ← (ParserM.rest : Ideal (List Byte)); Pure.pure (.unknown ty d)) := by
      unfold mendedBody
      rcases h2 with h2 | h2
      · subst h2; rfl
      · split <;> first | rfl | (exfalso; omega)
    show IReads _ (mendedBody ty) _ _ _
    rw [this]
    exact IReads.last IReads.rest (IReads.pure _)

end Perf
