import Verif.Proof.Reads
import Verif.Proof.ConfigBits
/-!
# The flat parsers decode the kernel's layout
-/
namespace Perf
open ParserM
variable {cfg : ParseConfig} {k : Nat} {tl : List Byte} {nd : Needs} {o : Order}

/-! ## Flags -/

theorem contains_rf (x : U64) (i : Nat) (h : i < 64) (m : U64) (hm : m = 1#64 <<< i) : contains x m = x.getLsbD i := by
  rw [hm]; exact contains_bit x i h

theorem diff_zero (cfg : ParseConfig) (h : cfg.readFormat.getLsbD 5 = false) :
    ReadFormat.diff cfg.readFormat ReadFormat.all = 0#64 := by
  unfold ParseConfig.readFormat ConfigFlags.readFormat at h ⊢
  have h63 : ConfigFlags.READ_FORMAT = 63#64 := by decide
  have h31 : ~~~ ReadFormat.all = ~~~ 31#64 := by decide
  rw [h63] at h ⊢
  unfold ReadFormat.diff
  rw [h31]
  have hz : ∀ x : U64, x >>> 0 = x := fun x => by simp
  rw [hz] at h ⊢
  rw [BitVec.and_assoc, show (63#64 &&& ~~~ 31#64) = BitVec.twoPow 64 5 by decide, BitVec.and_twoPow]
  rw [BitVec.getLsbD_and, show (63#64).getLsbD 5 = true by decide, Bool.and_true] at h
  rw [h]
  rfl

theorem elementLen_eq (rf : U64) (c : KCounter) : ReadFormat.elementLen rf = (KCounter.words rf c).length := by
  unfold ReadFormat.elementLen KCounter.words
  have hm : (ReadFormat.ID ||| ReadFormat.LOST) = 20#64 := by decide
  rw [hm]
  unfold popcount
  have hl : (List.range 64).filter (fun i => (rf &&& 20#64).getLsbD i) =
      ((List.range 64).filter (fun i => (20#64).getLsbD i)).filter (fun i => rf.getLsbD i) := by
    rw [List.filter_filter]
    congr 1
    funext i
    rw [BitVec.getLsbD_and]
  have hc : (List.range 64).filter (fun i => (20#64).getLsbD i) = [2, 4] := by decide
  rw [hl, hc]
  simp only [List.filter_cons, List.filter_nil]
  cases rf.getLsbD 2 <;> cases rf.getLsbD 4 <;> rfl

theorem words_length (rf : U64) (cs : List KCounter) :
    (cs.flatMap (KCounter.words rf)).length = cs.length * ReadFormat.elementLen rf := by
  induction cs with
  | nil => simp
  | cons c cs ih => rw [List.flatMap_cons, List.length_append, ih, ← elementLen_eq, List.length_cons, Nat.succ_mul]; omega

@[simp] theorem opt_true (bs : List Byte) : opt true bs = bs := rfl
@[simp] theorem opt_false (bs : List Byte) : opt false bs = [] := rfl

theorem opt_append (c : Bool) (a b : List Byte) : opt c (a ++ b) = opt c a ++ opt c b := by cases c <;> rfl

theorem opt_mod (c : Bool) (bs : List Byte) (h : c = true → bs.length % 8 = 0) : (opt c bs).length % 8 = 0 := by
  cases c with
  | true => exact h rfl
  | false => rfl

theorem flatMap_e64_length (o : Order) (xs : List U64) : (xs.flatMap (e64 o)).length = 8 * xs.length := by
  induction xs with
  | nil => rfl
  | cons x xs ih => rw [List.flatMap_cons, List.length_append, ih, e64_length, List.length_cons]; omega

theorem toNat_ofNat_lt {w n : Nat} (h : n < 2 ^ w) : (BitVec.ofNat w n).toNat = n := by
  rw [BitVec.toNat_ofNat, Nat.mod_eq_of_lt h]

/-! ## Records without variable parts -/

/-- Work through a sequence of integer parsers. -/
macro "reads" hs:term : tactic => `(tactic|
  repeat first
    | with_reducible exact Reads.pure _
    | refine Reads.last (Reads.u64 $hs _) fun _ => ?_
    | refine Reads.last (Reads.u32 $hs _) fun _ => ?_
    | refine Reads.last (Reads.u16 $hs _) fun _ => ?_
    | refine Reads.bind (Reads.u64 $hs _) ?_
    | refine Reads.bind (Reads.u32 $hs _) ?_
    | refine Reads.bind (Reads.u16 $hs _) ?_)

theorem Reads.lost (hs : Src cfg o) (r : Lost) :
    Reads cfg nd k (parseLost : Spec Lost) (e64 o r.id ++ e64 o r.lost) tl r := by
  unfold parseLost
  reads hs

theorem Reads.exit (hs : Src cfg o) (r : Exit) : Reads cfg nd k (parseExit : Spec Exit)
    (e32 o r.pid ++ e32 o r.ppid ++ e32 o r.tid ++ e32 o r.ptid ++ e64 o r.time) tl r := by
  unfold parseExit
  simp only [List.append_assoc]
  reads hs

theorem Reads.throttle (hs : Src cfg o) (r : Throttle) : Reads cfg nd k (parseThrottle : Spec Throttle)
    (e64 o r.time ++ e64 o r.id ++ e64 o r.streamId) tl r := by
  unfold parseThrottle
  simp only [List.append_assoc]
  reads hs

theorem Reads.aux (hs : Src cfg o) (r : Aux) : Reads cfg nd k (parseAux : Spec Aux)
    (e64 o r.auxOffset ++ e64 o r.auxSize ++ e64 o r.flags) tl r := by
  unfold parseAux
  simp only [List.append_assoc]
  reads hs

theorem Reads.itraceStart (hs : Src cfg o) (r : ITraceStart) : Reads cfg nd k (parseITraceStart : Spec ITraceStart)
    (e32 o r.pid ++ e32 o r.tid) tl r := by
  unfold parseITraceStart
  reads hs

theorem Reads.lostSamples (hs : Src cfg o) (r : LostSamples) : Reads cfg nd k (parseLostSamples : Spec LostSamples)
    (e64 o r.lost) tl r := by
  unfold parseLostSamples
  reads hs

theorem Reads.auxOutputHwId (hs : Src cfg o) (r : AuxOutputHwId) :
    Reads cfg nd k (parseAuxOutputHwId : Spec AuxOutputHwId) (e64 o r.hwId) tl r := by
  unfold parseAuxOutputHwId
  reads hs

theorem Reads.bpfEvent (hs : Src cfg o) (r : BpfEvent) (h : r.tag.length = 8) :
    Reads cfg nd k (parseBpfEvent : Spec BpfEvent) (e16 o r.ty ++ e16 o r.flags ++ e32 o r.id ++ r.tag) tl r := by
  unfold parseBpfEvent
  simp only [List.append_assoc]
  reads hs
  exact Reads.last (Reads.array h (ne_nil_of_length h (by omega))) fun _ => Reads.pure _

theorem Reads.switchCpuWide (hs : Src cfg o) (pid tid : U32) :
    Reads cfg nd k (parseSwitchCpuWide : Spec SwitchCpuWide) (e32 o pid ++ e32 o tid) tl
      (if cfg.misc.getLsbD 13 then .out pid tid else .in pid tid) := by
  unfold parseSwitchCpuWide
  reads hs
  refine Reads.config ?_
  have h := misc_bit cfg.misc 13 MISC_SWITCH_OUT (by decide) (by omega)
  by_cases hb : cfg.misc.getLsbD 13 = true
  · rw [if_pos (h.2 hb), if_pos hb]; exact Reads.pure _
  · rw [if_neg (fun h' => hb (h.1 h')), if_neg hb]; exact Reads.pure _

/-! ## Records with a name -/

theorem Reads.mmap (hs : Src cfg o) (pid tid : U32) (addr len pgoff : U64) {name : KName} (he : nd.eof = true) (hn : name.Ok) :
    Reads cfg nd k (parseMmap : Spec (Mmap List))
      (e32 o pid ++ e32 o tid ++ e64 o addr ++ e64 o len ++ e64 o pgoff ++ name.enc) []
      ⟨pid, tid, addr, len, pgoff, name.text⟩ := by
  unfold parseMmap
  simp only [List.append_assoc]
  reads hs
  exact Reads.last (Reads.name he hn) fun _ => Reads.pure _

theorem Reads.comm (hs : Src cfg o) (pid tid : U32) {name : KName} (he : nd.eof = true) (hn : name.Ok) :
    Reads cfg nd k (parseComm : Spec (Comm List)) (e32 o pid ++ e32 o tid ++ name.enc) [] ⟨pid, tid, name.text⟩ := by
  unfold parseComm
  simp only [List.append_assoc]
  reads hs
  exact Reads.last (Reads.name he hn) fun _ => Reads.pure _

theorem Reads.ksymbol (hs : Src cfg o) (addr : U64) (len : U32) (ksymType flags : U16) {name : KName} (he : nd.eof = true) (hn : name.Ok) :
    Reads cfg nd k (parseKSymbol : Spec (KSymbol List))
      (e64 o addr ++ e32 o len ++ e16 o ksymType ++ e16 o flags ++ name.enc) []
      ⟨addr, len, ksymType, flags, name.text⟩ := by
  unfold parseKSymbol
  simp only [List.append_assoc]
  reads hs
  exact Reads.last (Reads.name he hn) fun _ => Reads.pure _

theorem Reads.cgroup (hs : Src cfg o) (id : U64) {name : KName} (he : nd.eof = true) (hn : name.Ok) :
    Reads cfg nd k (parseCGroup : Spec (CGroup List)) (e64 o id ++ name.enc) [] ⟨id, name.text⟩ := by
  unfold parseCGroup
  reads hs
  exact Reads.last (Reads.name he hn) fun _ => Reads.pure _

theorem Reads.mmapDetail (hs : Src cfg o) (d : KDetail) (h : d.Ok cfg.misc) :
    Reads cfg nd k (parseMmapDetail : Spec MmapDetail) (d.enc o) tl d.value := by
  unfold parseMmapDetail
  refine Reads.config ?_
  have hm := misc_bit cfg.misc 14 MISC_MMAP_BUILD_ID (by decide) (by omega)
  cases d with
  | inode maj min ino gen =>
    have h : cfg.misc.getLsbD 14 = false := h
    rw [if_neg (fun h' => by have := hm.1 h'; rw [h] at this; cases this)]
    simp only [KDetail.enc, List.append_assoc]
    reads hs
    exact Reads.pure _
  | buildId size r1 r2 id =>
    obtain ⟨h, hid, hsz⟩ : _ ∧ _ ∧ _ := h
    rw [if_pos (hm.2 h)]
    simp only [KDetail.enc, List.append_assoc]
    refine Reads.bind (Reads.u8 _) (Reads.bind (Reads.u8 _) (Reads.bind (Reads.u16 hs _) ?_))
    refine Reads.last (Reads.array hid (ne_nil_of_length hid (by omega))) fun _ => ?_
    rw [if_neg (by omega)]
    exact Reads.pure _

theorem Reads.mmap2 (hs : Src cfg o) (pid tid : U32) (addr len pgoff : U64) (d : KDetail) (h : d.Ok cfg.misc)
    (prot flags : U32) {name : KName} (he : nd.eof = true) (hn : name.Ok) :
    Reads cfg nd k (parseMmap2 : Spec (Mmap2 List))
      (e32 o pid ++ e32 o tid ++ e64 o addr ++ e64 o len ++ e64 o pgoff ++ d.enc o ++ e32 o prot ++ e32 o flags ++ name.enc) []
      ⟨pid, tid, addr, len, pgoff, prot, flags, name.text, d.value⟩ := by
  unfold parseMmap2
  simp only [List.append_assoc]
  reads hs
  refine Reads.bind (Reads.mmapDetail hs d h) ?_
  reads hs
  exact Reads.last (Reads.name he hn) fun _ => Reads.pure _

/-! ## Arrays -/

theorem Reads.namespaceEntry (hs : Src cfg o) (e : NamespaceEntry) (k : Nat) (tl : List Byte) :
    Reads cfg nd k (parseNamespaceEntry : Spec NamespaceEntry) (e64 o e.dev ++ e64 o e.inode) tl e := by
  unfold parseNamespaceEntry
  reads hs

theorem Reads.namespaces (hs : Src cfg o) (pid tid : U32) (es : List NamespaceEntry) (hk : k % 8 = 0)
    (hend : cfg.endian.isNative = true → es = [] → tl ≠ [])
    (hlen : (es.flatMap fun e => e64 o e.dev ++ e64 o e.inode).length < usizeLimit) :
    Reads cfg ⟨true, nd.eof⟩ k (parseNamespaces : Spec (Namespaces List))
      (e32 o pid ++ e32 o tid ++ e64 o (BitVec.ofNat 64 es.length) ++ es.flatMap fun e => e64 o e.dev ++ e64 o e.inode) tl
      ⟨pid, tid, es⟩ := by
  unfold parseNamespaces
  simp only [List.append_assoc]
  reads hs
  have hl : es.length ≤ (es.flatMap fun e => e64 o e.dev ++ e64 o e.inode).length := by
    clear hlen hend
    induction es with
    | nil => simp
    | cons x xs ih => rw [List.flatMap_cons, List.length_append, List.length_cons]; simp; simp at ih; omega
  refine Reads.last (Reads.slice (en := fun e : NamespaceEntry => e64 o e.dev ++ e64 o e.inode)
    (fun x k tl => Reads.namespaceEntry hs x k tl) (fun x => by simp; rfl) (by decide) es ?_ (by simp; omega) rfl hlen hend)
    fun _ => Reads.pure _
  rw [toNat_ofNat_lt]
  unfold usizeLimit at hlen
  omega

theorem Reads.textPoke (hs : Src cfg o) (addr : U64) (old new pad : List Byte) (h1 : old ≠ []) (h2 : new ++ pad ≠ [])
    (hp : pad.length < 8) (hm : (old.length + new.length + pad.length) % 8 = 4) (ho : old.length < 65536)
    (hn : new.length < 65536) :
    Reads cfg nd k (parseTextPoke : Spec (TextPoke List))
      (e64 o addr ++ e16 o (BitVec.ofNat 16 old.length) ++ e16 o (BitVec.ofNat 16 new.length) ++ (old ++ new ++ pad)) tl
      ⟨addr, old, new⟩ := by
  unfold parseTextPoke
  simp only [List.append_assoc]
  reads hs
  rw [toNat_ofNat_lt ho, toNat_ofNat_lt hn]
  have hl : (old ++ (new ++ pad)).length = roundUpMod (old.length + new.length) 4 8 := by
    unfold roundUpMod
    simp only [List.length_append]
    split <;> omega
  have h1' : 0 < old.length := List.length_pos_iff.2 h1
  have h2' : 0 < (new ++ pad).length := List.length_pos_iff.2 h2
  refine Reads.last (Reads.array hl (by simp [h1])) fun _ => ?_
  have hsp : (cowSplitAt (old ++ (new ++ pad)) old.length : Spec (List Byte × List Byte)) =
      Pure.pure (old, new ++ pad) := by
    show Spec.splitAt _ _ = _
    unfold Spec.splitAt
    rw [if_neg]
    · simp
    · simp only [List.length_append] at h2' ⊢
      omega
  rw [hsp]
  refine Reads.last (Reads.pure _) fun _ => Reads.pure' ?_
  have : (cowTruncate Spec (new ++ pad) new.length : List Byte) = new := by
    show (new ++ pad).take new.length = new
    simp
  rw [this]

/-! ## Counter values -/

theorem getD_optv {α : Type} (c : Bool) (a d : α) : (optv c a).getD d = if c then a else d := by cases c <;> rfl

theorem Reads.readValue (hs : Src cfg o) (v : KRead) (h3 : cfg.readFormat.getLsbD 3 = false)
    (h5 : cfg.readFormat.getLsbD 5 = false) :
    Reads cfg nd k (parseReadValue : Spec ReadValue) (v.enc o cfg.readFormat) tl (v.readValue cfg.readFormat) := by
  unfold parseReadValue KRead.enc
  refine Reads.config ?_
  have hg : contains cfg.readFormat ReadFormat.GROUP = false :=
    (contains_rf _ 3 (by omega) _ rfl).trans h3
  have hd := diff_zero cfg h5
  simp only [hg, Bool.false_eq_true, if_false, hd, ne_eq, not_true_eq_false, List.append_assoc]
  refine Reads.bind (Reads.u64 hs _) ?_
  refine Reads.bind (Reads.parseIf _ (contains_rf _ 0 (by omega) _ rfl) fun _ => Reads.u64 hs _) ?_
  refine Reads.bind (Reads.parseIf _ (contains_rf _ 1 (by omega) _ rfl) fun _ => Reads.u64 hs _) ?_
  refine Reads.bind (Reads.parseIf _ (contains_rf _ 2 (by omega) _ rfl) fun _ => Reads.u64 hs _) ?_
  refine Reads.last (Reads.parseIf _ (contains_rf _ 4 (by omega) _ rfl) fun _ => Reads.u64 hs _) fun _ => Reads.pure' ?_
  simp only [getD_optv, KRead.readValue]

theorem Reads.read (hs : Src cfg o) (pid tid : U32) (v : KRead) (h3 : cfg.readFormat.getLsbD 3 = false)
    (h5 : cfg.readFormat.getLsbD 5 = false) :
    Reads cfg nd k (parseRead : Spec Read) (e32 o pid ++ e32 o tid ++ v.enc o cfg.readFormat) tl
      ⟨pid, tid, v.readValue cfg.readFormat⟩ := by
  unfold parseRead
  simp only [List.append_assoc]
  reads hs
  exact Reads.last (Reads.readValue hs v h3 h5) fun _ => Reads.pure _

theorem Reads.readGroup (hs : Src cfg o) (g : KGroup) (h3 : cfg.readFormat.getLsbD 3 = true)
    (h5 : cfg.readFormat.getLsbD 5 = false) (hlen : (g.enc o cfg.readFormat).length < usizeLimit)
    (hend : cfg.endian.isNative = true → g.counters = [] → tl ≠ []) :
    Reads cfg ⟨true, nd.eof⟩ 0 (parseReadGroup : Spec (ReadGroup List)) (g.enc o cfg.readFormat) tl (g.readGroup cfg.readFormat) := by
  have hw := words_length cfg.readFormat g.counters
  have hf := flatMap_e64_length o (g.counters.flatMap (KCounter.words cfg.readFormat))
  have he1 : 1 ≤ ReadFormat.elementLen cfg.readFormat := by unfold ReadFormat.elementLen; omega
  have hlen' : ((g.counters.flatMap (KCounter.words cfg.readFormat)).flatMap (e64 o)).length < usizeLimit := by
    unfold KGroup.enc at hlen
    simp only [List.length_append] at hlen
    omega
  have hcl : g.counters.length ≤ g.counters.length * ReadFormat.elementLen cfg.readFormat :=
    Nat.le_mul_of_pos_right _ he1
  have hn : (BitVec.ofNat 64 g.counters.length).toNat = g.counters.length := by
    apply toNat_ofNat_lt
    unfold usizeLimit at hlen'
    omega
  unfold parseReadGroup KGroup.enc
  refine Reads.config ?_
  have hg : contains cfg.readFormat ReadFormat.GROUP = true :=
    (contains_rf _ 3 (by omega) _ rfl).trans h3
  have hd := diff_zero cfg h5
  simp only [hg, Bool.not_true, Bool.false_eq_true, if_false, hd, ne_eq, not_true_eq_false, List.append_assoc]
  refine Reads.step (Reads.u64 hs _) (by simp) ?_
  refine Reads.step (Reads.parseIf _ (contains_rf _ 0 (by omega) _ rfl) fun _ => Reads.u64 hs _) (opt_mod _ _ (by simp)) ?_
  refine Reads.step (Reads.parseIf _ (contains_rf _ 1 (by omega) _ rfl) fun _ => Reads.u64 hs _) (opt_mod _ _ (by simp)) ?_
  rw [hn, if_neg (by omega)]
  refine Reads.last (Reads.slice (en := e64 o) (fun x k tl => Reads.u64 hs x) (fun x => e64_length o x) (by decide) _
    hw.symm rfl rfl hlen' ?_) fun _ => Reads.pure' ?_
  · intro hnat hnil
    refine hend hnat ?_
    rw [hnil] at hw
    simp only [List.length_nil] at hw
    have : g.counters.length = 0 := by omega
    exact List.length_eq_zero_iff.1 this
  · simp only [getD_optv, KGroup.readGroup]

/-! ## Samples -/

theorem Reads.cpu (hs : Src cfg o) (cpu res : U32) :
    Reads cfg nd k (parseCpu : Spec U32) (e32 o cpu ++ e32 o res) tl cpu := by
  unfold parseCpu
  reads hs

theorem Reads.branchEntry (hs : Src cfg o) (e : BranchEntry) (k : Nat) (tl : List Byte) :
    Reads cfg nd k (parseBranchEntry : Spec BranchEntry) (encBranch o e) tl e := by
  unfold parseBranchEntry encBranch
  simp only [List.append_assoc]
  reads hs

theorem encBranch_length (o : Order) (e : BranchEntry) : (encBranch o e).length = 24 := by
  simp [encBranch]

theorem flatMap_encBranch_length (o : Order) (es : List BranchEntry) : (es.flatMap (encBranch o)).length = 24 * es.length := by
  induction es with
  | nil => rfl
  | cons x xs ih => rw [List.flatMap_cons, List.length_append, ih, encBranch_length, List.length_cons]; omega

/-- A slice of `u64`s. -/
theorem Reads.words (hs : Src cfg o) (xs : List U64) {n : Nat} (hn : n = xs.length) (hk : k % 8 = 0)
    (hlim : 8 * xs.length < 2 ^ 64) (hend : cfg.endian.isNative = true → xs = [] → tl ≠ []) :
    Reads cfg ⟨true, nd.eof⟩ k (ParserM.slice U64.elem parseU64 n : Spec (List U64)) (xs.flatMap (e64 o)) tl xs :=
  Reads.slice (en := e64 o) (fun x _ _ => Reads.u64 hs x) (fun x => e64_length o x) (by decide) xs hn hk rfl
    (by rw [flatMap_e64_length]; unfold usizeLimit; omega) hend

theorem Reads.callchain (hs : Src cfg o) (s : KSample) (hlim : 8 * s.callchain.length < 2 ^ 64)
    (hend : cfg.endian.isNative = true → s.callchain = [] → tl ≠ []) :
    Reads cfg ⟨true, nd.eof⟩ 0 (parseCallchain : Spec (List U64)) (s.encCallchain o) tl s.callchain := by
  unfold parseCallchain KSample.encCallchain
  exact Reads.step (Reads.u64 hs _) (by simp) (Reads.words hs _ (toNat_ofNat_lt (by omega)) rfl hlim hend)

theorem Reads.regs (hs : Src cfg o) (r : KRegs) (mask : U64) (ha : r.abi ≠ 0#64) (hl : r.values.length = popcount mask)
    (hend : cfg.endian.isNative = true → r.values = [] → tl ≠ []) :
    Reads cfg ⟨true, nd.eof⟩ 0 (parseRegisters mask : Spec (Registers List)) (r.enc o) tl ⟨r.abi, mask, r.values⟩ := by
  unfold parseRegisters KRegs.enc
  rw [if_neg ha]
  refine Reads.step (Reads.u64 hs _) (by simp) (Reads.last (Reads.words hs _ hl.symm rfl ?_ hend) fun _ => Reads.pure _)
  rw [hl]
  unfold popcount
  refine Nat.lt_of_le_of_lt (Nat.mul_le_mul_left 8 (List.length_filter_le _ _)) ?_
  simp

theorem Reads.lbr (hs : Src cfg o) (s : KSample) (hw : Bool) (hlim : 24 * s.lbr.length < 2 ^ 64)
    (hend : cfg.endian.isNative = true → s.lbr = [] → tl ≠ []) :
    Reads cfg ⟨true, nd.eof⟩ 0 (parseLbr hw : Spec (List BranchEntry × Option U64)) (s.encLbr o hw) tl
      (s.lbr, optv hw s.lbrHwIndex) := by
  unfold parseLbr KSample.encLbr
  simp only [List.append_assoc]
  refine Reads.step (Reads.u64 hs _) (by simp) ?_
  refine Reads.step (Reads.parseIf _ rfl fun _ => Reads.u64 hs _) (opt_mod _ _ (by simp)) ?_
  exact Reads.last (Reads.slice (en := encBranch o) (fun x _ _ => Reads.branchEntry hs x _ _) (encBranch_length o) (by decide) _
    (toNat_ofNat_lt (by omega)) rfl rfl (by rw [flatMap_encBranch_length]; unfold usizeLimit; omega) hend)
    fun _ => Reads.pure _

theorem Reads.raw (hs : Src cfg o) (s : KSample) (hlim : s.raw.length < 2 ^ 32)
    (h : s.rawPad.length < 8 ∧ (4 + s.raw.length + s.rawPad.length) % 8 = 0) :
    Reads cfg nd k (ParserM.padded 8 parseRawInner : Spec (List Byte)) (s.encRaw o) tl s.raw := by
  have hin : Reads cfg nd k (parseRawInner : Spec (List Byte)) (e32 o (BitVec.ofNat 32 s.raw.length) ++ s.raw)
      (s.rawPad ++ tl) s.raw := by
    unfold parseRawInner
    refine Reads.bind (Reads.u32 hs _) ?_
    rw [toNat_ofNat_lt (by omega)]
    refine Reads.array rfl ?_
    intro he
    simp only [List.append_eq_nil_iff] at he
    rw [he.1, he.2.1] at h
    simp at h
  intro f hf he' ha hb
  have hb' : f.s.bytes = e32 o (BitVec.ofNat 32 s.raw.length) ++ s.raw ++ (s.rawPad ++ tl) := by
    rw [hb]; simp [KSample.encRaw]
  have h1 := hin f hf he' ha hb'
  have hlen : (e32 o (BitVec.ofNat 32 s.raw.length) ++ s.raw).length = 4 + s.raw.length := by simp
  rw [hlen] at h1
  show Spec.padded 8 parseRawInner f = _
  unfold Spec.padded
  have hne : ¬ (8 = 0) := by decide
  rw [if_neg hne, h1]
  have hoff : (f.adv (4 + s.raw.length)).off - f.off = 4 + s.raw.length := by simp
  have htot : (s.encRaw o).length = 4 + s.raw.length + s.rawPad.length := by simp [KSample.encRaw]; omega
  simp only [hoff, htot]
  by_cases h0 : (4 + s.raw.length) % 8 = 0
  · rw [if_pos h0]
    have : s.rawPad.length = 0 := by omega
    rw [this, Nat.add_zero]
  · rw [if_neg h0]
    have hp : 8 - (4 + s.raw.length) % 8 = s.rawPad.length := by omega
    have ht : Spec.take (8 - (4 + s.raw.length) % 8) (f.adv (4 + s.raw.length)) =
        .ok (s.rawPad, (f.adv (4 + s.raw.length)).adv s.rawPad.length) := by
      have hbs : (f.adv (4 + s.raw.length)).s.bytes = s.rawPad ++ tl := by
        rw [Flat.adv_bytes, hb', ← hlen]; exact List.drop_left
      unfold Spec.take
      rw [hp, hbs, if_pos (by simp)]
      simp
    rw [ht]
    simp only [Flat.adv_adv]

theorem Reads.stack (hs : Src cfg o) (s : KSample) (hlim : s.stack.length < 2 ^ 64)
    (h : s.stack ≠ [] → s.dynSize.toNat ≤ s.stack.length) (hend : s.stack = [] → tl ≠ []) :
    Reads cfg nd k (parseStackUser : Spec (List Byte)) (s.encStack o) tl
      (if s.stack = [] then [] else s.stack.take s.dynSize.toNat) := by
  unfold parseStackUser KSample.encStack
  simp only [List.append_assoc]
  refine Reads.bind (Reads.u64 hs _) ?_
  rw [toNat_ofNat_lt (show s.stack.length < 2 ^ 64 by omega)]
  by_cases h0 : s.stack = []
  · refine Reads.bind (Reads.array rfl ?_) ?_
    · rw [h0]; simp; exact hend h0
    · rw [if_pos h0, h0]
      have : (parseDynSize (BitVec.ofNat 64 ([] : List Byte).length) : Spec U64) = Pure.pure 0#64 := rfl
      rw [this]
      refine Reads.last (Reads.pure _) fun _ => ?_
      exact Reads.pure _
  · refine Reads.bind (Reads.array rfl (by simp [h0])) ?_
    rw [if_neg h0]
    have hpos : 0 < s.stack.length := List.length_pos_iff.2 h0
    have : (parseDynSize (BitVec.ofNat 64 s.stack.length) : Spec U64) = parseU64 := by
      unfold parseDynSize
      rw [if_neg]
      rw [toNat_ofNat_lt (show s.stack.length < 2 ^ 64 by omega)]
      omega
    rw [this, if_neg h0]
    refine Reads.last (Reads.u64 hs _) fun _ => ?_
    have hle : ¬ s.dynSize.toNat > (elems Spec s.stack).length := by
      have := h h0
      show ¬ s.dynSize.toNat > s.stack.length
      omega
    rw [if_neg hle]
    exact Reads.pure _

theorem Reads.auxData (hs : Src cfg o) (s : KSample) (hlim : s.aux.length < 2 ^ 64) (h : s.aux ≠ []) :
    Reads cfg nd k (parseAuxData : Spec (List Byte)) (s.encAux o) tl s.aux := by
  unfold parseAuxData KSample.encAux
  refine Reads.bind (Reads.u64 hs _) ?_
  rw [toNat_ofNat_lt (show s.aux.length < 2 ^ 64 by omega)]
  exact Reads.array rfl (by simp [h])

theorem Reads.values (hs : Src cfg o) (s : KSample) (h5 : cfg.readFormat.getLsbD 5 = false)
    (hlen : (s.encValues o cfg.readFormat).length < 65536)
    (hend : cfg.endian.isNative = true → cfg.readFormat.getLsbD 3 = true → s.group.counters = [] → tl ≠ []) :
    Reads cfg ⟨true, nd.eof⟩ 0 (parseValues : Spec (ReadGroup List)) (s.encValues o cfg.readFormat) tl (s.readGroup cfg.readFormat) := by
  unfold parseValues KSample.readGroup
  refine Reads.config ?_
  unfold KSample.encValues at hlen ⊢
  cases h3 : cfg.readFormat.getLsbD 3 with
  | true =>
    have hg : contains cfg.readFormat ReadFormat.GROUP = true := (contains_rf _ 3 (by omega) _ rfl).trans h3
    rw [h3, if_pos rfl] at hlen
    simp only [hg, if_true]
    exact Reads.readGroup hs _ h3 h5 (by unfold usizeLimit; omega) fun hn => hend hn h3
  | false =>
    have hg : contains cfg.readFormat ReadFormat.GROUP = false := (contains_rf _ 3 (by omega) _ rfl).trans h3
    simp only [hg, Bool.false_eq_true, if_false]
    refine Reads.last (Reads.readValue hs _ h3 h5) fun _ => Reads.pure' ?_
    have hid : contains cfg.readFormat ReadFormat.ID = cfg.readFormat.getLsbD 2 := contains_rf _ 2 (by omega) _ rfl
    have hlost : contains cfg.readFormat ReadFormat.LOST = cfg.readFormat.getLsbD 4 := contains_rf _ 4 (by omega) _ rfl
    unfold ReadGroup.ofValue KRead.readValue KCounter.words
    simp only [ReadValue.getId, ReadValue.getLost, hid, hlost, thenSome]
    congr 1
    cases cfg.readFormat.getLsbD 2 <;> cases cfg.readFormat.getLsbD 4 <;> rfl

theorem length_le_flatten {α : Type} {l : List α} {ls : List (List α)} (h : l ∈ ls) : l.length ≤ ls.flatten.length := by
  induction ls with
  | nil => cases h
  | cons x xs ih =>
    rw [List.flatten_cons, List.length_append]
    rcases List.mem_cons.1 h with h | h
    · subst h; omega
    · have := ih h; omega

theorem or_optv (st : U64) (id identifier : U64) :
    (optv (st.getLsbD 6) id).or (optv (st.getLsbD 16) identifier) = chooseId st id identifier := by
  unfold chooseId
  cases st.getLsbD 6 <;> cases st.getLsbD 16 <;> rfl

theorem KRead.enc_mod (rf : U64) (v : KRead) : (v.enc o rf).length % 8 = 0 := by
  unfold KRead.enc
  cases rf.getLsbD 0 <;> cases rf.getLsbD 1 <;> cases rf.getLsbD 2 <;> cases rf.getLsbD 4 <;> simp

theorem KGroup.enc_mod (rf : U64) (g : KGroup) : (g.enc o rf).length % 8 = 0 := by
  unfold KGroup.enc
  have := flatMap_e64_length o (g.counters.flatMap (KCounter.words rf))
  simp only [List.length_append, this]
  cases rf.getLsbD 0 <;> cases rf.getLsbD 1 <;> simp <;> omega

theorem KSample.encValues_mod (rf : U64) (s : KSample) : (s.encValues o rf).length % 8 = 0 := by
  unfold encValues
  split
  · exact KGroup.enc_mod _ _
  · exact KRead.enc_mod _ _

theorem KSample.encCallchain_length (s : KSample) : (s.encCallchain o).length = 8 + 8 * s.callchain.length := by
  unfold encCallchain
  rw [List.length_append, flatMap_e64_length, e64_length]

theorem KSample.encLbr_length (hw : Bool) (s : KSample) :
    (s.encLbr o hw).length = 8 + (if hw then 8 else 0) + 24 * s.lbr.length := by
  unfold encLbr
  rw [List.length_append, List.length_append, flatMap_encBranch_length, e64_length]
  cases hw <;> simp

theorem KRegs.enc_mod (r : KRegs) : (r.enc o).length % 8 = 0 := by
  unfold KRegs.enc
  split
  · simp
  · rw [List.length_append, flatMap_e64_length, e64_length]; omega

theorem KSample.encStack_mod (s : KSample) (h : s.stack.length % 8 = 0) : (s.encStack o).length % 8 = 0 := by
  unfold encStack
  split
  · simp; omega
  · simp; omega

/-- Encoded lengths inside a sample body are below its own length. -/
theorem KSample.part_length {st rf : U64} {hw : Bool} {s : KSample} {c : Bool} {bs : List Byte} {n : Nat}
    (hlen : (s.enc o st rf hw).length < n) (hm : opt c bs ∈ s.parts o st rf hw) (hc : c = true) : bs.length < n := by
  have := length_le_flatten hm
  subst hc
  unfold KSample.enc at hlen
  rw [opt_true] at this
  omega

theorem Reads.sample (hs : Src cfg o) (s : KSample)
    (h : s.Ok cfg.endian.isNative o cfg.sampleType cfg.readFormat cfg.regsUser cfg.regsIntr cfg.branchHwIndex)
    (hlen : (s.enc o cfg.sampleType cfg.readFormat cfg.branchHwIndex).length < 65536) :
    Reads cfg ⟨true, nd.eof⟩ 0 (parseSample : Spec (Sample List)) (s.enc o cfg.sampleType cfg.readFormat cfg.branchHwIndex) []
      (s.value cfg.sampleType cfg.readFormat cfg.regsUser cfg.regsIntr cfg.branchHwIndex) := by
  have hpart : ∀ {c : Bool} {bs : List Byte}, opt c bs ∈ s.parts o cfg.sampleType cfg.readFormat cfg.branchHwIndex →
      c = true → bs.length < 65536 := fun hm hc => KSample.part_length hlen hm hc
  unfold parseSample
  refine Reads.config ?_
  have e (m : U64) (i : Nat) (hm : m = 1#64 <<< i) (hi : i < 64) :
    contains cfg.sampleType m = cfg.sampleType.getLsbD i := contains_rf _ i hi m hm
  have u64 (b c : Bool) (hbc : b = c) (x : U64) (tl : List Byte) :
      Reads cfg ⟨true, nd.eof⟩ 0 (Perf.parseIf b (parseU64 : Spec U64)) (opt c (e64 o x)) tl (optv c x) :=
    Reads.parseIf c hbc fun _ => Reads.u64 hs x
  have m64 (c : Bool) (x : U64) : (opt c (e64 o x)).length % 8 = 0 := opt_mod _ _ (by simp)
  unfold KSample.enc KSample.parts
  simp only [List.flatten_cons, List.flatten_nil]
  refine Reads.step (u64 _ _ (e _ 16 rfl (by omega)) _ _) (m64 _ _) ?_
  refine Reads.step (u64 _ _ (e _ 0 rfl (by omega)) _ _) (m64 _ _) ?_
  rw [opt_append, List.append_assoc]
  refine Reads.bind (Reads.parseIf _ (e _ 1 rfl (by omega)) fun _ => Reads.u32 hs _) ?_
  refine Reads.bind (Reads.parseIf _ (e _ 1 rfl (by omega)) fun _ => Reads.u32 hs _) ?_
  refine Reads.mod (k := 0) (by cases cfg.sampleType.getLsbD 1 <;> simp) ?_
  refine Reads.step (u64 _ _ (e _ 2 rfl (by omega)) _ _) (m64 _ _) ?_
  refine Reads.step (u64 _ _ (e _ 3 rfl (by omega)) _ _) (m64 _ _) ?_
  refine Reads.step (u64 _ _ (e _ 6 rfl (by omega)) _ _) (m64 _ _) ?_
  refine Reads.step (u64 _ _ (e _ 9 rfl (by omega)) _ _) (m64 _ _) ?_
  refine Reads.step (Reads.parseIf _ (e _ 7 rfl (by omega)) fun _ => Reads.cpu hs _ _) (opt_mod _ _ (by simp)) ?_
  refine Reads.step (u64 _ _ (e _ 8 rfl (by omega)) _ _) (m64 _ _) ?_
  refine Reads.step (Reads.parseIf _ (e _ 4 rfl (by omega)) fun hc => Reads.values hs s (h.readFormat hc)
    (hpart (by simp [KSample.parts]) hc) fun hn h3 he => by rw [List.append_nil]; exact h.endValues hn hc h3 he)
    (opt_mod _ _ fun _ => KSample.encValues_mod _ _) ?_
  refine Reads.step (Reads.parseIf _ (e _ 5 rfl (by omega)) fun hc => Reads.callchain hs s
    (by have := hpart (bs := s.encCallchain o) (by simp [KSample.parts]) hc; rw [KSample.encCallchain_length] at this; omega)
    fun hn he => by rw [List.append_nil]; exact h.endCallchain hn hc he)
    (opt_mod _ _ fun _ => by rw [KSample.encCallchain_length]; omega) ?_
  refine Reads.step (Reads.parseIf _ (e _ 10 rfl (by omega)) fun hc => Reads.raw hs s
    (by have := hpart (bs := s.encRaw o) (by simp [KSample.parts]) hc; simp [KSample.encRaw] at this; omega) (h.rawPad hc))
    (opt_mod _ _ fun hc => by have := h.rawPad hc; simp [KSample.encRaw]; omega) ?_
  refine Reads.step (Reads.parseIf _ (e _ 11 rfl (by omega)) fun hc => Reads.lbr hs s _
    (by have := hpart (bs := s.encLbr o cfg.branchHwIndex) (by simp [KSample.parts]) hc
        rw [KSample.encLbr_length] at this; omega)
    fun hn he => by rw [List.append_nil]; exact h.endLbr hn hc he)
    (opt_mod _ _ fun _ => by rw [KSample.encLbr_length]; split <;> omega) ?_
  refine Reads.step (Reads.parseIf _ (e _ 12 rfl (by omega)) fun hc => Reads.config (Reads.regs hs _ _ (h.regsUserAbi hc)
    (h.regsUserLen hc) fun hn he => by rw [List.append_nil]; exact h.endRegsUser hn hc he))
    (opt_mod _ _ fun _ => KRegs.enc_mod _) ?_
  refine Reads.step (Reads.parseIf _ (e _ 13 rfl (by omega)) fun hc => Reads.stack hs s
    (by have := hpart (bs := s.encStack o) (by simp [KSample.parts]) hc; simp [KSample.encStack] at this; omega)
    (h.stack hc).2 fun he => by rw [List.append_nil]; exact h.endStack hc he)
    (opt_mod _ _ fun hc => KSample.encStack_mod _ (h.stack hc).1) ?_
  have hws : (cfg.sampleType.getLsbD 14 || cfg.sampleType.getLsbD 24) = cfg.sampleType.getLsbD 14 := by
    rw [h.weightStruct, Bool.or_false]
  rw [hws]
  refine Reads.step (u64 _ _ (e _ 14 rfl (by omega)) _ _) (m64 _ _) ?_
  refine Reads.step (u64 _ _ (e _ 15 rfl (by omega)) _ _) (m64 _ _) ?_
  refine Reads.step (u64 _ _ (e _ 17 rfl (by omega)) _ _) (m64 _ _) ?_
  refine Reads.step (Reads.parseIf _ (e _ 18 rfl (by omega)) fun hc => Reads.config (Reads.regs hs _ _ (h.regsIntrAbi hc)
    (h.regsIntrLen hc) fun hn he => by rw [List.append_nil]; exact h.endRegsIntr hn hc he))
    (opt_mod _ _ fun _ => KRegs.enc_mod _) ?_
  refine Reads.step (u64 _ _ (e _ 19 rfl (by omega)) _ _) (m64 _ _) ?_
  refine Reads.step (u64 _ _ (e _ 21 rfl (by omega)) _ _) (m64 _ _) ?_
  refine Reads.step (u64 _ _ (e _ 22 rfl (by omega)) _ _) (m64 _ _) ?_
  refine Reads.step (u64 _ _ (e _ 23 rfl (by omega)) _ _) (m64 _ _) ?_
  rw [List.append_nil]
  refine Reads.last (Reads.parseIf _ (e _ 20 rfl (by omega)) fun hc => Reads.auxData hs s
    (by have := hpart (bs := s.encAux o) (by simp [KSample.parts]) hc; simp [KSample.encAux] at this; omega) (h.endAux hc))
    fun _ => Reads.pure' ?_
  rw [or_optv]
  unfold KSample.value
  rw [hws]
  congr 1
  · cases cfg.sampleType.getLsbD 11 <;> simp [optv]
  · cases cfg.sampleType.getLsbD 11 <;> simp [optv]

/-! ## Trailers and bodies -/

theorem Reads.trailer (hs : Src cfg o) (t : KTrailer) (hall : cfg.sampleIdAll = true) :
    Reads cfg nd k (parseSampleId : Spec SampleId) (t.enc o cfg.sampleType) tl (t.value cfg.sampleType) := by
  unfold parseSampleId KTrailer.enc
  refine Reads.config ?_
  have e (m : U64) (i : Nat) (hm : m = 1#64 <<< i) (hi : i < 64) :
    contains cfg.sampleType m = cfg.sampleType.getLsbD i := contains_rf _ i hi m hm
  simp only [hall, Bool.not_true, Bool.false_eq_true, if_false, opt_append, List.append_assoc]
  refine Reads.bind (Reads.parseIf _ (e _ 1 rfl (by omega)) fun _ => Reads.u32 hs _) ?_
  refine Reads.bind (Reads.parseIf _ (e _ 1 rfl (by omega)) fun _ => Reads.u32 hs _) ?_
  refine Reads.bind (Reads.parseIf _ (e _ 2 rfl (by omega)) fun _ => Reads.u64 hs _) ?_
  refine Reads.bind (Reads.parseIf _ (e _ 6 rfl (by omega)) fun _ => Reads.u64 hs _) ?_
  refine Reads.bind (Reads.parseIf _ (e _ 9 rfl (by omega)) fun _ => Reads.u64 hs _) ?_
  rw [← List.append_assoc, ← opt_append]
  refine Reads.bind (Reads.parseIf _ (e _ 7 rfl (by omega)) fun _ => Reads.cpu hs _ _) ?_
  refine Reads.last (Reads.parseIf _ (e _ 16 rfl (by omega)) fun _ => Reads.u64 hs _) fun _ => Reads.pure' ?_
  rw [or_optv]
  rfl

theorem KTrailer.enc_length (st : U64) (t : KTrailer) : (t.enc o st).length = trailerLen st := by
  unfold KTrailer.enc trailerLen
  simp only [List.filter_cons, List.filter_nil]
  cases st.getLsbD 1 <;> cases st.getLsbD 2 <;> cases st.getLsbD 6 <;> cases st.getLsbD 9 <;> cases st.getLsbD 7 <;>
    cases st.getLsbD 16 <;> simp

/-- The flat parser for the body's type decodes the body. -/
theorem KBody.reads (hs : Src cfg o) (b : KBody) (h : b.Ok o cfg cfg.misc) (hlen : (b.enc o cfg).length < 65536) :
    Reads cfg ⟨b.needsAlignment, true⟩ 0 (parseBody b.type : Spec (Record List)) (b.enc o cfg) [] (b.value cfg cfg.misc) := by
  cases b with
  | mmap pid tid addr len pgoff name => exact Reads.last (Reads.mmap hs _ _ _ _ _ rfl h) fun _ => Reads.pure _
  | lost r => exact Reads.last (Reads.lost hs r) fun _ => Reads.pure _
  | comm pid tid name => exact Reads.last (Reads.comm hs _ _ rfl h) fun _ => Reads.pure _
  | exit r => exact Reads.last (Reads.exit hs r) fun _ => Reads.pure _
  | throttle r => exact Reads.last (Reads.throttle hs r) fun _ => Reads.pure _
  | unthrottle r => exact Reads.last (Reads.throttle hs r) fun _ => Reads.pure _
  | fork r => exact Reads.last (Reads.exit hs r) fun _ => Reads.pure _
  | read pid tid v => exact Reads.last (Reads.read hs _ _ v h.1 h.2) fun _ => Reads.pure _
  | sample s => exact Reads.last (Reads.sample (nd := ⟨true, true⟩) hs s h hlen) fun _ => Reads.pure _
  | mmap2 pid tid addr len pgoff d prot flags name =>
    exact Reads.last (Reads.mmap2 hs _ _ _ _ _ d h.1 _ _ rfl h.2) fun _ => Reads.pure _
  | aux r => exact Reads.last (Reads.aux hs r) fun _ => Reads.pure _
  | itraceStart r => exact Reads.last (Reads.itraceStart hs r) fun _ => Reads.pure _
  | lostSamples r => exact Reads.last (Reads.lostSamples hs r) fun _ => Reads.pure _
  | switch => exact h.elim
  | switchCpuWide pid tid => exact Reads.last (Reads.switchCpuWide hs pid tid) fun _ => Reads.pure _
  | namespaces pid tid es =>
    refine Reads.last (Reads.namespaces (nd := ⟨true, true⟩) (k := 0) hs pid tid es rfl (fun hn he => absurd he (h hn)) ?_) fun _ => Reads.pure _
    simp only [KBody.enc, List.length_append] at hlen
    unfold usizeLimit
    omega
  | ksymbol addr len ty flags name => exact Reads.last (Reads.ksymbol hs _ _ _ _ rfl h) fun _ => Reads.pure _
  | bpfEvent r => exact Reads.last (Reads.bpfEvent hs r h) fun _ => Reads.pure _
  | cgroup id name => exact Reads.last (Reads.cgroup hs _ rfl h) fun _ => Reads.pure _
  | textPoke addr old new pad =>
    obtain ⟨h1, h2, h3, h4⟩ : _ ∧ _ ∧ _ ∧ _ := h
    simp only [KBody.enc, List.length_append] at hlen
    exact Reads.last (Reads.textPoke hs addr old new pad h1 h2 h3 h4 (by omega) (by omega)) fun _ => Reads.pure _
  | auxOutputHwId r => exact Reads.last (Reads.auxOutputHwId hs r) fun _ => Reads.pure _
  | other ty data =>
    obtain ⟨h1, h2⟩ : _ ∧ _ := h
    have : (parseBody ty : Spec (Record List)) = (do let d ← (ParserM.rest : Spec (List Byte)); Pure.pure (.unknown ty d)) := by
      unfold parseBody
      rcases h2 with h2 | h2
      · subst h2; rfl
      · split <;> first | rfl | (exfalso; omega)
    show Reads _ _ _ (parseBody ty) _ _ _
    rw [this]
    exact Reads.last (Reads.rest rfl h1) fun _ => Reads.pure _

end Perf
