import Verif.Spec.Readable
import Verif.Proof.IReads
import Verif.Proof.Encode
import Verif.Props.Exact
/-!
# Flat parsers on encoded input, exactly

`Judges cfg k s bs tl a C`: on an input that starts with `bs` and continues with `tl`, `s` yields `a` and has consumed exactly `bs`
if `C` holds, and otherwise fails with the error at the end of the input.
-/
namespace Perf
open ParserM
variable {α α' T : Type} {cfg : ParseConfig} {k : Nat} {bs bs' tl : List Byte} {o : Order} {C D : Prop}

/-- See the top of the file. -/
def Judges (cfg : ParseConfig) (k : Nat) (s : Spec α) (bs tl : List Byte) (a : α) (C : Prop) : Prop :=
  ∀ f : Flat, f.cfg = cfg → f.s.fin.kind = .eof → (cfg.endian.isNative = true → AlMod f.s.al k) → f.s.bytes = bs ++ tl →
    (C → s f = .ok (a, f.adv bs.length)) ∧ (¬ C → s f = .error (.err f.s.fin))

theorem Judges.iff {s : Spec α} {a : α} (h : Judges cfg k s bs tl a C) (hc : C ↔ D) : Judges cfg k s bs tl a D :=
  (propext hc) ▸ h

theorem Judges.of {s : Spec α} {a : α} (h : Reads cfg ⟨true, true⟩ k s bs tl a) : Judges cfg k s bs tl a True :=
  fun f hf he ha hb => ⟨fun _ => h f hf (fun _ => he) (fun _ => ha) hb, fun h => absurd trivial h⟩

/-- If the condition is met it is a success. -/
theorem Judges.cond {s : Spec α} {a : α} (h1 : C → Reads cfg ⟨true, true⟩ k s bs tl a) (h2 : ¬ C → Ends cfg s (bs ++ tl)) :
    Judges cfg k s bs tl a C :=
  fun f hf he ha hb => ⟨fun h => h1 h f hf (fun _ => he) (fun _ => ha) hb, fun h => h2 h f hf hb⟩

theorem Judges.bind {s : Spec α} {c : α → Spec α'} {a : α} {b : α'} (h : Judges cfg k s bs (bs' ++ tl) a C)
    (hc : Judges cfg (k + bs.length) (c a) bs' tl b D) : Judges cfg k (s >>= c) (bs ++ bs') tl b (C ∧ D) := by
  intro f hf he ha hb
  rw [List.append_assoc] at hb
  obtain ⟨h1, h2⟩ := h f hf he ha hb
  by_cases hC : C
  · obtain ⟨h3, h4⟩ := hc (f.adv bs.length) hf he (fun h => (ha h).add _) (by simp [hb])
    rw [Spec.bind_ok (h1 hC)]
    refine ⟨fun h => ?_, fun h => h4 fun hD => h ⟨hC, hD⟩⟩
    rw [h3 h.2, Flat.adv_adv, List.length_append]
  · refine ⟨fun h => absurd h.1 hC, fun _ => ?_⟩
    show Spec.bind s c f = _
    unfold Spec.bind
    rw [h2 hC]

theorem Judges.mod {s : Spec α} {k' : Nat} {a : α} (hk : k % 8 = k' % 8) (h : Judges cfg k s bs tl a C) :
    Judges cfg k' s bs tl a C :=
  fun f hf he ha hb => h f hf he (fun h => (ha h).congr hk.symm) hb

/-- A sequence of parsers of multiples of 8 bytes. -/
theorem Judges.step {s : Spec α} {c : α → Spec α'} {a : α} {b : α'} (h : Judges cfg 0 s bs (bs' ++ tl) a C)
    (hl : bs.length % 8 = 0) (hc : Judges cfg 0 (c a) bs' tl b D) : Judges cfg 0 (s >>= c) (bs ++ bs') tl b (C ∧ D) :=
  Judges.bind h (hc.mod (by omega))

/-- After something that succeeds. -/
theorem Judges.then {s : Spec α} {c : α → Spec α'} {a : α} {b : α'} (h : Reads cfg ⟨true, true⟩ k s bs (bs' ++ tl) a)
    (hc : Judges cfg (k + bs.length) (c a) bs' tl b D) : Judges cfg k (s >>= c) (bs ++ bs') tl b D :=
  (Judges.bind (Judges.of h) hc).iff (by simp)

theorem Judges.next {s : Spec α} {c : α → Spec α'} {a : α} {b : α'} (h : Reads cfg ⟨true, true⟩ 0 s bs (bs' ++ tl) a)
    (hl : bs.length % 8 = 0) (hc : Judges cfg 0 (c a) bs' tl b D) : Judges cfg 0 (s >>= c) (bs ++ bs') tl b D :=
  Judges.then h (hc.mod (by omega))

/-- The last parser of a sequence. -/
theorem Judges.last {s : Spec α} {c : α → Spec α'} {a : α} {b : α'} (h : Judges cfg k s bs tl a C)
    (hc : ∀ k, Reads cfg ⟨true, true⟩ k (c a) [] tl b) : Judges cfg k (s >>= c) bs tl b C := by
  have := Judges.bind (bs' := []) (tl := tl) h (Judges.of (hc _))
  rw [List.append_nil] at this
  exact this.iff (by simp)

theorem Judges.config {c : ParseConfig → Spec α} {a : α} (h : Judges cfg k (c cfg) bs tl a C) :
    Judges cfg k ((ParserM.config : Spec ParseConfig) >>= c) bs tl a C := by
  intro f hf he ha hb
  have : ((ParserM.config : Spec ParseConfig) >>= c) f = c f.cfg f := rfl
  rw [this, hf]
  exact h f hf he ha hb

theorem Judges.parseIf {s : Spec α} {a : α} {b : Bool} (c : Bool) (hbc : b = c) (h : c = true → Judges cfg k s bs tl a C) :
    Judges cfg k (Perf.parseIf b s) (opt c bs) tl (optv c a) (c = true → C) := by
  subst hbc
  cases b with
  | true =>
    refine Judges.iff (C := C) ?_ ⟨fun h _ => h, fun h => h rfl⟩
    exact Judges.last (h rfl) fun _ => Reads.pure _
  | false => exact (Judges.of (Reads.pure _)).iff ⟨fun _ h => (by cases h), fun _ => trivial⟩

theorem Judges.array {n : Nat} (hn : bs.length = n) : Judges cfg k (ParserM.bytes n : Spec (List Byte)) bs tl bs (bs ++ tl ≠ []) := by
  refine Judges.cond (fun h => Reads.array hn h) fun h => ?_
  rw [ne_eq, Classical.not_not] at h
  rw [h]
  exact Ends.bytes n

theorem Judges.rest : Judges cfg k (ParserM.rest : Spec (List Byte)) bs [] bs (bs ≠ []) := by
  refine Judges.cond (fun h => Reads.rest rfl h) fun h => ?_
  rw [ne_eq, Classical.not_not] at h
  rw [h]
  exact Ends.rest

theorem Judges.name {n : KName} (h : n.text.getLast? ≠ some 0#8) :
    Judges cfg k (ParserM.restTrimNul : Spec (List Byte)) n.enc [] n.text (n.enc ≠ []) :=
  Judges.last Judges.rest fun _ => Reads.pure' (trimNul_pad _ _ h)

theorem Judges.slice {e : Elem T} {item : Spec T} {en : T → List Byte} (hi : ∀ x k tl, Reads cfg ⟨true, true⟩ k item (en x) tl x)
    (he : ∀ x, (en x).length = e.size) (h0 : 0 < e.size) (xs : List T) {n : Nat} (hn : n = xs.length) (hk : k % 8 = 0)
    (hlim : (xs.flatMap en).length < usizeLimit) :
    Judges cfg k (ParserM.slice e item n : Spec (List T)) (xs.flatMap en) tl xs
      (cfg.endian.isNative = true → xs = [] → tl ≠ []) := by
  refine Judges.cond (fun h => Reads.slice hi he h0 xs hn hk rfl hlim h) fun h => ?_
  rw [Classical.not_imp, Classical.not_imp, ne_eq, Classical.not_not] at h
  obtain ⟨h1, rfl, rfl⟩ := h
  subst hn
  exact Ends.slice e item h1 (by simp [usizeLimit])

/-! ## Names and lists -/

/-- Work through a sequence of integer parsers. -/
macro "judges" hs:term : tactic => `(tactic|
  repeat first
    | refine Judges.then (Reads.u64 $hs _) ?_
    | refine Judges.then (Reads.u32 $hs _) ?_
    | refine Judges.then (Reads.u16 $hs _) ?_)

theorem Judges.mmap (hs : Src cfg o) (pid tid : U32) (addr len pgoff : U64) {name : KName} (hn : name.text.getLast? ≠ some 0#8) :
    Judges cfg k (parseMmap : Spec (Mmap List))
      (e32 o pid ++ e32 o tid ++ e64 o addr ++ e64 o len ++ e64 o pgoff ++ name.enc) []
      ⟨pid, tid, addr, len, pgoff, name.text⟩ (name.enc ≠ []) := by
  unfold parseMmap
  simp only [List.append_assoc]
  judges hs
  exact Judges.last (Judges.name hn) fun _ => Reads.pure _

theorem Judges.comm (hs : Src cfg o) (pid tid : U32) {name : KName} (hn : name.text.getLast? ≠ some 0#8) :
    Judges cfg k (parseComm : Spec (Comm List)) (e32 o pid ++ e32 o tid ++ name.enc) [] ⟨pid, tid, name.text⟩ (name.enc ≠ []) := by
  unfold parseComm
  simp only [List.append_assoc]
  judges hs
  exact Judges.last (Judges.name hn) fun _ => Reads.pure _

theorem Judges.ksymbol (hs : Src cfg o) (addr : U64) (len : U32) (ksymType flags : U16) {name : KName}
    (hn : name.text.getLast? ≠ some 0#8) :
    Judges cfg k (parseKSymbol : Spec (KSymbol List))
      (e64 o addr ++ e32 o len ++ e16 o ksymType ++ e16 o flags ++ name.enc) []
      ⟨addr, len, ksymType, flags, name.text⟩ (name.enc ≠ []) := by
  unfold parseKSymbol
  simp only [List.append_assoc]
  judges hs
  exact Judges.last (Judges.name hn) fun _ => Reads.pure _

theorem Judges.cgroup (hs : Src cfg o) (id : U64) {name : KName} (hn : name.text.getLast? ≠ some 0#8) :
    Judges cfg k (parseCGroup : Spec (CGroup List)) (e64 o id ++ name.enc) [] ⟨id, name.text⟩ (name.enc ≠ []) := by
  unfold parseCGroup
  judges hs
  exact Judges.last (Judges.name hn) fun _ => Reads.pure _

theorem Judges.mmap2 (hs : Src cfg o) (pid tid : U32) (addr len pgoff : U64) (d : KDetail) (h : d.Ok cfg.misc)
    (prot flags : U32) {name : KName} (hn : name.text.getLast? ≠ some 0#8) :
    Judges cfg k (parseMmap2 : Spec (Mmap2 List))
      (e32 o pid ++ e32 o tid ++ e64 o addr ++ e64 o len ++ e64 o pgoff ++ d.enc o ++ e32 o prot ++ e32 o flags ++ name.enc) []
      ⟨pid, tid, addr, len, pgoff, prot, flags, name.text, d.value⟩ (name.enc ≠ []) := by
  unfold parseMmap2
  simp only [List.append_assoc]
  judges hs
  refine Judges.then (Reads.mmapDetail hs d h) ?_
  judges hs
  exact Judges.last (Judges.name hn) fun _ => Reads.pure _

theorem Judges.namespaces (hs : Src cfg o) (pid tid : U32) (es : List NamespaceEntry) (hk : k % 8 = 0)
    (hlen : (es.flatMap fun e => e64 o e.dev ++ e64 o e.inode).length < usizeLimit) :
    Judges cfg k (parseNamespaces : Spec (Namespaces List))
      (e32 o pid ++ e32 o tid ++ e64 o (BitVec.ofNat 64 es.length) ++ es.flatMap fun e => e64 o e.dev ++ e64 o e.inode) tl
      ⟨pid, tid, es⟩ (cfg.endian.isNative = true → es = [] → tl ≠ []) := by
  unfold parseNamespaces
  simp only [List.append_assoc]
  judges hs
  have hl : es.length ≤ (es.flatMap fun e => e64 o e.dev ++ e64 o e.inode).length := by
    clear hlen
    induction es with
    | nil => simp
    | cons x xs ih => rw [List.flatMap_cons, List.length_append, List.length_cons]; simp; simp at ih; omega
  refine Judges.last (Judges.slice (en := fun e : NamespaceEntry => e64 o e.dev ++ e64 o e.inode)
    (fun x k tl => Reads.namespaceEntry hs x k tl) (fun x => by simp; rfl) (by decide) es ?_ (by simp; omega) hlen)
    fun _ => Reads.pure _
  rw [toNat_ofNat_lt]
  unfold usizeLimit at hlen
  omega

/-! ## Parts of samples -/

theorem Judges.words (hs : Src cfg o) (xs : List U64) {n : Nat} (hn : n = xs.length) (hk : k % 8 = 0)
    (hlim : 8 * xs.length < 2 ^ 64) :
    Judges cfg k (ParserM.slice U64.elem parseU64 n : Spec (List U64)) (xs.flatMap (e64 o)) tl xs
      (cfg.endian.isNative = true → xs = [] → tl ≠ []) :=
  Judges.slice (en := e64 o) (fun x _ _ => Reads.u64 hs x) (fun x => e64_length o x) (by decide) xs hn hk
    (by rw [flatMap_e64_length]; unfold usizeLimit; omega)

theorem Judges.readGroup (hs : Src cfg o) (g : KGroup) (h3 : cfg.readFormat.getLsbD 3 = true)
    (h5 : cfg.readFormat.getLsbD 5 = false) (hlen : (g.enc o cfg.readFormat).length < usizeLimit) :
    Judges cfg 0 (parseReadGroup : Spec (ReadGroup List)) (g.enc o cfg.readFormat) tl (g.readGroup cfg.readFormat)
      (cfg.endian.isNative = true → g.counters = [] → tl ≠ []) := by
  refine Judges.cond (fun h => Reads.readGroup (nd := ⟨true, true⟩) hs g h3 h5 hlen h) fun h => ?_
  rw [Classical.not_imp, Classical.not_imp, ne_eq, Classical.not_not] at h
  obtain ⟨hn, hc, rfl⟩ := h
  rw [List.append_nil]
  unfold parseReadGroup KGroup.enc
  refine Ends.config ?_
  have hg : contains cfg.readFormat ReadFormat.GROUP = true := (contains_rf _ 3 (by omega) _ rfl).trans h3
  have hd := diff_zero cfg h5
  rw [hc]
  simp only [hg, Bool.not_true, Bool.false_eq_true, if_false, hd, ne_eq, not_true_eq_false, List.append_assoc]
  refine Ends.bind (Reads.u64 hs _) ?_
  refine Ends.bind (Reads.parseIf _ (contains_rf _ 0 (by omega) _ rfl) fun _ => Reads.u64 hs _) ?_
  refine Ends.bind (Reads.parseIf _ (contains_rf _ 1 (by omega) _ rfl) fun _ => Reads.u64 hs _) ?_
  have h0 : (BitVec.ofNat 64 (List.length ([] : List KCounter))).toNat * ReadFormat.elementLen cfg.readFormat = 0 := by simp
  rw [h0, if_neg (by decide)]
  exact Ends.first (Ends.slice _ _ hn (by decide))

theorem Judges.values (hs : Src cfg o) (s : KSample) (h5 : cfg.readFormat.getLsbD 5 = false)
    (hlen : (s.encValues o cfg.readFormat).length < 65536) :
    Judges cfg 0 (parseValues : Spec (ReadGroup List)) (s.encValues o cfg.readFormat) tl (s.readGroup cfg.readFormat)
      (cfg.endian.isNative = true → cfg.readFormat.getLsbD 3 = true → s.group.counters = [] → tl ≠ []) := by
  cases h3 : cfg.readFormat.getLsbD 3 with
  | false =>
    exact (Judges.of (Reads.values (nd := ⟨true, true⟩) hs s h5 hlen fun _ h => by rw [h3] at h; cases h)).iff (by simp)
  | true =>
    have hg : contains cfg.readFormat ReadFormat.GROUP = true := (contains_rf _ 3 (by omega) _ rfl).trans h3
    unfold parseValues KSample.readGroup
    unfold KSample.encValues at hlen ⊢
    rw [h3, if_pos rfl] at hlen
    refine Judges.config ?_
    simp only [hg, h3, if_true]
    exact (Judges.readGroup hs _ h3 h5 (by unfold usizeLimit; omega)).iff (by simp)

theorem Judges.callchain (hs : Src cfg o) (s : KSample) (hlim : 8 * s.callchain.length < 2 ^ 64) :
    Judges cfg 0 (parseCallchain : Spec (List U64)) (s.encCallchain o) tl s.callchain
      (cfg.endian.isNative = true → s.callchain = [] → tl ≠ []) := by
  unfold parseCallchain KSample.encCallchain
  exact Judges.next (Reads.u64 hs _) (by simp) (Judges.words hs _ (toNat_ofNat_lt (by omega)) rfl hlim)

theorem Judges.regs (hs : Src cfg o) (r : KRegs) (mask : U64) (ha : r.abi = 0#64 → r.values = [])
    (hl : r.values.length = popcount mask) :
    Judges cfg 0 (parseRegisters mask : Spec (Registers List)) (r.enc o) tl ⟨r.abi, mask, r.values⟩
      (cfg.endian.isNative = true → r.values = [] → tl ≠ []) := by
  unfold parseRegisters KRegs.enc
  have : (if r.abi = 0#64 then [] else r.values.flatMap (e64 o)) = r.values.flatMap (e64 o) := by
    split
    · next h => rw [ha h]; rfl
    · rfl
  rw [this]
  refine Judges.next (Reads.u64 hs _) (by simp) (Judges.last (Judges.words hs _ hl.symm rfl ?_) fun _ => Reads.pure _)
  rw [hl]
  unfold popcount
  refine Nat.lt_of_le_of_lt (Nat.mul_le_mul_left 8 (List.length_filter_le _ _)) ?_
  simp

theorem Judges.lbr (hs : Src cfg o) (s : KSample) (hw : Bool) (hlim : 24 * s.lbr.length < 2 ^ 64) :
    Judges cfg 0 (parseLbr hw : Spec (List BranchEntry × Option U64)) (s.encLbr o hw) tl
      (s.lbr, optv hw s.lbrHwIndex) (cfg.endian.isNative = true → s.lbr = [] → tl ≠ []) := by
  unfold parseLbr KSample.encLbr
  simp only [List.append_assoc]
  refine Judges.next (Reads.u64 hs _) (by simp) ?_
  refine Judges.next (Reads.parseIf _ rfl fun _ => Reads.u64 hs _) (opt_mod _ _ (by simp)) ?_
  exact Judges.last (Judges.slice (en := encBranch o) (fun x _ _ => Reads.branchEntry hs x _ _) (encBranch_length o) (by decide) _
    (toNat_ofNat_lt (by omega)) rfl (by rw [flatMap_encBranch_length]; unfold usizeLimit; omega))
    fun _ => Reads.pure _

theorem Judges.stack (hs : Src cfg o) (s : KSample) (hlim : s.stack.length < 2 ^ 64)
    (h : s.stack ≠ [] → s.dynSize.toNat ≤ s.stack.length) :
    Judges cfg k (parseStackUser : Spec (List Byte)) (s.encStack o) tl
      (if s.stack = [] then [] else s.stack.take s.dynSize.toNat) (s.stack = [] → tl ≠ []) := by
  refine Judges.cond (fun h' => Reads.stack hs s hlim h h') fun h' => ?_
  rw [Classical.not_imp, ne_eq, Classical.not_not] at h'
  obtain ⟨h1, rfl⟩ := h'
  unfold parseStackUser KSample.encStack
  rw [h1]
  simp only [if_true, List.append_nil]
  rw [← List.append_nil (e64 o _)]
  exact Ends.bind (Reads.u64 hs _) (Ends.first (Ends.bytes _))

theorem Judges.auxData (hs : Src cfg o) (s : KSample) (hlim : s.aux.length < 2 ^ 64) :
    Judges cfg k (parseAuxData : Spec (List Byte)) (s.encAux o) [] s.aux (s.aux ≠ []) := by
  unfold parseAuxData KSample.encAux
  refine Judges.then (Reads.u64 hs _) ?_
  rw [toNat_ofNat_lt (show s.aux.length < 2 ^ 64 by omega)]
  exact (Judges.array rfl).iff (by simp)

/-- The conditions that are met on the way through a sample. -/
theorem Judges.sample (hs : Src cfg o) (s : KSample) (h : s.Written cfg.sampleType cfg.readFormat cfg.regsUser cfg.regsIntr)
    (ha : s.Announced cfg.sampleType cfg.regsUser cfg.regsIntr)
    (hst : cfg.sampleType.getLsbD 13 = true → s.stack.length % 8 = 0)
    (hlen : (s.enc o cfg.sampleType cfg.readFormat cfg.branchHwIndex).length < 65536) :
    Judges cfg 0 (parseSample : Spec (Sample List)) (s.enc o cfg.sampleType cfg.readFormat cfg.branchHwIndex) []
      (s.value cfg.sampleType cfg.readFormat cfg.regsUser cfg.regsIntr cfg.branchHwIndex)
      (s.EndFull cfg.endian.isNative o cfg.sampleType cfg.readFormat cfg.branchHwIndex) := by
  have hpart : ∀ {c : Bool} {bs : List Byte}, opt c bs ∈ s.parts o cfg.sampleType cfg.readFormat cfg.branchHwIndex →
      c = true → bs.length < 65536 := fun hm hc => KSample.part_length hlen hm hc
  have hregs : ∀ (mask : U64) (r : KRegs), r.Written mask → (r.abi = 0#64 → popcount mask = 0) →
      (r.abi = 0#64 → r.values = []) ∧ r.values.length = popcount mask := by
    intro mask r hw hz
    unfold KRegs.Written at hw
    split at hw
    · next h => exact ⟨fun _ => hw, by rw [hw, hz h]; rfl⟩
    · next h => exact ⟨fun h' => absurd h' h, hw⟩
  have e (m : U64) (i : Nat) (hm : m = 1#64 <<< i) (hi : i < 64) :
    contains cfg.sampleType m = cfg.sampleType.getLsbD i := contains_rf _ i hi m hm
  have u64 (b c : Bool) (hbc : b = c) (x : U64) (tl : List Byte) :
      Reads cfg ⟨true, true⟩ 0 (Perf.parseIf b (parseU64 : Spec U64)) (opt c (e64 o x)) tl (optv c x) :=
    Reads.parseIf c hbc fun _ => Reads.u64 hs x
  have m64 (c : Bool) (x : U64) : (opt c (e64 o x)).length % 8 = 0 := opt_mod _ _ (by simp)
  refine Judges.iff (C := _ ∧ _ ∧ _ ∧ _ ∧ _ ∧ _ ∧ _) ?_ (D := s.EndFull cfg.endian.isNative o cfg.sampleType cfg.readFormat cfg.branchHwIndex)
    ⟨fun ⟨h1, h2, h3, h4, h5, h6, h7⟩ => ⟨h1, h2, h3, h4, h5, h6, h7⟩, fun ⟨h1, h2, h3, h4, h5, h6, h7⟩ => ⟨h1, h2, h3, h4, h5, h6, h7⟩⟩
  unfold parseSample
  refine Judges.config ?_
  unfold KSample.enc KSample.after KSample.parts
  simp only [List.flatten_cons, List.flatten_nil, List.drop_succ_cons, List.drop_zero]
  refine Judges.next (u64 _ _ (e _ 16 rfl (by omega)) _ _) (m64 _ _) ?_
  refine Judges.next (u64 _ _ (e _ 0 rfl (by omega)) _ _) (m64 _ _) ?_
  rw [opt_append, List.append_assoc]
  refine Judges.then (Reads.parseIf _ (e _ 1 rfl (by omega)) fun _ => Reads.u32 hs _) ?_
  refine Judges.then (Reads.parseIf _ (e _ 1 rfl (by omega)) fun _ => Reads.u32 hs _) ?_
  refine Judges.mod (k := 0) (by cases cfg.sampleType.getLsbD 1 <;> simp) ?_
  refine Judges.next (u64 _ _ (e _ 2 rfl (by omega)) _ _) (m64 _ _) ?_
  refine Judges.next (u64 _ _ (e _ 3 rfl (by omega)) _ _) (m64 _ _) ?_
  refine Judges.next (u64 _ _ (e _ 6 rfl (by omega)) _ _) (m64 _ _) ?_
  refine Judges.next (u64 _ _ (e _ 9 rfl (by omega)) _ _) (m64 _ _) ?_
  refine Judges.next (Reads.parseIf _ (e _ 7 rfl (by omega)) fun _ => Reads.cpu hs _ _) (opt_mod _ _ (by simp)) ?_
  refine Judges.next (u64 _ _ (e _ 8 rfl (by omega)) _ _) (m64 _ _) ?_
  refine Judges.step ((Judges.parseIf _ (e _ 4 rfl (by omega)) fun hc => Judges.values hs s (h.readFormat hc)
    (hpart (by simp [KSample.parts]) hc)).iff (by rw [List.append_nil]))
    (opt_mod _ _ fun _ => KSample.encValues_mod _ _) ?_
  refine Judges.step ((Judges.parseIf _ (e _ 5 rfl (by omega)) fun hc => Judges.callchain hs s
    (by have := hpart (bs := s.encCallchain o) (by simp [KSample.parts]) hc; rw [KSample.encCallchain_length] at this; omega)).iff
    (by rw [List.append_nil]))
    (opt_mod _ _ fun _ => by rw [KSample.encCallchain_length]; omega) ?_
  refine Judges.next (Reads.parseIf _ (e _ 10 rfl (by omega)) fun hc => Reads.raw hs s
    (by have := hpart (bs := s.encRaw o) (by simp [KSample.parts]) hc; simp [KSample.encRaw] at this; omega) (h.rawPad hc))
    (opt_mod _ _ fun hc => by have := h.rawPad hc; simp [KSample.encRaw]; omega) ?_
  refine Judges.step ((Judges.parseIf _ (e _ 11 rfl (by omega)) fun hc => Judges.lbr hs s _
    (by have := hpart (bs := s.encLbr o cfg.branchHwIndex) (by simp [KSample.parts]) hc
        rw [KSample.encLbr_length] at this; omega)).iff (by rw [List.append_nil]))
    (opt_mod _ _ fun _ => by rw [KSample.encLbr_length]; split <;> omega) ?_
  refine Judges.step ((Judges.parseIf _ (e _ 12 rfl (by omega)) fun hc => Judges.config (Judges.regs hs _ _
    (hregs _ _ (h.regsUser hc) (ha.regsUser hc)).1 (hregs _ _ (h.regsUser hc) (ha.regsUser hc)).2)).iff (by rw [List.append_nil]))
    (opt_mod _ _ fun _ => KRegs.enc_mod _) ?_
  refine Judges.step ((Judges.parseIf _ (e _ 13 rfl (by omega)) fun hc => Judges.stack hs s
    (by have := hpart (bs := s.encStack o) (by simp [KSample.parts]) hc; simp [KSample.encStack] at this; omega)
    (h.stack hc)).iff (by rw [List.append_nil]))
    (opt_mod _ _ fun hc => KSample.encStack_mod _ (hst hc)) ?_
  have hws : (cfg.sampleType.getLsbD 14 || cfg.sampleType.getLsbD 24) = cfg.sampleType.getLsbD 14 := by
    have := ha.weight
    revert this
    cases cfg.sampleType.getLsbD 14 <;> cases cfg.sampleType.getLsbD 24 <;> simp
  rw [hws]
  refine Judges.next (u64 _ _ (e _ 14 rfl (by omega)) _ _) (m64 _ _) ?_
  refine Judges.next (u64 _ _ (e _ 15 rfl (by omega)) _ _) (m64 _ _) ?_
  refine Judges.next (u64 _ _ (e _ 17 rfl (by omega)) _ _) (m64 _ _) ?_
  refine Judges.step ((Judges.parseIf _ (e _ 18 rfl (by omega)) fun hc => Judges.config (Judges.regs hs _ _
    (hregs _ _ (h.regsIntr hc) (ha.regsIntr hc)).1 (hregs _ _ (h.regsIntr hc) (ha.regsIntr hc)).2)).iff (by rw [List.append_nil]))
    (opt_mod _ _ fun _ => KRegs.enc_mod _) ?_
  refine Judges.next (u64 _ _ (e _ 19 rfl (by omega)) _ _) (m64 _ _) ?_
  refine Judges.next (u64 _ _ (e _ 21 rfl (by omega)) _ _) (m64 _ _) ?_
  refine Judges.next (u64 _ _ (e _ 22 rfl (by omega)) _ _) (m64 _ _) ?_
  refine Judges.next (u64 _ _ (e _ 23 rfl (by omega)) _ _) (m64 _ _) ?_
  rw [List.append_nil]
  refine Judges.last (Judges.parseIf _ (e _ 20 rfl (by omega)) fun hc => Judges.auxData hs s
    (by have := hpart (bs := s.encAux o) (by simp [KSample.parts]) hc; simp [KSample.encAux] at this; omega))
    fun _ => Reads.pure' ?_
  rw [or_optv]
  unfold KSample.value
  rw [hws]
  congr 1
  · cases cfg.sampleType.getLsbD 11 <;> simp [optv]
  · cases cfg.sampleType.getLsbD 11 <;> simp [optv]

/-- The flat parser for the body's type, exactly. -/
theorem KBody.judges (hs : Src cfg o) (b : KBody) (hw : b.Written cfg cfg.misc) (hst : b.StackAligned cfg)
    (ha : b.Announced true cfg) (hlen : (b.enc o cfg).length < 65536) :
    Judges cfg 0 (parseBody b.type : Spec (Record List)) (b.enc o cfg) [] (b.value cfg cfg.misc) (b.EndFull o cfg) := by
  cases b with
  | mmap pid tid addr len pgoff name => exact Judges.last (Judges.mmap hs _ _ _ _ _ hw) fun _ => Reads.pure _
  | lost r => exact Judges.of (Reads.last (Reads.lost hs r) fun _ => Reads.pure _)
  | comm pid tid name => exact Judges.last (Judges.comm hs _ _ hw) fun _ => Reads.pure _
  | exit r => exact Judges.of (Reads.last (Reads.exit hs r) fun _ => Reads.pure _)
  | throttle r => exact Judges.of (Reads.last (Reads.throttle hs r) fun _ => Reads.pure _)
  | unthrottle r => exact Judges.of (Reads.last (Reads.throttle hs r) fun _ => Reads.pure _)
  | fork r => exact Judges.of (Reads.last (Reads.exit hs r) fun _ => Reads.pure _)
  | read pid tid v => exact Judges.of (Reads.last (Reads.read hs _ _ v hw.1 hw.2) fun _ => Reads.pure _)
  | sample s => exact Judges.last (Judges.sample hs s hw ha hst hlen) fun _ => Reads.pure _
  | mmap2 pid tid addr len pgoff d prot flags name =>
    exact Judges.last (Judges.mmap2 hs _ _ _ _ _ d hw.1 _ _ hw.2) fun _ => Reads.pure _
  | aux r => exact Judges.of (Reads.last (Reads.aux hs r) fun _ => Reads.pure _)
  | itraceStart r => exact Judges.of (Reads.last (Reads.itraceStart hs r) fun _ => Reads.pure _)
  | lostSamples r => exact Judges.of (Reads.last (Reads.lostSamples hs r) fun _ => Reads.pure _)
  | switch =>
    refine Judges.cond (fun h => h.elim) fun _ => ?_
    show Ends _ (parseBody 14#32) []
    rw [parseBody_other (by decide)]
    exact Ends.first Ends.rest
  | switchCpuWide pid tid => exact Judges.of (Reads.last (Reads.switchCpuWide hs pid tid) fun _ => Reads.pure _)
  | namespaces pid tid es =>
    refine Judges.iff (C := cfg.endian.isNative = true → es = [] → ([] : List Byte) ≠ []) ?_
      ⟨fun h h1 h2 => h h1 h2 rfl, fun h h1 h2 => absurd h2 (h h1)⟩
    refine Judges.last (Judges.namespaces (k := 0) (tl := []) hs pid tid es rfl ?_) fun _ => Reads.pure _
    simp only [KBody.enc, List.length_append] at hlen
    unfold usizeLimit
    omega
  | ksymbol addr len ty flags name => exact Judges.last (Judges.ksymbol hs _ _ _ _ hw) fun _ => Reads.pure _
  | bpfEvent r => exact Judges.of (Reads.last (Reads.bpfEvent hs r hw) fun _ => Reads.pure _)
  | cgroup id name => exact Judges.last (Judges.cgroup hs _ hw) fun _ => Reads.pure _
  | textPoke addr old new pad =>
    obtain ⟨h3, h4⟩ : _ ∧ _ := hw
    obtain ⟨h1, h2⟩ : _ ∧ _ := ha rfl
    simp only [KBody.enc, List.length_append] at hlen
    exact Judges.of (Reads.last (Reads.textPoke hs addr old new pad h1 h2 h3 h4 (by omega) (by omega)) fun _ => Reads.pure _)
  | auxOutputHwId r => exact Judges.of (Reads.last (Reads.auxOutputHwId hs r) fun _ => Reads.pure _)
  | other ty data =>
    have : (parseBody ty : Spec (Record List)) = (do let d ← (ParserM.rest : Spec (List Byte)); Pure.pure (.unknown ty d)) := by
      unfold parseBody
      rcases hw with h2 | h2
      · subst h2; rfl
      · split <;> first | rfl | (exfalso; omega)
    show Judges _ _ (parseBody ty) _ _ _ _
    rw [this]
    exact Judges.last Judges.rest fun _ => Reads.pure _

end Perf
