import Verif.Props.Sound
import Verif.Model.User
import Verif.Spec.Content
/-!
# C77: two records that decode alike are alike
-/
namespace Perf
variable {β γ : Type} [ParseBuf β] [Lawful β] [ParseBuf γ] [Lawful γ] {p : Parser β} {q : Parser γ} {f g : Flat} {o o' : Order}

/-! ## The value determines the content -/

theorem optv_inj {α : Type} {c : Bool} {a b : α} (h : optv c a = optv c b) : c = true → a = b := by
  intro hc; subst hc; simpa [optv] using h

theorem opt_congr {c : Bool} {a b : List Byte} (h : c = true → a = b) : opt c a = opt c b := by
  cases c
  · rfl
  · exact h rfl

theorem KCounter.words_length (rf : U64) (c : KCounter) : (c.words rf).length = 1 + (if rf.getLsbD 2 then 1 else 0) + (if rf.getLsbD 4 then 1 else 0) := by
  unfold KCounter.words; split <;> split <;> rfl

theorem words_total (rf : U64) (cs : List KCounter) :
    (cs.flatMap (KCounter.words rf)).length = cs.length * (1 + (if rf.getLsbD 2 then 1 else 0) + (if rf.getLsbD 4 then 1 else 0)) := by
  induction cs with
  | nil => simp
  | cons c cs ih => rw [List.flatMap_cons, List.length_append, ih, KCounter.words_length, List.length_cons, Nat.succ_mul, Nat.add_comm]

theorem KGroup.enc_value {rf : U64} {a b : KGroup} (h : a.readGroup rf = b.readGroup rf) : a.enc o rf = b.enc o rf := by
  simp only [KGroup.readGroup, ReadGroup.mk.injEq, true_and] at h
  obtain ⟨h1, h2, h3⟩ := h
  have hl : a.counters.length = b.counters.length := by
    have := congrArg List.length h3
    rw [words_total, words_total] at this
    exact Nat.eq_of_mul_eq_mul_right (by omega) this
  unfold KGroup.enc
  rw [hl, h3]
  have e1 : opt (rf.getLsbD 0) (e64 o a.timeEnabled) = opt (rf.getLsbD 0) (e64 o b.timeEnabled) :=
    opt_congr fun hc => by rw [hc] at h1; simpa using congrArg (e64 o) h1
  have e2 : opt (rf.getLsbD 1) (e64 o a.timeRunning) = opt (rf.getLsbD 1) (e64 o b.timeRunning) :=
    opt_congr fun hc => by rw [hc] at h2; simpa using congrArg (e64 o) h2
  rw [e1, e2]

theorem KRead.enc_value {rf : U64} {a b : KRead} (h : a.readValue rf = b.readValue rf) : a.enc o rf = b.enc o rf := by
  simp only [KRead.readValue, ReadValue.mk.injEq, true_and] at h
  obtain ⟨h1, h2, h3, h4, h5⟩ := h
  unfold KRead.enc
  have e : ∀ (c : Bool) (x y : U64), (if c then x else 0#64) = (if c then y else 0#64) → opt c (e64 o x) = opt c (e64 o y) :=
    fun c x y h => opt_congr fun hc => by rw [hc] at h; simpa using congrArg (e64 o) h
  rw [h1, e _ _ _ h2, e _ _ _ h3, e _ _ _ h4, e _ _ _ h5]

/-- Both counter forms of a sample at once. -/
theorem KSample.encValues_value {rf : U64} {a b : KSample} (h : a.readGroup rf = b.readGroup rf) : a.encValues o rf = b.encValues o rf := by
  unfold KSample.readGroup at h
  unfold KSample.encValues
  cases h3 : rf.getLsbD 3
  · simp only [h3, Bool.false_eq_true, if_false, ReadGroup.mk.injEq, true_and] at h ⊢
    obtain ⟨h1, h2, h4⟩ := h
    refine KRead.enc_value ?_
    simp only [KRead.readValue, ReadValue.mk.injEq, true_and]
    unfold KCounter.words at h4
    refine ⟨?_, h1, h2, ?_, ?_⟩ <;> cases h5 : rf.getLsbD 2 <;> cases h6 : rf.getLsbD 4 <;> simp_all
  · simp only [h3, if_true] at h ⊢
    exact KGroup.enc_value h

theorem pad_length {r r' p p' : List Byte} (h : p.length < 8 ∧ (4 + r.length + p.length) % 8 = 0) (h' : p'.length < 8 ∧ (4 + r'.length + p'.length) % 8 = 0)
    (hr : r = r') : p.length = p'.length := by
  subst hr; omega

/-- A sample is determined by its value, up to what `blank` replaces. -/
theorem KSample.enc_value {st rf ru ri : U64} {hw : Bool} {a b : KSample} (ha : st.getLsbD 10 = true → a.rawPad.length < 8 ∧ (4 + a.raw.length + a.rawPad.length) % 8 = 0)
    (hb : st.getLsbD 10 = true → b.rawPad.length < 8 ∧ (4 + b.raw.length + b.rawPad.length) % 8 = 0)
    (h : a.value st rf ru ri hw = b.value st rf ru ri hw) : (a.blank st).enc o st rf hw = (b.blank st).enc o st rf hw := by
  simp only [KSample.value, Sample.mk.injEq] at h
  obtain ⟨h0, h1, h1', h2, h3, hid, h9, h7, h8, h4, h5, h10, hhw, h11, h12, h13, hwt, h15, h17, h18, h19, h20, h21, h22, h23⟩ := h
  have w : ∀ {c : Bool} {x y : U64}, optv c x = optv c y → opt c (e64 o x) = opt c (e64 o y) :=
    fun h => opt_congr fun hc => by rw [optv_inj h hc]
  unfold KSample.enc KSample.parts
  congr 1
  have hident : opt (st.getLsbD 16) (e64 o (a.blank st).identifier) = opt (st.getLsbD 16) (e64 o (b.blank st).identifier) := by
    refine opt_congr fun hc => ?_
    unfold chooseId at hid
    unfold KSample.blank
    cases h6 : st.getLsbD 6 <;> simp_all
  have hi : opt (st.getLsbD 6) (e64 o a.id) = opt (st.getLsbD 6) (e64 o b.id) := by
    refine opt_congr fun hc => ?_
    unfold chooseId at hid
    simp_all
  have hpt : opt (st.getLsbD 1) (e32 o a.pid ++ e32 o a.tid) = opt (st.getLsbD 1) (e32 o b.pid ++ e32 o b.tid) :=
    opt_congr fun hc => by rw [optv_inj h1 hc, optv_inj h1' hc]
  have hcpu : opt (st.getLsbD 7) (e32 o a.cpu ++ e32 o (a.blank st).res) = opt (st.getLsbD 7) (e32 o b.cpu ++ e32 o (b.blank st).res) :=
    opt_congr fun hc => by rw [optv_inj h7 hc]; rfl
  have hval : opt (st.getLsbD 4) (a.encValues o rf) = opt (st.getLsbD 4) (b.encValues o rf) :=
    opt_congr fun hc => KSample.encValues_value (optv_inj h4 hc)
  have hcc : opt (st.getLsbD 5) (a.encCallchain o) = opt (st.getLsbD 5) (b.encCallchain o) :=
    opt_congr fun hc => by unfold KSample.encCallchain; rw [optv_inj h5 hc]
  have hraw : opt (st.getLsbD 10) ((a.blank st).encRaw o) = opt (st.getLsbD 10) ((b.blank st).encRaw o) :=
    opt_congr fun hc => by
      have := pad_length (ha hc) (hb hc) (optv_inj h10 hc)
      unfold KSample.encRaw KSample.blank
      simp only [this, optv_inj h10 hc]
  have hlbr : opt (st.getLsbD 11) (a.encLbr o hw) = opt (st.getLsbD 11) (b.encLbr o hw) :=
    opt_congr fun hc => by
      unfold KSample.encLbr
      rw [optv_inj h11 hc, opt_congr (a := e64 o a.lbrHwIndex) (b := e64 o b.lbrHwIndex) fun h => by rw [optv_inj hhw (by rw [hc, h]; rfl)]]
  have hreg : ∀ {c : Bool} {m : U64} {x y : KRegs}, optv c (⟨x.abi, m, x.values⟩ : Registers List) = optv c ⟨y.abi, m, y.values⟩ →
      opt c (x.enc o) = opt c (y.enc o) := by
    intro c m x y h
    refine opt_congr fun hc => ?_
    have := optv_inj h hc
    simp only [Registers.mk.injEq, true_and] at this
    unfold KRegs.enc
    rw [this.1, this.2]
  have hst : opt (st.getLsbD 13) ((a.blank st).encStack o) = opt (st.getLsbD 13) ((b.blank st).encStack o) :=
    opt_congr fun hc => by
      unfold KSample.encStack KSample.blank
      simp only [optv_inj h13 hc]
  have haux : opt (st.getLsbD 20) (a.encAux o) = opt (st.getLsbD 20) (b.encAux o) :=
    opt_congr fun hc => by unfold KSample.encAux; rw [optv_inj h20 hc]
  simp only [List.cons.injEq, and_true]
  exact ⟨hident, w h0, hpt, w h2, w h3, hi, w h9, hcpu, w h8, hval, hcc, hraw, hlbr, hreg h12, hst, w hwt, w h15, w h17, hreg h18, w h19, w h21,
    w h22, w h23, haux⟩

theorem KTrailer.enc_value {st : U64} {a b : KTrailer} (h : a.value st = b.value st) : (a.blank st).enc o st = (b.blank st).enc o st := by
  simp only [KTrailer.value, SampleId.mk.injEq] at h
  obtain ⟨h1, h1', h2, hid, h9, h7⟩ := h
  have w : ∀ {c : Bool} {x y : U64}, optv c x = optv c y → opt c (e64 o x) = opt c (e64 o y) :=
    fun h => opt_congr fun hc => by rw [optv_inj h hc]
  have hident : opt (st.getLsbD 16) (e64 o (a.blank st).identifier) = opt (st.getLsbD 16) (e64 o (b.blank st).identifier) := by
    refine opt_congr fun hc => ?_
    unfold chooseId at hid
    unfold KTrailer.blank
    cases h6 : st.getLsbD 6 <;> simp_all
  have hi : opt (st.getLsbD 6) (e64 o a.id) = opt (st.getLsbD 6) (e64 o b.id) := by
    refine opt_congr fun hc => ?_
    unfold chooseId at hid
    simp_all
  unfold KTrailer.enc
  have hpt : opt (st.getLsbD 1) (e32 o a.pid ++ e32 o a.tid) = opt (st.getLsbD 1) (e32 o b.pid ++ e32 o b.tid) :=
    opt_congr fun hc => by rw [optv_inj h1 hc, optv_inj h1' hc]
  have hcpu : opt (st.getLsbD 7) (e32 o a.cpu ++ e32 o (a.blank st).res) = opt (st.getLsbD 7) (e32 o b.cpu ++ e32 o (b.blank st).res) :=
    opt_congr fun hc => by rw [optv_inj h7 hc]; rfl
  have e1 := w h2
  have e2 := w h9
  rw [show (a.blank st).pid = a.pid from rfl, show (a.blank st).tid = a.tid from rfl, show (a.blank st).time = a.time from rfl,
    show (a.blank st).id = a.id from rfl, show (a.blank st).streamId = a.streamId from rfl, show (a.blank st).cpu = a.cpu from rfl,
    hpt, e1, hi, e2, hcpu, hident]
  rfl

theorem KName.enc_value {a b : KName} (h : a.text = b.text) : a.blank.enc = b.blank.enc := by
  unfold KName.enc KName.blank
  rw [h]

theorem KDetail.enc_value {a b : KDetail} (h : a.value = b.value) : a.blank.enc o = b.blank.enc o := by
  cases a <;> cases b <;> simp only [KDetail.value, reduceCtorEq, MmapDetail.default.injEq, MmapDetail.buildId.injEq] at h
  · obtain ⟨rfl, rfl, rfl, rfl⟩ := h; rfl
  · obtain ⟨rfl, rfl⟩ := h; rfl

/-- Padding is as long as it has to be. -/
def KBody.Padded (st : U64) : KBody → Prop
  | .sample s => st.getLsbD 10 = true → s.rawPad.length < 8 ∧ (4 + s.raw.length + s.rawPad.length) % 8 = 0
  | .textPoke _ old new pad => pad.length < 8 ∧ (old.length + new.length + pad.length) % 8 = 4
  | _ => True

theorem KBody.Formed.padded {cfg : ParseConfig} {misc : U16} {b : KBody} (h : b.Formed cfg misc) : b.Padded cfg.sampleType := by
  cases b with
  | sample s =>
    have h : s.Formed cfg.sampleType cfg.readFormat cfg.regsUser cfg.regsIntr := h
    exact fun hc => (h.raw hc).2
  | textPoke => exact h.2.2
  | _ => trivial

theorem KBody.enc_value {cfg cfg' : ParseConfig} (hc : cfg.config = cfg'.config) {misc : U16} {a b : KBody} (ha : a.Padded cfg.sampleType)
    (hb : b.Padded cfg.sampleType)
    (h : a.value cfg misc = b.value cfg' misc) :
    a.type = b.type ∧ (a.blank cfg.sampleType).enc o cfg = (b.blank cfg.sampleType).enc o cfg := by
  have hrf : cfg'.readFormat = cfg.readFormat := by unfold ParseConfig.readFormat; rw [hc]
  have hst : cfg'.sampleType = cfg.sampleType := by unfold ParseConfig.sampleType; rw [hc]
  have hru : cfg'.regsUser = cfg.regsUser := by unfold ParseConfig.regsUser; rw [hc]
  have hri : cfg'.regsIntr = cfg.regsIntr := by unfold ParseConfig.regsIntr; rw [hc]
  have hhw : cfg'.branchHwIndex = cfg.branchHwIndex := by unfold ParseConfig.branchHwIndex; rw [hc]
  cases a <;> cases b <;> first
    | cases h; done
    | (cases h; exact ⟨rfl, rfl⟩)
    | skip
  case mmap.mmap =>
    simp only [KBody.value, Record.mmap.injEq, Mmap.mk.injEq] at h
    obtain ⟨rfl, rfl, rfl, rfl, rfl, h⟩ := h
    exact ⟨rfl, by simp only [KBody.blank, KBody.enc, KName.enc_value h]⟩
  case comm.comm =>
    simp only [KBody.value, Record.comm.injEq, Comm.mk.injEq] at h
    obtain ⟨rfl, rfl, h⟩ := h
    exact ⟨rfl, by simp only [KBody.blank, KBody.enc, KName.enc_value h]⟩
  case read.read =>
    simp only [KBody.value, Record.read.injEq, Read.mk.injEq, hrf] at h
    obtain ⟨rfl, rfl, h⟩ := h
    exact ⟨rfl, by simp only [KBody.blank, KBody.enc, KRead.enc_value h]⟩
  case sample.sample =>
    simp only [KBody.value, Record.sample.injEq, hrf, hst, hru, hri, hhw] at h
    exact ⟨rfl, by simp only [KBody.blank, KBody.enc]; exact KSample.enc_value ha hb h⟩
  case mmap2.mmap2 =>
    simp only [KBody.value, Record.mmap2.injEq, Mmap2.mk.injEq] at h
    obtain ⟨rfl, rfl, rfl, rfl, rfl, rfl, rfl, h, h'⟩ := h
    exact ⟨rfl, by simp only [KBody.blank, KBody.enc, KName.enc_value h, KDetail.enc_value h']⟩
  case switchCpuWide.switchCpuWide =>
    simp only [KBody.value] at h
    cases h13 : misc.getLsbD 13 <;> rw [h13] at h <;> cases h <;> exact ⟨rfl, rfl⟩
  case ksymbol.ksymbol =>
    simp only [KBody.value, Record.ksymbol.injEq, KSymbol.mk.injEq] at h
    obtain ⟨rfl, rfl, rfl, rfl, h⟩ := h
    exact ⟨rfl, by simp only [KBody.blank, KBody.enc, KName.enc_value h]⟩
  case cgroup.cgroup =>
    simp only [KBody.value, Record.cgroup.injEq, CGroup.mk.injEq] at h
    obtain ⟨rfl, h⟩ := h
    exact ⟨rfl, by simp only [KBody.blank, KBody.enc, KName.enc_value h]⟩
  case textPoke.textPoke =>
    simp only [KBody.value, Record.textPoke.injEq, TextPoke.mk.injEq] at h
    obtain ⟨rfl, rfl, rfl⟩ := h
    obtain ⟨h1, h2⟩ := ha
    obtain ⟨h3, h4⟩ := hb
    refine ⟨rfl, ?_⟩
    simp only [KBody.blank, KBody.enc]
    have hl : ∀ {x y n m : Nat}, x < 8 → (n + m + x) % 8 = 4 → y < 8 → (n + m + y) % 8 = 4 → x = y := by omega
    rw [hl h1 h2 h3 h4]

theorem KBody.blank_type (st : U64) (b : KBody) : (b.blank st).type = b.type := by cases b <;> rfl

/-- Records with the same value and metadata have the same content. -/
theorem KRecord.enc_value {cfg cfg' : ParseConfig} (hc : cfg.config = cfg'.config) {r r' : KRecord} (ha : r.body.Formed cfg r.misc)
    (hb : r'.body.Formed cfg r'.misc) (h : r.body.value cfg r.misc = r'.body.value cfg' r'.misc) (hm : r.metadata cfg = r'.metadata cfg') (o : Order) :
    (r.blank cfg).enc o cfg = (r'.blank cfg).enc o cfg := by
  have hst : cfg'.sampleType = cfg.sampleType := by unfold ParseConfig.sampleType; rw [hc]
  have hall : cfg'.sampleIdAll = cfg.sampleIdAll := by unfold ParseConfig.sampleIdAll; rw [hc]
  simp only [KRecord.metadata, Metadata.mk.injEq] at hm
  obtain ⟨hty, hmisc, hid⟩ := hm
  rw [← hmisc] at hb h
  have hbody := (KBody.enc_value (o := o) hc ha.padded hb.padded h).2
  have htr : (r.blank cfg).encTrailer o cfg = (r'.blank cfg).encTrailer o cfg := by
    simp only [KRecord.encTrailer, KRecord.blank, KBody.blank_type]
    rw [hall, ← hty, hst] at hid
    rw [← hty]
    split
    · rename_i hcnd
      rw [if_pos hcnd, if_pos hcnd] at hid
      exact KTrailer.enc_value hid
    · rfl
  have hsz : (r.blank cfg).size o cfg = (r'.blank cfg).size o cfg := by
    unfold KRecord.size
    rw [htr]
    show 8 + ((r.body.blank cfg.sampleType).enc o cfg).length + _ = 8 + ((r'.body.blank cfg.sampleType).enc o cfg).length + _
    rw [hbody]
  unfold KRecord.enc
  rw [htr, hsz]
  simp only [KRecord.blank, KBody.blank_type, hty, hmisc, hbody]

/-! ## What is left out is left out -/

/-- What `blank` replaces does not show in the value. -/
theorem KBody.blank_value {cfg : ParseConfig} {misc : U16} {b : KBody}
    (hr : ∀ s, b = .sample s → cfg.sampleType.getLsbD 13 = true → s.stack.length < 2 ^ 64) :
    (b.blank cfg.sampleType).value cfg misc = b.value cfg misc := by
  cases b with
  | sample s =>
    simp only [KBody.blank, KBody.value, KSample.value, KSample.blank, Record.sample.injEq, Sample.mk.injEq, true_and, and_true]
    refine ⟨?_, rfl, ?_⟩
    · unfold chooseId
      cases h6 : cfg.sampleType.getLsbD 6 <;> simp
    · cases h13 : cfg.sampleType.getLsbD 13 with
      | false => rfl
      | true =>
        refine congrArg (optv _) ?_
        have h1 := hr s rfl h13
        have : ∀ l : List Byte, l.length < 2 ^ 64 → (if l = [] then [] else l.take (BitVec.ofNat 64 l.length).toNat) = l := by
          intro l hl
          rw [BitVec.toNat_ofNat, Nat.mod_eq_of_lt hl, List.take_length]
          split
          · rename_i h; exact h.symm
          · rfl
        refine this _ ?_
        split
        · simp
        · rw [List.length_take]; omega
  | mmap2 pid tid addr len pgoff detail prot flags name => cases detail <;> rfl
  | _ => rfl

theorem KTrailer.blank_value (st : U64) (t : KTrailer) : (t.blank st).value st = t.value st := by
  simp only [KTrailer.value, KTrailer.blank, SampleId.mk.injEq, true_and, and_true]
  unfold chooseId
  cases h6 : st.getLsbD 6 <;> simp

/-- **C77** What `blank` replaces does not show in the value. -/
theorem c77_blank {cfg : ParseConfig} {r : KRecord} (hr : r.body.Formed cfg r.misc) :
    (r.blank cfg).body.value cfg r.misc = r.body.value cfg r.misc ∧ (r.blank cfg).metadata cfg = r.metadata cfg := by
  refine ⟨KBody.blank_value fun s hs h13 => ?_, ?_⟩
  · rw [hs] at hr
    have hr : s.Formed cfg.sampleType cfg.readFormat cfg.regsUser cfg.regsIntr := hr
    exact (hr.stack h13).1
  · simp only [KRecord.metadata, KRecord.blank, KBody.blank_type, KTrailer.blank_value]

/-- **C77** Where nothing is left out, the content is the bytes. -/
theorem c77_blank_complete {cfg : ParseConfig} {r : KRecord} (h : r.body.complete cfg.sampleType = true)
    (ht : cfg.sampleIdAll = true → trailerComplete cfg.sampleType = true) : (r.blank cfg).enc o cfg = r.enc o cfg := by
  have hb : (r.body.blank cfg.sampleType).enc o cfg = r.body.enc o cfg := by
    cases hr : r.body with
    | sample s =>
      rw [hr] at h
      simp only [KBody.complete, Bool.and_eq_true, Bool.not_eq_true', Bool.and_eq_false_iff] at h
      obtain ⟨⟨⟨h7, h6⟩, h10⟩, h13⟩ := h
      simp only [KBody.blank, KBody.enc, KSample.enc]
      congr 1
      have hident : opt (cfg.sampleType.getLsbD 16) (e64 o (s.blank cfg.sampleType).identifier) =
          opt (cfg.sampleType.getLsbD 16) (e64 o s.identifier) := by
        refine opt_congr fun hc => ?_
        rcases h6 with h6 | h6
        · simp only [KSample.blank, h6, Bool.false_eq_true, if_false]
        · rw [h6] at hc; cases hc
      unfold KSample.parts
      rw [hident, h7, h10, h13]
      rfl
    | _ => first
      | rfl
      | (rw [hr] at h; cases h)
  have htr : (r.blank cfg).encTrailer o cfg = r.encTrailer o cfg := by
    simp only [KRecord.encTrailer, KRecord.blank, KBody.blank_type]
    split
    · rename_i hcnd
      simp only [Bool.and_eq_true] at hcnd
      have ht := ht hcnd.1.1
      simp only [trailerComplete, Bool.and_eq_true, Bool.not_eq_true', Bool.and_eq_false_iff] at ht
      obtain ⟨h7, h6⟩ := ht
      have hident : opt (cfg.sampleType.getLsbD 16) (e64 o (r.trailer.blank cfg.sampleType).identifier) =
          opt (cfg.sampleType.getLsbD 16) (e64 o r.trailer.identifier) := by
        refine opt_congr fun hc => ?_
        rcases h6 with h6 | h6
        · simp only [KTrailer.blank, h6, Bool.false_eq_true, if_false]
        · rw [h6] at hc; cases hc
      unfold KTrailer.enc
      rw [hident, h7]
      rfl
    · rfl
  have hsz : (r.blank cfg).size o cfg = r.size o cfg := by
    unfold KRecord.size
    rw [htr]
    show 8 + ((r.body.blank cfg.sampleType).enc o cfg).length + _ = _
    rw [hb]
  unfold KRecord.enc
  rw [htr, hsz]
  simp only [KRecord.blank, KBody.blank_type, hb]

/-! ## C77 -/

theorem KBody.formed_congr {cfg cfg' : ParseConfig} (hc : cfg.config = cfg'.config) {b : KBody} {misc : U16} (h : b.Formed cfg' misc) :
    b.Formed cfg misc := by
  have hrf : cfg'.readFormat = cfg.readFormat := by unfold ParseConfig.readFormat; rw [hc]
  have hst : cfg'.sampleType = cfg.sampleType := by unfold ParseConfig.sampleType; rw [hc]
  have hru : cfg'.regsUser = cfg.regsUser := by unfold ParseConfig.regsUser; rw [hc]
  have hri : cfg'.regsIntr = cfg.regsIntr := by unfold ParseConfig.regsIntr; rw [hc]
  cases b <;> simp only [KBody.Formed, hrf, hst, hru, hri] at h ⊢ <;> exact h

theorem pairVisitor_apply (a : Record Cow) (md : Metadata) :
    ∃ b, pairVisitor.apply a md = .ok (b, md) ∧ b.view = (match a.view with | .unknown _ d => .unknown md.ty d | r => r) := by
  cases a <;> exact ⟨_, rfl, rfl⟩

/-- What C62 says of a record handed to `pairVisitor`. -/
theorem accepted (hp : RepP p f) (hs : Src f.cfg o) (hf : Settled f)
    (h24 : (headerAt f).type_.toNat = 9 → f.cfg.sampleType.getLsbD 24 = false) {a : Record Cow} {md : Metadata} (ha : (P.record pairVisitor p).res = .ok (a, md)) (hr : (headerAt f).type_.toNat = 9 → ∀ s, a.view = .sample s → s.RegsGiven) :
    ∃ (r : KRecord) (extra : List Byte), r.Starts o f.cfg extra f.s.bytes ∧ a.view = r.body.value f.cfg r.misc ∧ md = r.metadata f.cfg ∧
      r.body.Formed f.cfg r.misc ∧ r.body.type = (headerAt f).type_ := by
  rcases c62_visit_partial hp hs hf h24 pairVisitor with ⟨e, h⟩ | ⟨r, a0, h1, h2, h3, hty, h4⟩
  · rw [ha] at h; cases h
  · obtain ⟨b, h5, h6⟩ := pairVisitor_apply a0 (r.metadata f.cfg)
    rw [ha, h5] at h1
    cases h1
    have hv : a.view = r.body.value f.cfg r.misc := by
      rw [h6, h2]
      cases hb : r.body with
      | other ty d => simp only [KBody.value, KRecord.metadata, hb, KBody.type]
      | _ => rfl
    obtain ⟨extra, h7, _⟩ := h4 fun s hs => by
      subst hs
      refine hr ?_ _ (by rw [hv, ← h2]; rfl)
      have h9 : Record.sample s.view = r.body.value f.cfg r.misc := h2
      rw [← hty]
      cases hb : r.body <;> rw [hb] at h9 <;> first
        | rfl
        | cases h9
    exact ⟨r, extra, h7, hv, rfl, h3, hty⟩

/-- **C77** as far as it holds. Two records, in any two buffers and byte orders, with the same settings: if the visitor is given the same
record and the same metadata for both, then they have the same content. Full statement: without `Settled`, `h24` and `RegsGiven`,
which exclude what C62 excludes. -/
theorem c77_content_partial (hp : RepP p f) (hq : RepP q g) (hs : Src f.cfg o) (hs' : Src g.cfg o') (hc : f.cfg.config = g.cfg.config)
    (hf : Settled f) (hg : Settled g) (h24 : f.cfg.sampleType.getLsbD 24 = false) {a b : Record Cow} {md : Metadata}
    (ha : (P.record pairVisitor p).res = .ok (a, md)) (hb : (P.record pairVisitor q).res = .ok (b, md)) (hab : a.view = b.view)
    (hr : ∀ s, a.view = .sample s → s.RegsGiven) :
    ∃ (r r' : KRecord) (extra extra' : List Byte), r.Starts o f.cfg extra f.s.bytes ∧ r'.Starts o' g.cfg extra' g.s.bytes ∧
      a.view = r.body.value f.cfg r.misc ∧ md = r.metadata f.cfg ∧
      ∀ o'', (r.blank f.cfg).enc o'' f.cfg = (r'.blank f.cfg).enc o'' f.cfg := by
  obtain ⟨r, extra, h1, h2, h3, h4, _⟩ := accepted hp hs hf (fun _ => h24) ha fun _ => hr
  obtain ⟨r', extra', h1', h2', h3', h4', _⟩ := accepted hq hs' hg
    (fun _ => by rw [show g.cfg.sampleType = f.cfg.sampleType by unfold ParseConfig.sampleType; rw [hc]]; exact h24) hb (by rw [← hab]; exact fun _ => hr)
  exact ⟨r, r', extra, extra', h1, h1', h2, h3, KRecord.enc_value hc h4 (KBody.formed_congr hc h4') (by rw [← h2, ← h2', hab]) (by rw [← h3, ← h3'])⟩

theorem KBody.complete_type {b : KBody} (st : U64) (h : b.type.toNat ∈ [2, 4, 5, 6, 7, 8, 11, 12, 13, 15, 18, 21]) : b.complete st = true := by
  cases b <;> first
    | rfl
    | (simp [KBody.type] at h)

/-- **C77** for LOST, EXIT, THROTTLE, UNTHROTTLE, FORK, READ, AUX, ITRACE_START, LOST_SAMPLES, SWITCH_CPU_WIDE, BPF_EVENT and
AUX_OUTPUT_HW_ID, when the trailer leaves nothing out: what decodes alike was written with the same bytes (`enc`), each time apart from
bytes between body and trailer that belong to nothing. -/
theorem c77_exact (hp : RepP p f) (hq : RepP q g) (hs : Src f.cfg o) (hs' : Src g.cfg o) (hc : f.cfg.config = g.cfg.config)
    (ht : f.cfg.sampleIdAll = true → trailerComplete f.cfg.sampleType = true)
    (hty : (headerAt f).type_.toNat ∈ [2, 4, 5, 6, 7, 8, 11, 12, 13, 15, 18, 21]) (hty' : (headerAt g).type_ = (headerAt f).type_)
    {a b : Record Cow} {md : Metadata} (ha : (P.record pairVisitor p).res = .ok (a, md)) (hb : (P.record pairVisitor q).res = .ok (b, md))
    (hab : a.view = b.view) :
    ∃ (r r' : KRecord) (extra extra' : List Byte), r.Starts o f.cfg extra f.s.bytes ∧ r'.Starts o g.cfg extra' g.s.bytes ∧
      r.enc o f.cfg = r'.enc o f.cfg := by
  have n : ∀ k, k ∈ [9, 16, 20] → (headerAt f).type_.toNat ≠ k := by
    intro k hk e
    rw [e] at hty
    simp only [List.mem_cons, List.not_mem_nil, or_false] at hk
    rcases hk with rfl | rfl | rfl <;> revert hty <;> decide
  obtain ⟨r, extra, h1, h2, h3, h4, h5⟩ := accepted hp hs (.plain (n 9 (by decide)) (n 16 (by decide)) (n 20 (by decide))) (fun h => absurd h (n 9 (by decide))) ha
    fun h => absurd h (n 9 (by decide))
  obtain ⟨r', extra', h1', h2', h3', h4', h5'⟩ := accepted hq hs' (.plain (hty' ▸ n 9 (by decide)) (hty' ▸ n 16 (by decide)) (hty' ▸ n 20 (by decide)))
    (fun h => absurd h (hty' ▸ n 9 (by decide))) hb fun h => absurd h (hty' ▸ n 9 (by decide))
  have h := KRecord.enc_value hc h4 (KBody.formed_congr hc h4') (by rw [← h2, ← h2', hab]) (by rw [← h3, ← h3']) o
  rw [c77_blank_complete (KBody.complete_type _ (by rw [h5]; exact hty)) ht,
    c77_blank_complete (KBody.complete_type _ (by rw [h5', hty']; exact hty)) ht] at h
  exact ⟨r, r', extra, extra', h1, h1', h⟩

/-! ## Cases -/

/-- Two COMM records with the name `ab`, padded with 6 NULs and with 14. -/
def comm6 : List Byte := [3, 0, 0, 0, 0, 0, 24, 0, 1, 0, 0, 0, 2, 0, 0, 0, 0x61, 0x62, 0, 0, 0, 0, 0, 0]
def comm14 : List Byte := [3, 0, 0, 0, 0, 0, 32, 0, 1, 0, 0, 0, 2, 0, 0, 0, 0x61, 0x62, 0, 0, 0, 0, 0, 0, 0, 0, 0, 0, 0, 0, 0, 0]
/-- And one with the name `ac`. -/
def commAc : List Byte := [3, 0, 0, 0, 0, 0, 24, 0, 1, 0, 0, 0, 2, 0, 0, 0, 0x61, 0x63, 0, 0, 0, 0, 0, 0]

/-- What a COMM or LOST record in a slice decodes to. -/
def decoded (d : List Byte) : Option (U32 × U16 × List Nat × List Byte) :=
  match (P.record pairVisitor (Parser.new (⟨0, d⟩ : Slice) demoCfg)).res with
  | .ok (.comm c, md) => some (md.ty, md.misc, [c.pid.toNat, c.tid.toNat], c.comm.data)
  | .ok (.lost l, md) => some (md.ty, md.misc, [l.id.toNat, l.lost.toNat], [])
  | _ => none

/-- The bytes differ, the values do not, so C77 cannot say more about names; the content is the same, as it says. -/
example : comm6 ≠ comm14 ∧ decoded comm6 = decoded comm14 ∧ (decoded comm6).isSome = true := by decide +kernel
example : comm6 = (KRecord.mk 0 (.comm 1 2 ⟨[0x61, 0x62], 6⟩) ⟨0, 0, 0, 0, 0, 0, 0, 0⟩).enc .little demoCfg ∧
    comm14 = (KRecord.mk 0 (.comm 1 2 ⟨[0x61, 0x62], 14⟩) ⟨0, 0, 0, 0, 0, 0, 0, 0⟩).enc .little demoCfg ∧
    (KRecord.mk 0 (.comm 1 2 ⟨[0x61, 0x62], 6⟩) ⟨0, 0, 0, 0, 0, 0, 0, 0⟩).blank demoCfg =
      (KRecord.mk 0 (.comm 1 2 ⟨[0x61, 0x62], 14⟩) ⟨0, 0, 0, 0, 0, 0, 0, 0⟩).blank demoCfg := ⟨by decide +kernel, by decide +kernel, rfl⟩
/-- Another name is another value. -/
example : decoded comm6 ≠ decoded commAc ∧ (decoded commAc).isSome = true := by decide +kernel
/-- The hypotheses of `c77_exact`: a LOST record, and another with the same contents and 3 bytes too many. -/
example : (headerAt extraLostFlat).type_.toNat ∈ [2, 4, 5, 6, 7, 8, 11, 12, 13, 15, 18, 21] ∧ demoCfg.sampleIdAll = false ∧
    decoded extraLost = decoded (extraLost.set 6 24) ∧ (decoded extraLost).isSome = true := by decide +kernel

end Perf
