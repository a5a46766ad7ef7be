import Verif.Proof.ISound
/-!
# For the ideal, every accepted body is the kernel's layout of the value returned
-/
namespace Perf
open ParserM
variable {cfg : ParseConfig} {o : Order}

/-! ## Parts of bodies -/

theorem ISound.words (hs : Src cfg o) (n : Nat) :
    ISound cfg (ParserM.slice U64.elem parseU64 n : Ideal (List U64)) fun xs bs => bs = xs.flatMap (e64 o) ∧ xs.length = n :=
  ISound.slice (ISound.u64 hs) n

theorem ISound.cpu (hs : Src cfg o) : ISound cfg (parseCpu : Ideal U32) fun a bs => ∃ v : U32 × U32, a = v.1 ∧ bs = e32 o v.1 ++ e32 o v.2 ∧ True := by
  refine ISound.bind (ISound.u32 hs) fun a bs h => ISound.bind (ISound.u32 hs) fun b cs h' => ISound.pure ⟨(a, b), rfl, ?_, trivial⟩
  subst h h'
  simp

theorem ISound.readValue (hs : Src cfg o) : ISound cfg (parseReadValue : Ideal ReadValue) fun a bs =>
    ∃ v : KRead, a = v.readValue cfg.readFormat ∧ bs = v.enc o cfg.readFormat ∧ cfg.readFormat.getLsbD 3 = false ∧
      cfg.readFormat.getLsbD 5 = false := by
  refine ISound.config (ISound.ite (fun _ => ISound.fail) fun h3 => ISound.ite (fun _ => ISound.fail) fun h5 => ?_)
  have e (m : U64) (i : Nat) (hm : m = 1#64 <<< i) (hi : i < 64) :
    contains cfg.readFormat m = cfg.readFormat.getLsbD i := contains_rf _ i hi m hm
  have h3' : cfg.readFormat.getLsbD 3 = false := by rw [← e ReadFormat.GROUP 3 rfl (by omega)]; simpa using h3
  refine ISound.bind (ISound.u64 hs) fun value b0 h0 => ?_
  refine ISound.bind (ISound.if64 hs _ (e _ 0 rfl (by omega))) fun x b1 ⟨te, hx, h1⟩ => ?_
  refine ISound.bind (ISound.if64 hs _ (e _ 1 rfl (by omega))) fun y b2 ⟨tr, hy, h2⟩ => ?_
  refine ISound.bind (ISound.if64 hs _ (e _ 2 rfl (by omega))) fun z b3 ⟨id, hz, h3⟩ => ?_
  refine ISound.bind (ISound.if64 hs _ (e _ 4 rfl (by omega))) fun w b4 ⟨lost, hw, h4⟩ => ISound.pure ?_
  subst h0 h1 h2 h3 h4 hx hy hz hw
  refine ⟨⟨value, te, tr, id, lost⟩, ?_, ?_, h3', diff_zero_inv _ h5⟩
  · simp only [getD_optv, KRead.readValue]
  · simp [KRead.enc]

theorem ISound.readGroup (hs : Src cfg o) : ISound cfg (parseReadGroup : Ideal (ReadGroup List)) fun a bs =>
    ∃ g : KGroup, a = g.readGroup cfg.readFormat ∧ bs = g.enc o cfg.readFormat ∧ g.counters.length < 2 ^ 64 ∧
      cfg.readFormat.getLsbD 5 = false := by
  refine ISound.config (ISound.ite (fun _ => ISound.fail) fun h3 => ISound.ite (fun _ => ISound.fail) fun h5 => ?_)
  have e (m : U64) (i : Nat) (hm : m = 1#64 <<< i) (hi : i < 64) :
    contains cfg.readFormat m = cfg.readFormat.getLsbD i := contains_rf _ i hi m hm
  refine ISound.bind (ISound.u64 hs) fun nr b0 h0 => ?_
  refine ISound.bind (ISound.if64 hs _ (e _ 0 rfl (by omega))) fun x b1 ⟨te, hx, h1⟩ => ?_
  refine ISound.bind (ISound.if64 hs _ (e _ 1 rfl (by omega))) fun y b2 ⟨tr, hy, h2⟩ => ?_
  refine ISound.ite (fun _ => ISound.fail) fun _ => ?_
  refine ISound.bind (ISound.words hs _) fun data b3 ⟨hd, hl⟩ => ISound.pure ?_
  obtain ⟨cs, hc, hw⟩ := words_exist cfg.readFormat nr.toNat data (by omega)
  rw [List.take_of_length_le (by omega)] at hw
  subst h0 h1 h2 hx hy hd
  refine ⟨⟨te, tr, cs⟩, ?_, ?_, by rw [hc]; exact nr.isLt, diff_zero_inv _ h5⟩
  · simp only [getD_optv, KGroup.readGroup, hw]
  · simp only [KGroup.enc, ofNat_toNat64 nr hc, hw]
    simp

/-- Counter values in a sample: a group, or a single counter turned into one. -/
theorem ISound.values (hs : Src cfg o) : ISound cfg (parseValues : Ideal (ReadGroup List)) fun a bs =>
    ∃ v : KRead × KGroup, a = (if cfg.readFormat.getLsbD 3 then v.2.readGroup cfg.readFormat else
        { readFormat := cfg.readFormat ||| 8#64
          timeEnabled := if cfg.readFormat.getLsbD 0 then v.1.timeEnabled else 0#64
          timeRunning := if cfg.readFormat.getLsbD 1 then v.1.timeRunning else 0#64
          data := KCounter.words cfg.readFormat ⟨v.1.value, v.1.id, v.1.lost⟩ }) ∧
      bs = (if cfg.readFormat.getLsbD 3 then v.2.enc o cfg.readFormat else v.1.enc o cfg.readFormat) ∧
      ((cfg.readFormat.getLsbD 3 = true → v.2.counters.length < 2 ^ 64) ∧ cfg.readFormat.getLsbD 5 = false) := by
  refine ISound.config ?_
  have e (m : U64) (i : Nat) (hm : m = 1#64 <<< i) (hi : i < 64) :
    contains cfg.readFormat m = cfg.readFormat.getLsbD i := contains_rf _ i hi m hm
  have e3 := e ReadFormat.GROUP 3 rfl (by omega)
  have e2 := e ReadFormat.ID 2 rfl (by omega)
  have e4 := e ReadFormat.LOST 4 rfl (by omega)
  refine ISound.ite (fun h3 => ?_) fun h3 => ?_
  · rw [e3] at h3
    refine (ISound.readGroup hs).mono ?_
    rintro a bs ⟨g, h1, h2, h4, h5⟩
    refine ⟨(⟨0, 0, 0, 0, 0⟩, g), ?_, ?_, fun _ => h4, h5⟩
    · rw [if_pos h3]; exact h1
    · rw [if_pos h3]; exact h2
  · rw [e3] at h3
    refine ISound.bind (ISound.readValue hs) fun a bs ⟨v, h1, h2, _, h5⟩ => ISound.pure ?_
    subst h1 h2
    refine ⟨(v, ⟨0, 0, []⟩), ?_, ?_, fun h => absurd h h3, h5⟩
    · rw [if_neg h3]
      unfold ReadGroup.ofValue KRead.readValue KCounter.words
      simp only [ReadValue.getId, ReadValue.getLost, e2, e4, thenSome]
      cases cfg.readFormat.getLsbD 2 <;> cases cfg.readFormat.getLsbD 4 <;> rfl
    · rw [if_neg h3, List.append_nil]

theorem ISound.callchain (hs : Src cfg o) : ISound cfg (parseCallchain : Ideal (List U64)) fun a bs =>
    ∃ v : List U64, a = v ∧ bs = e64 o (BitVec.ofNat 64 v.length) ++ v.flatMap (e64 o) ∧ v.length < 2 ^ 64 := by
  refine ISound.bind (ISound.u64 hs) fun nr b0 h0 => ?_
  refine (ISound.words hs _).mono ?_
  rintro xs bs ⟨rfl, hl⟩
  subst h0
  exact ⟨xs, rfl, by rw [ofNat_toNat64 nr hl], by rw [hl]; exact nr.isLt⟩

theorem ISound.raw (hs : Src cfg o) : ISound cfg (ParserM.padded 8 parseRawInner : Ideal (List Byte)) fun a bs =>
    ∃ v : List Byte × List Byte, a = v.1 ∧ bs = e32 o (BitVec.ofNat 32 v.1.length) ++ v.1 ++ v.2 ∧
      (v.1.length < 2 ^ 32 ∧ v.2.length < 8 ∧ (4 + v.1.length + v.2.length) % 8 = 0) := by
  have hin : ISound cfg (parseRawInner : Ideal (List Byte)) fun a bs => bs = e32 o (BitVec.ofNat 32 a.length) ++ a ∧ a.length < 2 ^ 32 := by
    refine ISound.bind (ISound.u32 hs) fun size b0 h0 => (ISound.take _).mono ?_
    rintro a bs ⟨rfl, hl⟩
    subst h0
    refine ⟨?_, by rw [hl]; exact size.isLt⟩
    rw [hl, show BitVec.ofNat 32 size.toNat = size by simp]
  refine (ISound.padded hin 8 (by decide)).mono ?_
  rintro a bs ⟨x, pad, rfl, ⟨rfl, hl⟩, hp, hm⟩
  refine ⟨(a, pad), rfl, rfl, hl, hp, ?_⟩
  simpa using hm

theorem ISound.branchEntry (hs : Src cfg o) : ISound cfg (parseBranchEntry : Ideal BranchEntry) fun x bs => bs = encBranch o x := by
  refine ISound.bind (ISound.u64 hs) fun a b0 h0 => ISound.bind (ISound.u64 hs) fun b b1 h1 => ISound.bind (ISound.u64 hs) fun c b2 h2 => ISound.pure ?_
  subst h0 h1 h2
  simp [encBranch]

theorem ISound.lbr (hs : Src cfg o) (hw : Bool) : ISound cfg (parseLbr hw : Ideal (List BranchEntry × Option U64)) fun a bs =>
    ∃ v : U64 × List BranchEntry, a = (v.2, optv hw v.1) ∧
      bs = e64 o (BitVec.ofNat 64 v.2.length) ++ opt hw (e64 o v.1) ++ v.2.flatMap (encBranch o) ∧ v.2.length < 2 ^ 64 := by
  refine ISound.bind (ISound.u64 hs) fun nr b0 h0 => ?_
  refine ISound.bind (ISound.if64 hs hw rfl) fun x b1 ⟨idx, hx, h1⟩ => ?_
  refine ISound.bind (ISound.slice (ISound.branchEntry hs) _) fun xs b2 ⟨h2, hl⟩ => ISound.pure ?_
  subst h0 hx h1 h2
  exact ⟨(idx, xs), rfl, by simp [ofNat_toNat64 nr hl], by rw [hl]; exact nr.isLt⟩

/-- Registers: none under `PERF_SAMPLE_REGS_ABI_NONE`, else all the values of the mask. -/
theorem ISound.regs (hs : Src cfg o) (mask : U64) : ISound cfg (mendedRegisters mask : Ideal (Registers List)) fun a bs =>
    ∃ v : KRegs, a = ⟨v.abi, mask, v.values⟩ ∧ bs = v.enc o ∧ v.Written mask := by
  refine ISound.bind (ISound.u64 hs) fun abi b0 h0 => ?_
  have hr : ISound cfg (mendedRegs abi mask : Ideal (List U64)) fun xs bs =>
      bs = (if abi = 0#64 then [] else xs.flatMap (e64 o)) ∧ (if abi = 0#64 then xs = [] else xs.length = popcount mask) := by
    unfold mendedRegs
    refine ISound.ite (fun h => ?_) fun h => ?_
    · simp only [if_pos h]
      exact ISound.pure ⟨rfl, rfl⟩
    · simp only [if_neg h]
      exact ISound.words hs _
  refine ISound.bind hr fun xs b1 ⟨h1, hl⟩ => ISound.pure ?_
  subst h0 h1
  exact ⟨⟨abi, xs⟩, rfl, by simp [KRegs.enc], hl⟩

theorem ISound.stack (hs : Src cfg o) : ISound cfg (parseStackUser : Ideal (List Byte)) fun a bs =>
    ∃ v : List Byte × U64, a = (if v.1 = [] then [] else v.1.take v.2.toNat) ∧
      bs = e64 o (BitVec.ofNat 64 v.1.length) ++ v.1 ++ (if v.1 = [] then [] else e64 o v.2) ∧
      (v.1.length < 2 ^ 64 ∧ (v.1 ≠ [] → v.2.toNat ≤ v.1.length)) := by
  refine ISound.bind (ISound.u64 hs) fun size b0 h0 => ?_
  refine ISound.bind (ISound.take _) fun data b1 ⟨h1, hl⟩ => ?_
  subst h0 h1
  have hlt : b1.length < 2 ^ 64 := by rw [hl]; exact size.isLt
  by_cases hz : size.toNat = 0
  · have : (parseDynSize size : Ideal U64) = Pure.pure 0#64 := by unfold parseDynSize; rw [if_pos hz]
    rw [this]
    have hb : b1 = [] := List.length_eq_zero_iff.1 (hl.trans hz)
    subst hb
    refine ISound.bind (ISound.pure (Q := fun a bs => bs = [] ∧ a = 0#64) ⟨rfl, rfl⟩) fun d b2 ⟨h2, h3⟩ => ?_
    subst h2 h3
    refine ISound.ite (fun _ => ISound.fail) fun _ => ISound.pure ?_
    refine ⟨([], 0#64), by simp; rfl, ?_, by simp, by simp⟩
    rw [ofNat_toNat64 size hl]
    simp
  · have : (parseDynSize size : Ideal U64) = parseU64 := by unfold parseDynSize; rw [if_neg hz]
    rw [this]
    have hb : b1 ≠ [] := by intro h; rw [h] at hl; simp at hl; omega
    refine ISound.bind (ISound.u64 hs) fun d b2 h2 => ?_
    subst h2
    refine ISound.ite (fun _ => ISound.fail) fun hle => ISound.pure ?_
    refine ⟨(b1, d), by rw [if_neg hb]; rfl, ?_, hlt, fun _ => ?_⟩
    · rw [ofNat_toNat64 size hl, if_neg hb]; simp
    · have hle : ¬ d.toNat > b1.length := hle
      show d.toNat ≤ b1.length
      omega

theorem ISound.auxData (hs : Src cfg o) : ISound cfg (parseAuxData : Ideal (List Byte)) fun a bs =>
    ∃ v : List Byte, a = v ∧ bs = e64 o (BitVec.ofNat 64 v.length) ++ v ∧ v.length < 2 ^ 64 := by
  refine ISound.bind (ISound.u64 hs) fun size b0 h0 => (ISound.take _).mono ?_
  rintro a bs ⟨rfl, hl⟩
  subst h0
  exact ⟨bs, rfl, by rw [ofNat_toNat64 size hl], by rw [hl]; exact size.isLt⟩

/-! ## Samples -/

theorem ISound.sample (hs : Src cfg o) :
    ISound cfg (mendedSample : Ideal (Sample List)) fun a bs => ∃ s : KSample,
      a = s.value cfg.sampleType cfg.readFormat cfg.regsUser cfg.regsIntr cfg.branchHwIndex ∧
      s.Written cfg.sampleType cfg.readFormat cfg.regsUser cfg.regsIntr ∧
      bs = s.enc o cfg.sampleType cfg.readFormat cfg.branchHwIndex := by
  refine ISound.config ?_
  have e (m : U64) (i : Nat) (hm : m = 1#64 <<< i) (hi : i < 64) :
    contains cfg.sampleType m = cfg.sampleType.getLsbD i := contains_rf _ i hi m hm
  refine ISound.bind (ISound.if64 hs _ (e _ 16 rfl (by omega))) fun x0 b0 ⟨identifier, hx0, h0⟩ => ?_
  refine ISound.bind (ISound.if64 hs _ (e _ 0 rfl (by omega))) fun x1 b1 ⟨ip, hx1, h1⟩ => ?_
  refine ISound.bind (ISound.if32 hs _ (e _ 1 rfl (by omega))) fun x2 b2 ⟨pid, hx2, h2⟩ => ?_
  refine ISound.bind (ISound.if32 hs _ (e _ 1 rfl (by omega))) fun x3 b3 ⟨tid, hx3, h3⟩ => ?_
  refine ISound.bind (ISound.if64 hs _ (e _ 2 rfl (by omega))) fun x4 b4 ⟨time, hx4, h4⟩ => ?_
  refine ISound.bind (ISound.if64 hs _ (e _ 3 rfl (by omega))) fun x5 b5 ⟨addr, hx5, h5⟩ => ?_
  refine ISound.bind (ISound.if64 hs _ (e _ 6 rfl (by omega))) fun x6 b6 ⟨id, hx6, h6⟩ => ?_
  refine ISound.bind (ISound.if64 hs _ (e _ 9 rfl (by omega))) fun x7 b7 ⟨streamId, hx7, h7⟩ => ?_
  refine ISound.bind (ISound.parseIfEnc (fun v : U32 × U32 => e32 o v.1 ++ e32 o v.2) (fun v => v.1) (fun _ => True) (0, 0) _
    (e _ 7 rfl (by omega)) fun _ => ISound.cpu hs) fun x8 b8 ⟨cpu, hx8, h8, _⟩ => ?_
  refine ISound.bind (ISound.if64 hs _ (e _ 8 rfl (by omega))) fun x9 b9 ⟨period, hx9, h9⟩ => ?_
  refine ISound.bind (ISound.parseIfEnc (V := KRead × KGroup) _ _ _ (⟨0, 0, 0, 0, 0⟩, ⟨0, 0, []⟩) _ (e _ 4 rfl (by omega)) fun _ => ISound.values hs)
    fun x10 b10 ⟨values, hx10, h10, k10⟩ => ?_
  refine ISound.bind (ISound.parseIfEnc (V := List U64) _ _ _ [] _ (e _ 5 rfl (by omega)) fun _ => ISound.callchain hs)
    fun x11 b11 ⟨callchain, hx11, h11, k11⟩ => ?_
  refine ISound.bind (ISound.parseIfEnc (V := List Byte × List Byte) _ _ _ ([], []) _ (e _ 10 rfl (by omega)) fun _ => ISound.raw hs)
    fun x12 b12 ⟨raw, hx12, h12, k12⟩ => ?_
  refine ISound.bind (ISound.parseIfEnc (V := U64 × List BranchEntry) _ _ _ (0, []) _ (e _ 11 rfl (by omega)) fun _ => ISound.lbr hs _)
    fun x13 b13 ⟨lbr, hx13, h13, k13⟩ => ?_
  refine ISound.bind (ISound.parseIfEnc (V := KRegs) _ _ _ ⟨0, []⟩ _ (e _ 12 rfl (by omega)) fun _ => ISound.config (ISound.regs hs _))
    fun x14 b14 ⟨ru, hx14, h14, k14⟩ => ?_
  refine ISound.bind (ISound.parseIfEnc (V := List Byte × U64) _ _ _ ([], 0) _ (e _ 13 rfl (by omega)) fun _ => ISound.stack hs)
    fun x15 b15 ⟨stack, hx15, h15, k15⟩ => ?_
  refine ISound.bind (ISound.if64 hs (cfg.sampleType.getLsbD 14 || cfg.sampleType.getLsbD 24) (by
    rw [e SampleFlags.WEIGHT 14 rfl (by omega), e SampleFlags.WEIGHT_STRUCT 24 rfl (by omega)])) fun x16 b16 ⟨weight, hx16, h16⟩ => ?_
  refine ISound.bind (ISound.if64 hs _ (e _ 15 rfl (by omega))) fun x17 b17 ⟨dataSrc, hx17, h17⟩ => ?_
  refine ISound.bind (ISound.if64 hs _ (e _ 17 rfl (by omega))) fun x18 b18 ⟨transaction, hx18, h18⟩ => ?_
  refine ISound.bind (ISound.parseIfEnc (V := KRegs) _ _ _ ⟨0, []⟩ _ (e _ 18 rfl (by omega)) fun _ => ISound.config (ISound.regs hs _))
    fun x19 b19 ⟨ri, hx19, h19, k19⟩ => ?_
  refine ISound.bind (ISound.if64 hs _ (e _ 19 rfl (by omega))) fun x20 b20 ⟨physAddr, hx20, h20⟩ => ?_
  refine ISound.bind (ISound.if64 hs _ (e _ 21 rfl (by omega))) fun x21 b21 ⟨cgroup, hx21, h21⟩ => ?_
  refine ISound.bind (ISound.if64 hs _ (e _ 22 rfl (by omega))) fun x22 b22 ⟨dataPageSize, hx22, h22⟩ => ?_
  refine ISound.bind (ISound.if64 hs _ (e _ 23 rfl (by omega))) fun x23 b23 ⟨codePageSize, hx23, h23⟩ => ?_
  refine ISound.bind (ISound.parseIfEnc (V := List Byte) _ _ _ [] _ (e _ 20 rfl (by omega)) fun _ => ISound.auxData hs)
    fun x24 b24 ⟨aux, hx24, h25, k24⟩ => ISound.pure ?_
  refine ⟨{ identifier, ip, pid, tid, time, addr, id, streamId, cpu := cpu.1, res := cpu.2, period, read := values.1, group := values.2
            callchain, raw := raw.1, rawPad := raw.2, lbrHwIndex := lbr.1, lbr := lbr.2, regsUser := ru, stack := stack.1, dynSize := stack.2
            weight, dataSrc, transaction, regsIntr := ri, physAddr, cgroup, dataPageSize, codePageSize, aux }, ?_, ?_, ?_⟩
  · subst hx0 hx1 hx2 hx3 hx4 hx5 hx6 hx7 hx8 hx9 hx10 hx11 hx12 hx13 hx14 hx15 hx16 hx17 hx18 hx19 hx20 hx21 hx22 hx23 hx24
    unfold KSample.value
    simp only [or_optv]
    congr 1
    · cases cfg.sampleType.getLsbD 11 <;> rfl
    · cases cfg.sampleType.getLsbD 11 <;> rfl
  · exact ⟨fun h => (k12 h).2, fun h => (k15 h).2, k14, k19, fun h => (k10 h).2⟩
  · subst h0 h1 h2 h3 h4 h5 h6 h7 h8 h9 h10 h11 h12 h13 h14 h15 h16 h17 h18 h19 h20 h21 h22 h23 h25
    simp only [KSample.enc, KSample.parts, KSample.encValues, KSample.encCallchain, KSample.encRaw, KSample.encLbr, KSample.encStack,
      KSample.encAux, List.flatten_cons, List.flatten_nil, List.append_nil, List.append_assoc, opt_append]

/-! ## Trailers -/

theorem ISound.trailer (hs : Src cfg o) (hall : cfg.sampleIdAll = true) :
    ISound cfg (parseSampleId : Ideal SampleId) fun a bs => ∃ t : KTrailer, a = t.value cfg.sampleType ∧ bs = t.enc o cfg.sampleType := by
  refine ISound.config ?_
  have e (m : U64) (i : Nat) (hm : m = 1#64 <<< i) (hi : i < 64) :
    contains cfg.sampleType m = cfg.sampleType.getLsbD i := contains_rf _ i hi m hm
  refine ISound.ite (fun h => absurd h (by simp [hall])) fun _ => ?_
  refine ISound.bind (ISound.if32 hs _ (e _ 1 rfl (by omega))) fun x2 b2 ⟨pid, hx2, h2⟩ => ?_
  refine ISound.bind (ISound.if32 hs _ (e _ 1 rfl (by omega))) fun x3 b3 ⟨tid, hx3, h3⟩ => ?_
  refine ISound.bind (ISound.if64 hs _ (e _ 2 rfl (by omega))) fun x4 b4 ⟨time, hx4, h4⟩ => ?_
  refine ISound.bind (ISound.if64 hs _ (e _ 6 rfl (by omega))) fun x6 b6 ⟨id, hx6, h6⟩ => ?_
  refine ISound.bind (ISound.if64 hs _ (e _ 9 rfl (by omega))) fun x7 b7 ⟨streamId, hx7, h7⟩ => ?_
  refine ISound.bind (ISound.parseIfEnc (fun v : U32 × U32 => e32 o v.1 ++ e32 o v.2) (fun v => v.1) (fun _ => True) (0, 0) _
    (e _ 7 rfl (by omega)) fun _ => ISound.cpu hs) fun x8 b8 ⟨cpu, hx8, h8, _⟩ => ?_
  refine ISound.bind (ISound.if64 hs _ (e _ 16 rfl (by omega))) fun x0 b0 ⟨identifier, hx0, h0⟩ => ISound.pure ?_
  subst hx0 hx2 hx3 hx4 hx6 hx7 hx8 h0 h2 h3 h4 h6 h7 h8
  refine ⟨⟨pid, tid, time, id, streamId, cpu.1, cpu.2, identifier⟩, ?_, ?_⟩
  · unfold KTrailer.value
    simp only [or_optv]
  · simp only [KTrailer.enc, List.append_nil, List.append_assoc, opt_append]

/-! ## Bodies -/

theorem ISound.mmapDetail (hs : Src cfg o) : ISound cfg (parseMmapDetail : Ideal MmapDetail) fun a bs =>
    ∃ d : KDetail, a = d.value ∧ bs = d.enc o ∧ d.Ok cfg.misc := by
  refine ISound.config (ISound.ite (fun h => ?_) fun h => ?_)
  · have hm : cfg.misc.getLsbD 14 = true := (misc_bit _ 14 _ (by decide) (by omega)).1 h
    refine ISound.bind ISound.u8 fun len b0 h0 => ISound.bind ISound.u8 fun r1 b1 h1 => ISound.bind (ISound.u16 hs) fun r2 b2 h2 =>
      ISound.bind (ISound.take 20) fun id b3 ⟨h3, hl⟩ => ISound.ite (fun _ => ISound.fail) fun hle => ISound.pure ?_
    subst h0 h1 h2 h3
    exact ⟨.buildId len r1 r2 b3, rfl, by simp [KDetail.enc], hm, hl, by omega⟩
  · have hm : cfg.misc.getLsbD 14 = false := by
      rw [← Bool.not_eq_true]
      exact fun h' => h ((misc_bit _ 14 _ (by decide) (by omega)).2 h')
    refine ISound.bind (ISound.u32 hs) fun maj b0 h0 => ISound.bind (ISound.u32 hs) fun min b1 h1 =>
      ISound.bind (ISound.u64 hs) fun ino b2 h2 => ISound.bind (ISound.u64 hs) fun gen b3 h3 => ISound.pure ?_
    subst h0 h1 h2 h3
    exact ⟨.inode maj min ino gen, rfl, by simp [KDetail.enc], hm⟩

theorem ISound.namespaceEntry (hs : Src cfg o) : ISound cfg (parseNamespaceEntry : Ideal NamespaceEntry) fun x bs => bs = e64 o x.dev ++ e64 o x.inode := by
  refine ISound.bind (ISound.u64 hs) fun a b0 h0 => ISound.bind (ISound.u64 hs) fun b b1 h1 => ISound.pure ?_
  subst h0 h1
  simp

/-- A body of type `ty` was laid out as `bs` and stands for the record `a`. -/
def ILaid (cfg : ParseConfig) (o : Order) (ty : U32) (a : Record List) (bs : List Byte) : Prop :=
  ∃ b : KBody, b.type = ty ∧ a = b.value cfg cfg.misc ∧ b.Written cfg cfg.misc ∧ bs = b.enc o cfg

theorem ILaid.mk {ty : U32} {a : Record List} {bs : List Byte} (b : KBody) (h1 : b.type.toNat = ty.toNat) (h2 : a = b.value cfg cfg.misc)
    (h3 : b.Written cfg cfg.misc) (h4 : bs = b.enc o cfg) : ILaid cfg o ty a bs :=
  ⟨b, BitVec.eq_of_toNat_eq h1, h2, h3, h4⟩

theorem ISound.tag {α : Type} {s : Ideal α} {Q : α → List Byte → Prop} {R : Record List → List Byte → Prop} {k : α → Record List} (h : ISound cfg s Q)
    (hr : ∀ a bs, Q a bs → R (k a) bs) : ISound cfg (s >>= fun a => Pure.pure (k a)) R :=
  ISound.bind h fun a bs hq => ISound.pure (by rw [List.append_nil]; exact hr a bs hq)

/-- Whatever bytes a body parser accepts, they are the kernel's layout of the record it returns. -/
theorem ISound.body (hs : Src cfg o) (ty : U32) :
    ISound cfg (mendedBody ty : Ideal (Record List)) (ILaid cfg o ty) := by
  unfold mendedBody
  split
  · next h => -- MMAP
    refine ISound.tag (Q := fun a bs => ILaid cfg o ty (.mmap a) bs) ?_ fun _ _ h => h
    refine ISound.bind (ISound.u32 hs) fun pid b0 h0 => ISound.bind (ISound.u32 hs) fun tid b1 h1 => ISound.bind (ISound.u64 hs) fun addr b2 h2 =>
      ISound.bind (ISound.u64 hs) fun len b3 h3 => ISound.bind (ISound.u64 hs) fun pgoff b4 h4 => ISound.bind ISound.name fun x b5 ⟨n, hx, h5, hn⟩ => ISound.pure ?_
    subst h0 h1 h2 h3 h4 h5 hx
    exact ILaid.mk (.mmap pid tid addr len pgoff n) h.symm rfl hn (by simp [KBody.enc])
  · next h => -- LOST
    refine ISound.tag (Q := fun a bs => ILaid cfg o ty (.lost a) bs) ?_ fun _ _ h => h
    refine ISound.bind (ISound.u64 hs) fun id b0 h0 => ISound.bind (ISound.u64 hs) fun lost b1 h1 => ISound.pure ?_
    subst h0 h1
    exact ILaid.mk (.lost ⟨id, lost⟩) h.symm rfl trivial (by simp [KBody.enc])
  · next h => -- COMM
    refine ISound.tag (Q := fun a bs => ILaid cfg o ty (.comm a) bs) ?_ fun _ _ h => h
    refine ISound.bind (ISound.u32 hs) fun pid b0 h0 => ISound.bind (ISound.u32 hs) fun tid b1 h1 => ISound.bind ISound.name fun x b5 ⟨n, hx, h5, hn⟩ => ISound.pure ?_
    subst h0 h1 h5 hx
    exact ILaid.mk (.comm pid tid n) h.symm rfl hn (by simp [KBody.enc])
  · next h => -- EXIT
    refine ISound.tag (Q := fun a bs => ILaid cfg o ty (.exit a) bs) ?_ fun _ _ h => h
    refine ISound.bind (ISound.u32 hs) fun pid b0 h0 => ISound.bind (ISound.u32 hs) fun ppid b1 h1 => ISound.bind (ISound.u32 hs) fun tid b2 h2 =>
      ISound.bind (ISound.u32 hs) fun ptid b3 h3 => ISound.bind (ISound.u64 hs) fun time b4 h4 => ISound.pure ?_
    subst h0 h1 h2 h3 h4
    exact ILaid.mk (.exit ⟨pid, ppid, tid, ptid, time⟩) h.symm rfl trivial (by simp [KBody.enc])
  · next h => -- THROTTLE
    refine ISound.tag (Q := fun a bs => ILaid cfg o ty (.throttle a) bs) ?_ fun _ _ h => h
    refine ISound.bind (ISound.u64 hs) fun time b0 h0 => ISound.bind (ISound.u64 hs) fun id b1 h1 => ISound.bind (ISound.u64 hs) fun sid b2 h2 => ISound.pure ?_
    subst h0 h1 h2
    exact ILaid.mk (.throttle ⟨time, id, sid⟩) h.symm rfl trivial (by simp [KBody.enc])
  · next h => -- UNTHROTTLE
    refine ISound.tag (Q := fun a bs => ILaid cfg o ty (.unthrottle a) bs) ?_ fun _ _ h => h
    refine ISound.bind (ISound.u64 hs) fun time b0 h0 => ISound.bind (ISound.u64 hs) fun id b1 h1 => ISound.bind (ISound.u64 hs) fun sid b2 h2 => ISound.pure ?_
    subst h0 h1 h2
    exact ILaid.mk (.unthrottle ⟨time, id, sid⟩) h.symm rfl trivial (by simp [KBody.enc])
  · next h => -- FORK
    refine ISound.tag (Q := fun a bs => ILaid cfg o ty (.fork a) bs) ?_ fun _ _ h => h
    refine ISound.bind (ISound.u32 hs) fun pid b0 h0 => ISound.bind (ISound.u32 hs) fun ppid b1 h1 => ISound.bind (ISound.u32 hs) fun tid b2 h2 =>
      ISound.bind (ISound.u32 hs) fun ptid b3 h3 => ISound.bind (ISound.u64 hs) fun time b4 h4 => ISound.pure ?_
    subst h0 h1 h2 h3 h4
    exact ILaid.mk (.fork ⟨pid, ppid, tid, ptid, time⟩) h.symm rfl trivial (by simp [KBody.enc])
  · next h => -- READ
    refine ISound.tag (Q := fun a bs => ILaid cfg o ty (.read a) bs) ?_ fun _ _ h => h
    refine ISound.bind (ISound.u32 hs) fun pid b0 h0 => ISound.bind (ISound.u32 hs) fun tid b1 h1 => ISound.bind (ISound.readValue hs) fun v b2 ⟨k, hv, h2, h3, h5⟩ =>
      ISound.pure ?_
    subst h0 h1 h2 hv
    exact ILaid.mk (.read pid tid k) h.symm rfl ⟨h3, h5⟩ (by simp [KBody.enc])
  · next h => -- SAMPLE
    refine ISound.tag (ISound.sample hs) ?_
    rintro a bs ⟨s, h1, h2, h3⟩
    refine ⟨.sample s, BitVec.eq_of_toNat_eq h.symm, by rw [h1]; rfl, h2, by rw [h3]; rfl⟩
  · next h => -- MMAP2
    refine ISound.tag (Q := fun a bs => ILaid cfg o ty (.mmap2 a) bs) ?_ fun _ _ h => h
    refine ISound.bind (ISound.u32 hs) fun pid b0 h0 => ISound.bind (ISound.u32 hs) fun tid b1 h1 => ISound.bind (ISound.u64 hs) fun addr b2 h2 =>
      ISound.bind (ISound.u64 hs) fun len b3 h3 => ISound.bind (ISound.u64 hs) fun pgoff b4 h4 => ISound.bind (ISound.mmapDetail hs) fun dv b5 ⟨d, hd, h5, ho⟩ =>
      ISound.bind (ISound.u32 hs) fun prot b6 h6 => ISound.bind (ISound.u32 hs) fun flags b7 h7 =>
      ISound.bind ISound.name fun x b8 ⟨n, hx, h8, hn⟩ => ISound.pure ?_
    subst h0 h1 h2 h3 h4 h5 h6 h7 h8 hx hd
    exact ILaid.mk (.mmap2 pid tid addr len pgoff d prot flags n) h.symm rfl ⟨ho, hn⟩ (by simp [KBody.enc])
  · next h => -- AUX
    refine ISound.tag (Q := fun a bs => ILaid cfg o ty (.aux a) bs) ?_ fun _ _ h => h
    refine ISound.bind (ISound.u64 hs) fun off b0 h0 => ISound.bind (ISound.u64 hs) fun size b1 h1 => ISound.bind (ISound.u64 hs) fun flags b2 h2 => ISound.pure ?_
    subst h0 h1 h2
    exact ILaid.mk (.aux ⟨off, size, flags⟩) h.symm rfl trivial (by simp [KBody.enc])
  · next h => -- ITRACE_START
    refine ISound.tag (Q := fun a bs => ILaid cfg o ty (.itraceStart a) bs) ?_ fun _ _ h => h
    refine ISound.bind (ISound.u32 hs) fun pid b0 h0 => ISound.bind (ISound.u32 hs) fun tid b1 h1 => ISound.pure ?_
    subst h0 h1
    exact ILaid.mk (.itraceStart ⟨pid, tid⟩) h.symm rfl trivial (by simp [KBody.enc])
  · next h => -- LOST_SAMPLES
    refine ISound.tag (Q := fun a bs => ILaid cfg o ty (.lostSamples a) bs) ?_ fun _ _ h => h
    refine ISound.bind (ISound.u64 hs) fun lost b0 h0 => ISound.pure ?_
    subst h0
    exact ILaid.mk (.lostSamples ⟨lost⟩) h.symm rfl trivial (by simp [KBody.enc])
  · next h => -- SWITCH
    exact ISound.pure (ILaid.mk .switch h.symm rfl trivial rfl)
  · next h => -- SWITCH_CPU_WIDE
    refine ISound.tag (Q := fun a bs => ILaid cfg o ty (.switchCpuWide a) bs) ?_ fun _ _ h => h
    refine ISound.bind (ISound.u32 hs) fun pid b0 h0 => ISound.bind (ISound.u32 hs) fun tid b1 h1 => ISound.config ?_
    subst h0 h1
    have hm : (cfg.misc &&& MISC_SWITCH_OUT ≠ 0#16) ↔ cfg.misc.getLsbD 13 = true := misc_bit _ 13 _ (by decide) (by omega)
    refine ISound.ite (fun h' => ISound.pure ?_) fun h' => ISound.pure ?_
    · exact ILaid.mk (.switchCpuWide pid tid) h.symm (by simp only [KBody.value, if_pos (hm.1 h')]) trivial (by simp [KBody.enc])
    · exact ILaid.mk (.switchCpuWide pid tid) h.symm (by simp only [KBody.value, if_neg (fun h'' => h' (hm.2 h''))]) trivial (by simp [KBody.enc])
  · next h => -- NAMESPACES
    refine ISound.tag (Q := fun a bs => ILaid cfg o ty (.namespaces a) bs) ?_ fun _ _ h => h
    refine ISound.bind (ISound.u32 hs) fun pid b0 h0 => ISound.bind (ISound.u32 hs) fun tid b1 h1 => ISound.bind (ISound.u64 hs) fun len b2 h2 =>
      ISound.bind (ISound.slice (ISound.namespaceEntry hs) _) fun xs b3 ⟨h3, hl⟩ => ISound.pure ?_
    subst h0 h1 h2 h3
    exact ILaid.mk (.namespaces pid tid xs) h.symm rfl trivial (by simp [KBody.enc, ofNat_toNat64 len hl])
  · next h => -- KSYMBOL
    refine ISound.tag (Q := fun a bs => ILaid cfg o ty (.ksymbol a) bs) ?_ fun _ _ h => h
    refine ISound.bind (ISound.u64 hs) fun addr b0 h0 => ISound.bind (ISound.u32 hs) fun len b1 h1 => ISound.bind (ISound.u16 hs) fun kt b2 h2 =>
      ISound.bind (ISound.u16 hs) fun flags b3 h3 => ISound.bind ISound.name fun x b4 ⟨n, hx, h4, hn⟩ => ISound.pure ?_
    subst h0 h1 h2 h3 h4 hx
    exact ILaid.mk (.ksymbol addr len kt flags n) h.symm rfl hn (by simp [KBody.enc])
  · next h => -- BPF_EVENT
    refine ISound.tag (Q := fun a bs => ILaid cfg o ty (.bpfEvent a) bs) ?_ fun _ _ h => h
    refine ISound.bind (ISound.u16 hs) fun bt b0 h0 => ISound.bind (ISound.u16 hs) fun flags b1 h1 => ISound.bind (ISound.u32 hs) fun id b2 h2 =>
      ISound.bind (ISound.take 8) fun tag b3 ⟨h3, hl⟩ => ISound.pure ?_
    subst h0 h1 h2 h3
    exact ILaid.mk (.bpfEvent ⟨bt, flags, id, b3⟩) h.symm rfl hl (by simp [KBody.enc])
  · next h => -- CGROUP
    refine ISound.tag (Q := fun a bs => ILaid cfg o ty (.cgroup a) bs) ?_ fun _ _ h => h
    refine ISound.bind (ISound.u64 hs) fun id b0 h0 => ISound.bind ISound.name fun x b4 ⟨n, hx, h4, hn⟩ => ISound.pure ?_
    subst h0 h4 hx
    exact ILaid.mk (.cgroup id n) h.symm rfl hn (by simp [KBody.enc])
  · next h => -- TEXT_POKE
    refine ISound.tag (Q := fun a bs => ILaid cfg o ty (.textPoke a) bs) ?_ fun _ _ h => h
    refine ISound.bind (ISound.u64 hs) fun addr b0 h0 => ISound.bind (ISound.u16 hs) fun oldLen b1 h1 => ISound.bind (ISound.u16 hs) fun newLen b2 h2 =>
      ISound.bind (ISound.take _) fun data b3 ⟨h3, hl⟩ => ?_
    subst h0 h1 h2 h3
    have hr := roundUpMod_spec (oldLen.toNat + newLen.toNat)
    rw [← hl] at hr
    refine ISound.bind (ISound.pure (Q := fun x bs => x = (b3.take oldLen.toNat, b3.drop oldLen.toNat) ∧ bs = []) ⟨rfl, rfl⟩) fun x b4 ⟨hx, h4⟩ => ?_
    subst hx h4
    refine ISound.pure ?_
    have l1 : (b3.take oldLen.toNat).length = oldLen.toNat := by rw [List.length_take]; omega
    have l2 : ((b3.drop oldLen.toNat).take newLen.toNat).length = newLen.toNat := by rw [List.length_take, List.length_drop]; omega
    have l3 : ((b3.drop oldLen.toNat).drop newLen.toNat).length = b3.length - oldLen.toNat - newLen.toNat := by rw [List.length_drop, List.length_drop]
    refine ILaid.mk (.textPoke addr (b3.take oldLen.toNat) ((b3.drop oldLen.toNat).take newLen.toNat) ((b3.drop oldLen.toNat).drop newLen.toNat))
      h.symm rfl ⟨?_, ?_⟩ ?_
    · rw [l3]; omega
    · rw [l1, l2, l3]; omega
    · simp only [KBody.enc, l1, l2]
      rw [show BitVec.ofNat 16 oldLen.toNat = oldLen by simp, show BitVec.ofNat 16 newLen.toNat = newLen by simp]
      rw [List.append_assoc (b3.take _), List.take_append_drop, List.take_append_drop]
      simp
  · next h => -- AUX_OUTPUT_HW_ID
    refine ISound.tag (Q := fun a bs => ILaid cfg o ty (.auxOutputHwId a) bs) ?_ fun _ _ h => h
    refine ISound.bind (ISound.u64 hs) fun hw b0 h0 => ISound.pure ?_
    subst h0
    exact ILaid.mk (.auxOutputHwId ⟨hw⟩) h.symm rfl trivial (by simp [KBody.enc])
  · refine ISound.tag ISound.rest ?_
    rintro a bs rfl
    refine ILaid.mk (.other ty bs) rfl rfl ?_ rfl
    show ty = 0#32 ∨ 22 ≤ ty.toNat
    by_cases h22 : ty.toNat < 22
    · have : ty.toNat = 0 := by
        rename_i m1 m2 m3 m4 m5 m6 m7 m8 m9 m10 m11 m12 m13 m14 m15 m16 m17 m18 m19 m20 m21
        generalize ty.toNat = n at *
        match n, h22 with
        | 0, _ => exact rfl
        | 1, _ => exact (m1 rfl).elim
        | 2, _ => exact (m2 rfl).elim
        | 3, _ => exact (m3 rfl).elim
        | 4, _ => exact (m4 rfl).elim
        | 5, _ => exact (m5 rfl).elim
        | 6, _ => exact (m6 rfl).elim
        | 7, _ => exact (m7 rfl).elim
        | 8, _ => exact (m8 rfl).elim
        | 9, _ => exact (m9 rfl).elim
        | 10, _ => exact (m10 rfl).elim
        | 11, _ => exact (m11 rfl).elim
        | 12, _ => exact (m12 rfl).elim
        | 13, _ => exact (m13 rfl).elim
        | 14, _ => exact (m14 rfl).elim
        | 15, _ => exact (m15 rfl).elim
        | 16, _ => exact (m16 rfl).elim
        | 17, _ => exact (m17 rfl).elim
        | 18, _ => exact (m18 rfl).elim
        | 19, _ => exact (m19 rfl).elim
        | 20, _ => exact (m20 rfl).elim
        | 21, _ => exact (m21 rfl).elim
        | n + 22, h => omega
      exact .inl (BitVec.eq_of_toNat_eq this)
    · omega

/-! ## Bodies that extend to the end of the record -/

/-- Nothing is left over. -/
def IDrains {α : Type} (s : Ideal α) : Prop := ∀ f a f', s f = .ok (a, f') → f'.bytes = []

theorem IDrains.bind {α α' : Type} {s : Ideal α} {k : α → Ideal α'} (h : ∀ a, IDrains (k a)) : IDrains (s >>= k) := by
  intro f b f' hr
  rcases hs : s f with e | ⟨a, g⟩
  · rw [Ideal.bind_err hs] at hr; cases hr
  · rw [Ideal.bind_ok hs] at hr
    exact h a g b f' hr

theorem IDrains.tag {α α' : Type} {s : Ideal α} {k : α → α'} (h : IDrains s) : IDrains (s >>= fun a => Pure.pure (k a)) := by
  intro f b f' hr
  rcases hs : s f with e | ⟨a, g⟩
  · rw [Ideal.bind_err hs] at hr; cases hr
  · rw [Ideal.bind_ok hs] at hr
    cases hr
    exact h f a f' hs

theorem IDrains.rest : IDrains Ideal.rest := by
  intro f a f' hr
  unfold Ideal.rest at hr
  split at hr
  · cases hr
    simp [Input.adv]
  · cases hr

theorem IDrains.name : IDrains (ParserM.restTrimNul : Ideal (List Byte)) := IDrains.tag IDrains.rest

theorem IDrains.body (b : KBody) (h : b.toEnd = true) (hf : b.Written cfg cfg.misc) : IDrains (mendedBody b.type : Ideal (Record List)) := by
  cases b with
  | mmap => exact IDrains.tag (IDrains.bind fun _ => IDrains.bind fun _ => IDrains.bind fun _ => IDrains.bind fun _ => IDrains.bind fun _ => IDrains.tag IDrains.name)
  | comm => exact IDrains.tag (IDrains.bind fun _ => IDrains.bind fun _ => IDrains.tag IDrains.name)
  | mmap2 => exact IDrains.tag (IDrains.bind fun _ => IDrains.bind fun _ => IDrains.bind fun _ => IDrains.bind fun _ => IDrains.bind fun _ =>
      IDrains.bind fun _ => IDrains.bind fun _ => IDrains.bind fun _ => IDrains.tag IDrains.name)
  | ksymbol => exact IDrains.tag (IDrains.bind fun _ => IDrains.bind fun _ => IDrains.bind fun _ => IDrains.bind fun _ => IDrains.tag IDrains.name)
  | cgroup => exact IDrains.tag (IDrains.bind fun _ => IDrains.tag IDrains.name)
  | other ty data =>
    show IDrains (mendedBody ty : Ideal (Record List))
    have hty : ty.toNat = 0 ∨ 22 ≤ ty.toNat := by
      rcases hf with rfl | h
      · exact .inl rfl
      · exact .inr h
    unfold mendedBody
    split <;> first
      | exact IDrains.tag IDrains.rest
      | omega
  | _ => cases h

end Perf
