import Verif.Proof.Sound
import Verif.Spec.KernelExtra
import Verif.Props.Group
/-!
# Every accepted body is the kernel's layout of the value returned
-/
namespace Perf
open ParserM
variable {cfg : ParseConfig} {o : Order}

/-! ## What the parsers check -/

/-- The sample satisfies what the kernel guarantees and the parser checks. -/
structure KSample.Formed (st rf ru ri : U64) (s : KSample) : Prop where
  raw : st.getLsbD 10 = true → s.raw.length < 2 ^ 32 ∧ s.rawPad.length < 8 ∧ (4 + s.raw.length + s.rawPad.length) % 8 = 0
  stack : st.getLsbD 13 = true → s.stack.length < 2 ^ 64 ∧ (s.stack ≠ [] → s.dynSize.toNat ≤ s.stack.length)
  regsUser : st.getLsbD 12 = true → s.regsUser.values.length = popcount ru
  regsIntr : st.getLsbD 18 = true → s.regsIntr.values.length = popcount ri
  readFormat : st.getLsbD 4 = true → rf.getLsbD 5 = false
  counters : st.getLsbD 4 = true → rf.getLsbD 3 = true → s.group.counters.length < 2 ^ 64
  callchain : st.getLsbD 5 = true → s.callchain.length < 2 ^ 64
  lbr : st.getLsbD 11 = true → s.lbr.length < 2 ^ 64
  aux : st.getLsbD 20 = true → s.aux.length < 2 ^ 64

/-- The same for all bodies. -/
def KBody.Formed (cfg : ParseConfig) (misc : U16) : KBody → Prop
  | .mmap _ _ _ _ _ name => name.Ok
  | .comm _ _ name => name.Ok
  | .read .. => cfg.readFormat.getLsbD 3 = false ∧ cfg.readFormat.getLsbD 5 = false
  | .sample s => s.Formed cfg.sampleType cfg.readFormat cfg.regsUser cfg.regsIntr
  | .mmap2 _ _ _ _ _ detail _ _ name => detail.Ok misc ∧ name.Ok
  | .namespaces _ _ entries => entries.length < 2 ^ 64
  | .ksymbol _ _ _ _ name => name.Ok
  | .bpfEvent r => r.tag.length = 8
  | .cgroup _ name => name.Ok
  | .textPoke _ old new pad => old.length < 2 ^ 16 ∧ new.length < 2 ^ 16 ∧ pad.length < 8 ∧ (old.length + new.length + pad.length) % 8 = 4
  | .other ty data => data ≠ [] ∧ (ty = 0#32 ∨ ty = 14#32 ∨ 22 ≤ ty.toNat)
  | _ => True

/-! ## Parts of bodies -/

theorem ofNat_toNat64 (x : U64) {n : Nat} (h : n = x.toNat) : BitVec.ofNat 64 n = x := by subst h; simp

theorem Sound.words (hs : Src cfg o) (n : Nat) :
    Sound cfg (ParserM.slice U64.elem parseU64 n : Spec (List U64)) fun xs bs => bs = xs.flatMap (e64 o) ∧ xs.length = n :=
  Sound.slice (Sound.u64 hs) n

theorem Sound.cpu (hs : Src cfg o) : Sound cfg (parseCpu : Spec U32) fun a bs => ∃ v : U32 × U32, a = v.1 ∧ bs = e32 o v.1 ++ e32 o v.2 ∧ True := by
  refine Sound.bind (Sound.u32 hs) fun a bs h => Sound.bind (Sound.u32 hs) fun b cs h' => Sound.pure ⟨(a, b), rfl, ?_, trivial⟩
  subst h h'
  simp

theorem diff_zero_inv (rf : U64) (h : ¬ ReadFormat.diff rf ReadFormat.all ≠ 0#64) : rf.getLsbD 5 = false := by
  rw [ne_eq, Decidable.not_not] at h
  have := congrArg (fun x => x.getLsbD 5) h
  unfold ReadFormat.diff at this
  simp only [BitVec.getLsbD_and, show (~~~ReadFormat.all).getLsbD 5 = true by decide, Bool.and_true] at this
  rw [this]; rfl

theorem Sound.readValue (hs : Src cfg o) : Sound cfg (parseReadValue : Spec ReadValue) fun a bs =>
    ∃ v : KRead, a = v.readValue cfg.readFormat ∧ bs = v.enc o cfg.readFormat ∧ cfg.readFormat.getLsbD 3 = false ∧
      cfg.readFormat.getLsbD 5 = false := by
  refine Sound.config (Sound.ite (fun _ => Sound.fail) fun h3 => Sound.ite (fun _ => Sound.fail) fun h5 => ?_)
  have e (m : U64) (i : Nat) (hm : m = 1#64 <<< i) (hi : i < 64) :
    contains cfg.readFormat m = cfg.readFormat.getLsbD i := contains_rf _ i hi m hm
  have h3' : cfg.readFormat.getLsbD 3 = false := by rw [← e ReadFormat.GROUP 3 rfl (by omega)]; simpa using h3
  refine Sound.bind (Sound.u64 hs) fun value b0 h0 => ?_
  refine Sound.bind (Sound.if64 hs _ (e _ 0 rfl (by omega))) fun x b1 ⟨te, hx, h1⟩ => ?_
  refine Sound.bind (Sound.if64 hs _ (e _ 1 rfl (by omega))) fun y b2 ⟨tr, hy, h2⟩ => ?_
  refine Sound.bind (Sound.if64 hs _ (e _ 2 rfl (by omega))) fun z b3 ⟨id, hz, h3⟩ => ?_
  refine Sound.bind (Sound.if64 hs _ (e _ 4 rfl (by omega))) fun w b4 ⟨lost, hw, h4⟩ => Sound.pure ?_
  subst h0 h1 h2 h3 h4 hx hy hz hw
  refine ⟨⟨value, te, tr, id, lost⟩, ?_, ?_, h3', diff_zero_inv _ h5⟩
  · simp only [getD_optv, KRead.readValue]
  · simp [KRead.enc]

theorem Sound.readGroup (hs : Src cfg o) : Sound cfg (parseReadGroup : Spec (ReadGroup List)) fun a bs =>
    ∃ g : KGroup, a = g.readGroup cfg.readFormat ∧ bs = g.enc o cfg.readFormat ∧ g.counters.length < 2 ^ 64 ∧
      cfg.readFormat.getLsbD 5 = false := by
  refine Sound.config (Sound.ite (fun _ => Sound.fail) fun h3 => Sound.ite (fun _ => Sound.fail) fun h5 => ?_)
  have e (m : U64) (i : Nat) (hm : m = 1#64 <<< i) (hi : i < 64) :
    contains cfg.readFormat m = cfg.readFormat.getLsbD i := contains_rf _ i hi m hm
  refine Sound.bind (Sound.u64 hs) fun nr b0 h0 => ?_
  refine Sound.bind (Sound.if64 hs _ (e _ 0 rfl (by omega))) fun x b1 ⟨te, hx, h1⟩ => ?_
  refine Sound.bind (Sound.if64 hs _ (e _ 1 rfl (by omega))) fun y b2 ⟨tr, hy, h2⟩ => ?_
  refine Sound.ite (fun _ => Sound.fail) fun _ => ?_
  refine Sound.bind (Sound.words hs _) fun data b3 ⟨hd, hl⟩ => Sound.pure ?_
  obtain ⟨cs, hc, hw⟩ := words_exist cfg.readFormat nr.toNat data (by omega)
  rw [List.take_of_length_le (by omega)] at hw
  subst h0 h1 h2 hx hy hd
  refine ⟨⟨te, tr, cs⟩, ?_, ?_, by rw [hc]; exact nr.isLt, diff_zero_inv _ h5⟩
  · simp only [getD_optv, KGroup.readGroup, hw]
  · simp only [KGroup.enc, ofNat_toNat64 nr hc, hw]
    simp

/-- Counter values in a sample: a group, or a single counter turned into one. -/
theorem Sound.values (hs : Src cfg o) : Sound cfg (parseValues : Spec (ReadGroup List)) fun a bs =>
    ∃ v : KRead × KGroup, a = (if cfg.readFormat.getLsbD 3 then v.2.readGroup cfg.readFormat else
        { readFormat := cfg.readFormat ||| 8#64
          timeEnabled := if cfg.readFormat.getLsbD 0 then v.1.timeEnabled else 0#64
          timeRunning := if cfg.readFormat.getLsbD 1 then v.1.timeRunning else 0#64
          data := KCounter.words cfg.readFormat ⟨v.1.value, v.1.id, v.1.lost⟩ }) ∧
      bs = (if cfg.readFormat.getLsbD 3 then v.2.enc o cfg.readFormat else v.1.enc o cfg.readFormat) ∧
      ((cfg.readFormat.getLsbD 3 = true → v.2.counters.length < 2 ^ 64) ∧ cfg.readFormat.getLsbD 5 = false) := by
  refine Sound.config ?_
  have e (m : U64) (i : Nat) (hm : m = 1#64 <<< i) (hi : i < 64) :
    contains cfg.readFormat m = cfg.readFormat.getLsbD i := contains_rf _ i hi m hm
  have e3 := e ReadFormat.GROUP 3 rfl (by omega)
  have e2 := e ReadFormat.ID 2 rfl (by omega)
  have e4 := e ReadFormat.LOST 4 rfl (by omega)
  refine Sound.ite (fun h3 => ?_) fun h3 => ?_
  · rw [e3] at h3
    refine (Sound.readGroup hs).mono ?_
    rintro a bs ⟨g, h1, h2, h4, h5⟩
    refine ⟨(⟨0, 0, 0, 0, 0⟩, g), ?_, ?_, fun _ => h4, h5⟩
    · rw [if_pos h3]; exact h1
    · rw [if_pos h3]; exact h2
  · rw [e3] at h3
    refine Sound.bind (Sound.readValue hs) fun a bs ⟨v, h1, h2, _, h5⟩ => Sound.pure ?_
    subst h1 h2
    refine ⟨(v, ⟨0, 0, []⟩), ?_, ?_, fun h => absurd h h3, h5⟩
    · rw [if_neg h3]
      unfold ReadGroup.ofValue KRead.readValue KCounter.words
      simp only [ReadValue.getId, ReadValue.getLost, e2, e4, thenSome]
      cases cfg.readFormat.getLsbD 2 <;> cases cfg.readFormat.getLsbD 4 <;> rfl
    · rw [if_neg h3, List.append_nil]

theorem Sound.callchain (hs : Src cfg o) : Sound cfg (parseCallchain : Spec (List U64)) fun a bs =>
    ∃ v : List U64, a = v ∧ bs = e64 o (BitVec.ofNat 64 v.length) ++ v.flatMap (e64 o) ∧ v.length < 2 ^ 64 := by
  refine Sound.bind (Sound.u64 hs) fun nr b0 h0 => ?_
  refine (Sound.words hs _).mono ?_
  rintro xs bs ⟨rfl, hl⟩
  subst h0
  exact ⟨xs, rfl, by rw [ofNat_toNat64 nr hl], by rw [hl]; exact nr.isLt⟩

theorem Sound.raw (hs : Src cfg o) : Sound cfg (ParserM.padded 8 parseRawInner : Spec (List Byte)) fun a bs =>
    ∃ v : List Byte × List Byte, a = v.1 ∧ bs = e32 o (BitVec.ofNat 32 v.1.length) ++ v.1 ++ v.2 ∧
      (v.1.length < 2 ^ 32 ∧ v.2.length < 8 ∧ (4 + v.1.length + v.2.length) % 8 = 0) := by
  have hin : Sound cfg (parseRawInner : Spec (List Byte)) fun a bs => bs = e32 o (BitVec.ofNat 32 a.length) ++ a ∧ a.length < 2 ^ 32 := by
    refine Sound.bind (Sound.u32 hs) fun size b0 h0 => (Sound.array _).mono ?_
    rintro a bs ⟨rfl, hl⟩
    subst h0
    refine ⟨?_, by rw [hl]; exact size.isLt⟩
    rw [hl, show BitVec.ofNat 32 size.toNat = size by simp]
  refine (Sound.padded hin 8).mono ?_
  rintro a bs ⟨x, pad, rfl, ⟨rfl, hl⟩, hp, hm⟩
  refine ⟨(a, pad), rfl, rfl, hl, hp, ?_⟩
  simpa using hm

theorem Sound.branchEntry (hs : Src cfg o) : Sound cfg (parseBranchEntry : Spec BranchEntry) fun x bs => bs = encBranch o x := by
  refine Sound.bind (Sound.u64 hs) fun a b0 h0 => Sound.bind (Sound.u64 hs) fun b b1 h1 => Sound.bind (Sound.u64 hs) fun c b2 h2 => Sound.pure ?_
  subst h0 h1 h2
  simp [encBranch]

theorem Sound.lbr (hs : Src cfg o) (hw : Bool) : Sound cfg (parseLbr hw : Spec (List BranchEntry × Option U64)) fun a bs =>
    ∃ v : U64 × List BranchEntry, a = (v.2, optv hw v.1) ∧
      bs = e64 o (BitVec.ofNat 64 v.2.length) ++ opt hw (e64 o v.1) ++ v.2.flatMap (encBranch o) ∧ v.2.length < 2 ^ 64 := by
  refine Sound.bind (Sound.u64 hs) fun nr b0 h0 => ?_
  refine Sound.bind (Sound.if64 hs hw rfl) fun x b1 ⟨idx, hx, h1⟩ => ?_
  refine Sound.bind (Sound.slice (Sound.branchEntry hs) _) fun xs b2 ⟨h2, hl⟩ => Sound.pure ?_
  subst h0 hx h1 h2
  exact ⟨(idx, xs), rfl, by simp [ofNat_toNat64 nr hl], by rw [hl]; exact nr.isLt⟩

/-- Registers as they are parsed: always all the values of the mask. -/
theorem Sound.regs (hs : Src cfg o) (mask : U64) : Sound cfg (parseRegisters mask : Spec (Registers List)) fun a bs =>
    ∃ v : KRegs, a = ⟨v.abi, mask, v.values⟩ ∧ bs = e64 o v.abi ++ v.values.flatMap (e64 o) ∧ v.values.length = popcount mask := by
  refine Sound.bind (Sound.u64 hs) fun abi b0 h0 => Sound.bind (Sound.words hs _) fun xs b1 ⟨h1, hl⟩ => Sound.pure ?_
  subst h0 h1
  exact ⟨⟨abi, xs⟩, rfl, by simp, hl⟩

theorem Sound.stack (hs : Src cfg o) : Sound cfg (parseStackUser : Spec (List Byte)) fun a bs =>
    ∃ v : List Byte × U64, a = (if v.1 = [] then [] else v.1.take v.2.toNat) ∧
      bs = e64 o (BitVec.ofNat 64 v.1.length) ++ v.1 ++ (if v.1 = [] then [] else e64 o v.2) ∧
      (v.1.length < 2 ^ 64 ∧ (v.1 ≠ [] → v.2.toNat ≤ v.1.length)) := by
  refine Sound.bind (Sound.u64 hs) fun size b0 h0 => ?_
  refine Sound.bind (Sound.array _) fun data b1 ⟨h1, hl⟩ => ?_
  subst h0 h1
  have hlt : b1.length < 2 ^ 64 := by rw [hl]; exact size.isLt
  by_cases hz : size.toNat = 0
  · have : (parseDynSize size : Spec U64) = Pure.pure 0#64 := by unfold parseDynSize; rw [if_pos hz]
    rw [this]
    have hb : b1 = [] := List.length_eq_zero_iff.1 (hl.trans hz)
    subst hb
    refine Sound.bind (Sound.pure (Q := fun a bs => bs = [] ∧ a = 0#64) ⟨rfl, rfl⟩) fun d b2 ⟨h2, h3⟩ => ?_
    subst h2 h3
    refine Sound.ite (fun _ => Sound.fail) fun _ => Sound.pure ?_
    refine ⟨([], 0#64), by simp; rfl, ?_, by simp, by simp⟩
    rw [ofNat_toNat64 size hl]
    simp
  · have : (parseDynSize size : Spec U64) = parseU64 := by unfold parseDynSize; rw [if_neg hz]
    rw [this]
    have hb : b1 ≠ [] := by intro h; rw [h] at hl; simp at hl; omega
    refine Sound.bind (Sound.u64 hs) fun d b2 h2 => ?_
    subst h2
    refine Sound.ite (fun _ => Sound.fail) fun hle => Sound.pure ?_
    refine ⟨(b1, d), by rw [if_neg hb]; rfl, ?_, hlt, fun _ => ?_⟩
    · rw [ofNat_toNat64 size hl, if_neg hb]; simp
    · have hle : ¬ d.toNat > b1.length := hle
      show d.toNat ≤ b1.length
      omega

theorem Sound.auxData (hs : Src cfg o) : Sound cfg (parseAuxData : Spec (List Byte)) fun a bs =>
    ∃ v : List Byte, a = v ∧ bs = e64 o (BitVec.ofNat 64 v.length) ++ v ∧ v.length < 2 ^ 64 := by
  refine Sound.bind (Sound.u64 hs) fun size b0 h0 => (Sound.array _).mono ?_
  rintro a bs ⟨rfl, hl⟩
  subst h0
  exact ⟨bs, rfl, by rw [ofNat_toNat64 size hl], by rw [hl]; exact size.isLt⟩

/-! ## Samples -/

/-- No register dump of the sample says that there are no registers (`PERF_SAMPLE_REGS_ABI_NONE`) and then has some. -/
def Sample.RegsGiven (s : Sample List) : Prop :=
  (∀ r, s.regsUser = some r → r.abi = 0#64 → r.regs = []) ∧ (∀ r, s.regsIntr = some r → r.abi = 0#64 → r.regs = [])

theorem opt_regs {c : Bool} {v : KRegs} {mask : U64}
    (h : ∀ r : Registers List, optv c (⟨v.abi, mask, v.values⟩ : Registers List) = some r → r.abi = 0#64 → r.regs = []) :
    opt c (e64 o v.abi ++ v.values.flatMap (e64 o)) = opt c (v.enc o) := by
  cases c with
  | false => rfl
  | true =>
    have := h _ rfl
    unfold KRegs.enc
    by_cases h0 : v.abi = 0#64
    · have h1 : v.values = [] := this h0
      simp [h0, h1]
    · simp [h0]

theorem Sound.sample (hs : Src cfg o) (h24 : cfg.sampleType.getLsbD 24 = false) :
    Sound cfg (parseSample : Spec (Sample List)) fun a bs => ∃ s : KSample,
      a = s.value cfg.sampleType cfg.readFormat cfg.regsUser cfg.regsIntr cfg.branchHwIndex ∧
      s.Formed cfg.sampleType cfg.readFormat cfg.regsUser cfg.regsIntr ∧
      (a.RegsGiven → bs = s.enc o cfg.sampleType cfg.readFormat cfg.branchHwIndex) := by
  refine Sound.config ?_
  have e (m : U64) (i : Nat) (hm : m = 1#64 <<< i) (hi : i < 64) :
    contains cfg.sampleType m = cfg.sampleType.getLsbD i := contains_rf _ i hi m hm
  refine Sound.bind (Sound.if64 hs _ (e _ 16 rfl (by omega))) fun x0 b0 ⟨identifier, hx0, h0⟩ => ?_
  refine Sound.bind (Sound.if64 hs _ (e _ 0 rfl (by omega))) fun x1 b1 ⟨ip, hx1, h1⟩ => ?_
  refine Sound.bind (Sound.if32 hs _ (e _ 1 rfl (by omega))) fun x2 b2 ⟨pid, hx2, h2⟩ => ?_
  refine Sound.bind (Sound.if32 hs _ (e _ 1 rfl (by omega))) fun x3 b3 ⟨tid, hx3, h3⟩ => ?_
  refine Sound.bind (Sound.if64 hs _ (e _ 2 rfl (by omega))) fun x4 b4 ⟨time, hx4, h4⟩ => ?_
  refine Sound.bind (Sound.if64 hs _ (e _ 3 rfl (by omega))) fun x5 b5 ⟨addr, hx5, h5⟩ => ?_
  refine Sound.bind (Sound.if64 hs _ (e _ 6 rfl (by omega))) fun x6 b6 ⟨id, hx6, h6⟩ => ?_
  refine Sound.bind (Sound.if64 hs _ (e _ 9 rfl (by omega))) fun x7 b7 ⟨streamId, hx7, h7⟩ => ?_
  refine Sound.bind (Sound.parseIfEnc (fun v : U32 × U32 => e32 o v.1 ++ e32 o v.2) (fun v => v.1) (fun _ => True) (0, 0) _
    (e _ 7 rfl (by omega)) fun _ => Sound.cpu hs) fun x8 b8 ⟨cpu, hx8, h8, _⟩ => ?_
  refine Sound.bind (Sound.if64 hs _ (e _ 8 rfl (by omega))) fun x9 b9 ⟨period, hx9, h9⟩ => ?_
  refine Sound.bind (Sound.parseIfEnc (V := KRead × KGroup) _ _ _ (⟨0, 0, 0, 0, 0⟩, ⟨0, 0, []⟩) _ (e _ 4 rfl (by omega)) fun _ => Sound.values hs)
    fun x10 b10 ⟨values, hx10, h10, k10⟩ => ?_
  refine Sound.bind (Sound.parseIfEnc (V := List U64) _ _ _ [] _ (e _ 5 rfl (by omega)) fun _ => Sound.callchain hs)
    fun x11 b11 ⟨callchain, hx11, h11, k11⟩ => ?_
  refine Sound.bind (Sound.parseIfEnc (V := List Byte × List Byte) _ _ _ ([], []) _ (e _ 10 rfl (by omega)) fun _ => Sound.raw hs)
    fun x12 b12 ⟨raw, hx12, h12, k12⟩ => ?_
  refine Sound.bind (Sound.parseIfEnc (V := U64 × List BranchEntry) _ _ _ (0, []) _ (e _ 11 rfl (by omega)) fun _ => Sound.lbr hs _)
    fun x13 b13 ⟨lbr, hx13, h13, k13⟩ => ?_
  refine Sound.bind (Sound.parseIfEnc (V := KRegs) _ _ _ ⟨0, []⟩ _ (e _ 12 rfl (by omega)) fun _ => Sound.config (Sound.regs hs _))
    fun x14 b14 ⟨ru, hx14, h14, k14⟩ => ?_
  refine Sound.bind (Sound.parseIfEnc (V := List Byte × U64) _ _ _ ([], 0) _ (e _ 13 rfl (by omega)) fun _ => Sound.stack hs)
    fun x15 b15 ⟨stack, hx15, h15, k15⟩ => ?_
  refine Sound.bind (Sound.if64 hs _ (e _ 14 rfl (by omega))) fun x16 b16 ⟨weight, hx16, h16⟩ => ?_
  refine Sound.bind (Sound.if64 hs _ (e _ 15 rfl (by omega))) fun x17 b17 ⟨dataSrc, hx17, h17⟩ => ?_
  refine Sound.bind (Sound.if64 hs _ (e _ 17 rfl (by omega))) fun x18 b18 ⟨transaction, hx18, h18⟩ => ?_
  refine Sound.bind (Sound.parseIfEnc (V := KRegs) _ _ _ ⟨0, []⟩ _ (e _ 18 rfl (by omega)) fun _ => Sound.config (Sound.regs hs _))
    fun x19 b19 ⟨ri, hx19, h19, k19⟩ => ?_
  refine Sound.bind (Sound.if64 hs _ (e _ 19 rfl (by omega))) fun x20 b20 ⟨physAddr, hx20, h20⟩ => ?_
  refine Sound.bind (Sound.if64 hs _ (e _ 21 rfl (by omega))) fun x21 b21 ⟨cgroup, hx21, h21⟩ => ?_
  refine Sound.bind (Sound.if64 hs _ (e _ 22 rfl (by omega))) fun x22 b22 ⟨dataPageSize, hx22, h22⟩ => ?_
  refine Sound.bind (Sound.if64 hs _ (e _ 23 rfl (by omega))) fun x23 b23 ⟨codePageSize, hx23, h23⟩ => ?_
  refine Sound.bind (Sound.parseIfEnc (V := List Byte) _ _ _ [] _ (e _ 20 rfl (by omega)) fun _ => Sound.auxData hs)
    fun x24 b24 ⟨aux, hx24, h25, k24⟩ => Sound.pure ?_
  refine ⟨{ identifier, ip, pid, tid, time, addr, id, streamId, cpu := cpu.1, res := cpu.2, period, read := values.1, group := values.2
            callchain, raw := raw.1, rawPad := raw.2, lbrHwIndex := lbr.1, lbr := lbr.2, regsUser := ru, stack := stack.1, dynSize := stack.2
            weight, dataSrc, transaction, regsIntr := ri, physAddr, cgroup, dataPageSize, codePageSize, aux }, ?_, ?_, ?_⟩
  · subst hx0 hx1 hx2 hx3 hx4 hx5 hx6 hx7 hx8 hx9 hx10 hx11 hx12 hx13 hx14 hx15 hx16 hx17 hx18 hx19 hx20 hx21 hx22 hx23 hx24
    unfold KSample.value
    simp only [or_optv, h24, Bool.or_false]
    congr 1
    · cases cfg.sampleType.getLsbD 11 <;> rfl
    · cases cfg.sampleType.getLsbD 11 <;> rfl
  · exact ⟨k12, k15, k14, k19, fun h => (k10 h).2, fun h h' => (k10 h).1 h', k11, k13, k24⟩
  · rintro ⟨g1, g2⟩
    subst hx14 hx19
    rw [opt_regs g1] at h14
    rw [opt_regs g2] at h19
    subst h0 h1 h2 h3 h4 h5 h6 h7 h8 h9 h10 h11 h12 h13 h14 h15 h16 h17 h18 h19 h20 h21 h22 h23 h25
    simp only [KSample.enc, KSample.parts, KSample.encValues, KSample.encCallchain, KSample.encRaw, KSample.encLbr, KSample.encStack,
      KSample.encAux, List.flatten_cons, List.flatten_nil, List.append_nil, List.append_assoc, opt_append, h24, Bool.or_false]

/-! ## Trailers -/

theorem Sound.trailer (hs : Src cfg o) (hall : cfg.sampleIdAll = true) :
    Sound cfg (parseSampleId : Spec SampleId) fun a bs => ∃ t : KTrailer, a = t.value cfg.sampleType ∧ bs = t.enc o cfg.sampleType := by
  refine Sound.config ?_
  have e (m : U64) (i : Nat) (hm : m = 1#64 <<< i) (hi : i < 64) :
    contains cfg.sampleType m = cfg.sampleType.getLsbD i := contains_rf _ i hi m hm
  refine Sound.ite (fun h => absurd h (by simp [hall])) fun _ => ?_
  refine Sound.bind (Sound.if32 hs _ (e _ 1 rfl (by omega))) fun x2 b2 ⟨pid, hx2, h2⟩ => ?_
  refine Sound.bind (Sound.if32 hs _ (e _ 1 rfl (by omega))) fun x3 b3 ⟨tid, hx3, h3⟩ => ?_
  refine Sound.bind (Sound.if64 hs _ (e _ 2 rfl (by omega))) fun x4 b4 ⟨time, hx4, h4⟩ => ?_
  refine Sound.bind (Sound.if64 hs _ (e _ 6 rfl (by omega))) fun x6 b6 ⟨id, hx6, h6⟩ => ?_
  refine Sound.bind (Sound.if64 hs _ (e _ 9 rfl (by omega))) fun x7 b7 ⟨streamId, hx7, h7⟩ => ?_
  refine Sound.bind (Sound.parseIfEnc (fun v : U32 × U32 => e32 o v.1 ++ e32 o v.2) (fun v => v.1) (fun _ => True) (0, 0) _
    (e _ 7 rfl (by omega)) fun _ => Sound.cpu hs) fun x8 b8 ⟨cpu, hx8, h8, _⟩ => ?_
  refine Sound.bind (Sound.if64 hs _ (e _ 16 rfl (by omega))) fun x0 b0 ⟨identifier, hx0, h0⟩ => Sound.pure ?_
  subst hx0 hx2 hx3 hx4 hx6 hx7 hx8 h0 h2 h3 h4 h6 h7 h8
  refine ⟨⟨pid, tid, time, id, streamId, cpu.1, cpu.2, identifier⟩, ?_, ?_⟩
  · unfold KTrailer.value
    simp only [or_optv]
  · simp only [KTrailer.enc, List.append_nil, List.append_assoc, opt_append]

/-! ## Bodies -/

theorem Sound.mmapDetail (hs : Src cfg o) : Sound cfg (parseMmapDetail : Spec MmapDetail) fun a bs =>
    ∃ d : KDetail, a = d.value ∧ bs = d.enc o ∧ d.Ok cfg.misc := by
  refine Sound.config (Sound.ite (fun h => ?_) fun h => ?_)
  · have hm : cfg.misc.getLsbD 14 = true := (misc_bit _ 14 _ (by decide) (by omega)).1 h
    refine Sound.bind Sound.u8 fun len b0 h0 => Sound.bind Sound.u8 fun r1 b1 h1 => Sound.bind (Sound.u16 hs) fun r2 b2 h2 =>
      Sound.bind (Sound.array 20) fun id b3 ⟨h3, hl⟩ => Sound.ite (fun _ => Sound.fail) fun hle => Sound.pure ?_
    subst h0 h1 h2 h3
    exact ⟨.buildId len r1 r2 b3, rfl, by simp [KDetail.enc], hm, hl, by omega⟩
  · have hm : cfg.misc.getLsbD 14 = false := by
      rw [← Bool.not_eq_true]
      exact fun h' => h ((misc_bit _ 14 _ (by decide) (by omega)).2 h')
    refine Sound.bind (Sound.u32 hs) fun maj b0 h0 => Sound.bind (Sound.u32 hs) fun min b1 h1 =>
      Sound.bind (Sound.u64 hs) fun ino b2 h2 => Sound.bind (Sound.u64 hs) fun gen b3 h3 => Sound.pure ?_
    subst h0 h1 h2 h3
    exact ⟨.inode maj min ino gen, rfl, by simp [KDetail.enc], hm⟩

theorem Sound.namespaceEntry (hs : Src cfg o) : Sound cfg (parseNamespaceEntry : Spec NamespaceEntry) fun x bs => bs = e64 o x.dev ++ e64 o x.inode := by
  refine Sound.bind (Sound.u64 hs) fun a b0 h0 => Sound.bind (Sound.u64 hs) fun b b1 h1 => Sound.pure ?_
  subst h0 h1
  simp

theorem roundUpMod_spec (v : Nat) : v ≤ roundUpMod v 4 8 ∧ roundUpMod v 4 8 < v + 8 ∧ roundUpMod v 4 8 % 8 = 4 := by
  unfold roundUpMod
  split <;> omega

/-- A body of type `ty` was laid out as `bs`, apart from ignored bytes at its end, and stands for the record `a`. -/
def Laid (cfg : ParseConfig) (o : Order) (ty : U32) (a : Record List) (bs : List Byte) : Prop :=
  ∃ b : KBody, b.type = ty ∧ a = b.value cfg cfg.misc ∧ b.Formed cfg cfg.misc ∧
    ((∀ s, a = .sample s → s.RegsGiven) → bs = b.enc o cfg)

theorem Laid.mk {ty : U32} {a : Record List} {bs : List Byte} (b : KBody) (h1 : b.type.toNat = ty.toNat) (h2 : a = b.value cfg cfg.misc)
    (h3 : b.Formed cfg cfg.misc) (h4 : bs = b.enc o cfg) : Laid cfg o ty a bs :=
  ⟨b, BitVec.eq_of_toNat_eq h1, h2, h3, fun _ => h4⟩

theorem Sound.tag {α : Type} {s : Spec α} {Q : α → List Byte → Prop} {R : Record List → List Byte → Prop} {k : α → Record List} (h : Sound cfg s Q)
    (hr : ∀ a bs, Q a bs → R (k a) bs) : Sound cfg (s >>= fun a => Pure.pure (k a)) R :=
  Sound.bind h fun a bs hq => Sound.pure (by rw [List.append_nil]; exact hr a bs hq)

/-- Whatever bytes a body parser accepts, they are the kernel's layout of the record it returns. -/
theorem Sound.body (hs : Src cfg o) (ty : U32) (h24 : ty.toNat = 9 → cfg.sampleType.getLsbD 24 = false) :
    Sound cfg (parseBody ty : Spec (Record List)) (Laid cfg o ty) := by
  unfold parseBody
  split
  · next h => -- MMAP
    refine Sound.tag (Q := fun a bs => Laid cfg o ty (.mmap a) bs) ?_ fun _ _ h => h
    refine Sound.bind (Sound.u32 hs) fun pid b0 h0 => Sound.bind (Sound.u32 hs) fun tid b1 h1 => Sound.bind (Sound.u64 hs) fun addr b2 h2 =>
      Sound.bind (Sound.u64 hs) fun len b3 h3 => Sound.bind (Sound.u64 hs) fun pgoff b4 h4 => Sound.bind Sound.name fun x b5 ⟨n, hx, h5, hn⟩ => Sound.pure ?_
    subst h0 h1 h2 h3 h4 h5 hx
    exact Laid.mk (.mmap pid tid addr len pgoff n) h.symm rfl hn (by simp [KBody.enc])
  · next h => -- LOST
    refine Sound.tag (Q := fun a bs => Laid cfg o ty (.lost a) bs) ?_ fun _ _ h => h
    refine Sound.bind (Sound.u64 hs) fun id b0 h0 => Sound.bind (Sound.u64 hs) fun lost b1 h1 => Sound.pure ?_
    subst h0 h1
    exact Laid.mk (.lost ⟨id, lost⟩) h.symm rfl trivial (by simp [KBody.enc])
  · next h => -- COMM
    refine Sound.tag (Q := fun a bs => Laid cfg o ty (.comm a) bs) ?_ fun _ _ h => h
    refine Sound.bind (Sound.u32 hs) fun pid b0 h0 => Sound.bind (Sound.u32 hs) fun tid b1 h1 => Sound.bind Sound.name fun x b5 ⟨n, hx, h5, hn⟩ => Sound.pure ?_
    subst h0 h1 h5 hx
    exact Laid.mk (.comm pid tid n) h.symm rfl hn (by simp [KBody.enc])
  · next h => -- EXIT
    refine Sound.tag (Q := fun a bs => Laid cfg o ty (.exit a) bs) ?_ fun _ _ h => h
    refine Sound.bind (Sound.u32 hs) fun pid b0 h0 => Sound.bind (Sound.u32 hs) fun ppid b1 h1 => Sound.bind (Sound.u32 hs) fun tid b2 h2 =>
      Sound.bind (Sound.u32 hs) fun ptid b3 h3 => Sound.bind (Sound.u64 hs) fun time b4 h4 => Sound.pure ?_
    subst h0 h1 h2 h3 h4
    exact Laid.mk (.exit ⟨pid, ppid, tid, ptid, time⟩) h.symm rfl trivial (by simp [KBody.enc])
  · next h => -- THROTTLE
    refine Sound.tag (Q := fun a bs => Laid cfg o ty (.throttle a) bs) ?_ fun _ _ h => h
    refine Sound.bind (Sound.u64 hs) fun time b0 h0 => Sound.bind (Sound.u64 hs) fun id b1 h1 => Sound.bind (Sound.u64 hs) fun sid b2 h2 => Sound.pure ?_
    subst h0 h1 h2
    exact Laid.mk (.throttle ⟨time, id, sid⟩) h.symm rfl trivial (by simp [KBody.enc])
  · next h => -- UNTHROTTLE
    refine Sound.tag (Q := fun a bs => Laid cfg o ty (.unthrottle a) bs) ?_ fun _ _ h => h
    refine Sound.bind (Sound.u64 hs) fun time b0 h0 => Sound.bind (Sound.u64 hs) fun id b1 h1 => Sound.bind (Sound.u64 hs) fun sid b2 h2 => Sound.pure ?_
    subst h0 h1 h2
    exact Laid.mk (.unthrottle ⟨time, id, sid⟩) h.symm rfl trivial (by simp [KBody.enc])
  · next h => -- FORK
    refine Sound.tag (Q := fun a bs => Laid cfg o ty (.fork a) bs) ?_ fun _ _ h => h
    refine Sound.bind (Sound.u32 hs) fun pid b0 h0 => Sound.bind (Sound.u32 hs) fun ppid b1 h1 => Sound.bind (Sound.u32 hs) fun tid b2 h2 =>
      Sound.bind (Sound.u32 hs) fun ptid b3 h3 => Sound.bind (Sound.u64 hs) fun time b4 h4 => Sound.pure ?_
    subst h0 h1 h2 h3 h4
    exact Laid.mk (.fork ⟨pid, ppid, tid, ptid, time⟩) h.symm rfl trivial (by simp [KBody.enc])
  · next h => -- READ
    refine Sound.tag (Q := fun a bs => Laid cfg o ty (.read a) bs) ?_ fun _ _ h => h
    refine Sound.bind (Sound.u32 hs) fun pid b0 h0 => Sound.bind (Sound.u32 hs) fun tid b1 h1 => Sound.bind (Sound.readValue hs) fun v b2 ⟨k, hv, h2, h3, h5⟩ =>
      Sound.pure ?_
    subst h0 h1 h2 hv
    exact Laid.mk (.read pid tid k) h.symm rfl ⟨h3, h5⟩ (by simp [KBody.enc])
  · next h => -- SAMPLE
    refine Sound.tag (Sound.sample hs (h24 h)) ?_
    rintro a bs ⟨s, h1, h2, h3⟩
    refine ⟨.sample s, BitVec.eq_of_toNat_eq h.symm, by rw [h1]; rfl, h2, fun hg => h3 (hg a rfl)⟩
  · next h => -- MMAP2
    refine Sound.tag (Q := fun a bs => Laid cfg o ty (.mmap2 a) bs) ?_ fun _ _ h => h
    refine Sound.bind (Sound.u32 hs) fun pid b0 h0 => Sound.bind (Sound.u32 hs) fun tid b1 h1 => Sound.bind (Sound.u64 hs) fun addr b2 h2 =>
      Sound.bind (Sound.u64 hs) fun len b3 h3 => Sound.bind (Sound.u64 hs) fun pgoff b4 h4 => Sound.bind (Sound.mmapDetail hs) fun dv b5 ⟨d, hd, h5, ho⟩ =>
      Sound.bind (Sound.u32 hs) fun prot b6 h6 => Sound.bind (Sound.u32 hs) fun flags b7 h7 =>
      Sound.bind Sound.name fun x b8 ⟨n, hx, h8, hn⟩ => Sound.pure ?_
    subst h0 h1 h2 h3 h4 h5 h6 h7 h8 hx hd
    exact Laid.mk (.mmap2 pid tid addr len pgoff d prot flags n) h.symm rfl ⟨ho, hn⟩ (by simp [KBody.enc])
  · next h => -- AUX
    refine Sound.tag (Q := fun a bs => Laid cfg o ty (.aux a) bs) ?_ fun _ _ h => h
    refine Sound.bind (Sound.u64 hs) fun off b0 h0 => Sound.bind (Sound.u64 hs) fun size b1 h1 => Sound.bind (Sound.u64 hs) fun flags b2 h2 => Sound.pure ?_
    subst h0 h1 h2
    exact Laid.mk (.aux ⟨off, size, flags⟩) h.symm rfl trivial (by simp [KBody.enc])
  · next h => -- ITRACE_START
    refine Sound.tag (Q := fun a bs => Laid cfg o ty (.itraceStart a) bs) ?_ fun _ _ h => h
    refine Sound.bind (Sound.u32 hs) fun pid b0 h0 => Sound.bind (Sound.u32 hs) fun tid b1 h1 => Sound.pure ?_
    subst h0 h1
    exact Laid.mk (.itraceStart ⟨pid, tid⟩) h.symm rfl trivial (by simp [KBody.enc])
  · next h => -- LOST_SAMPLES
    refine Sound.tag (Q := fun a bs => Laid cfg o ty (.lostSamples a) bs) ?_ fun _ _ h => h
    refine Sound.bind (Sound.u64 hs) fun lost b0 h0 => Sound.pure ?_
    subst h0
    exact Laid.mk (.lostSamples ⟨lost⟩) h.symm rfl trivial (by simp [KBody.enc])
  · next h => -- SWITCH_CPU_WIDE
    refine Sound.tag (Q := fun a bs => Laid cfg o ty (.switchCpuWide a) bs) ?_ fun _ _ h => h
    refine Sound.bind (Sound.u32 hs) fun pid b0 h0 => Sound.bind (Sound.u32 hs) fun tid b1 h1 => Sound.config ?_
    subst h0 h1
    have hm : (cfg.misc &&& MISC_SWITCH_OUT ≠ 0#16) ↔ cfg.misc.getLsbD 13 = true := misc_bit _ 13 _ (by decide) (by omega)
    refine Sound.ite (fun h' => Sound.pure ?_) fun h' => Sound.pure ?_
    · exact Laid.mk (.switchCpuWide pid tid) h.symm (by simp only [KBody.value, if_pos (hm.1 h')]) trivial (by simp [KBody.enc])
    · exact Laid.mk (.switchCpuWide pid tid) h.symm (by simp only [KBody.value, if_neg (fun h'' => h' (hm.2 h''))]) trivial (by simp [KBody.enc])
  · next h => -- NAMESPACES
    refine Sound.tag (Q := fun a bs => Laid cfg o ty (.namespaces a) bs) ?_ fun _ _ h => h
    refine Sound.bind (Sound.u32 hs) fun pid b0 h0 => Sound.bind (Sound.u32 hs) fun tid b1 h1 => Sound.bind (Sound.u64 hs) fun len b2 h2 =>
      Sound.bind (Sound.slice (Sound.namespaceEntry hs) _) fun xs b3 ⟨h3, hl⟩ => Sound.pure ?_
    subst h0 h1 h2 h3
    exact Laid.mk (.namespaces pid tid xs) h.symm rfl (by show xs.length < _; rw [hl]; exact len.isLt) (by simp [KBody.enc, ofNat_toNat64 len hl])
  · next h => -- KSYMBOL
    refine Sound.tag (Q := fun a bs => Laid cfg o ty (.ksymbol a) bs) ?_ fun _ _ h => h
    refine Sound.bind (Sound.u64 hs) fun addr b0 h0 => Sound.bind (Sound.u32 hs) fun len b1 h1 => Sound.bind (Sound.u16 hs) fun kt b2 h2 =>
      Sound.bind (Sound.u16 hs) fun flags b3 h3 => Sound.bind Sound.name fun x b4 ⟨n, hx, h4, hn⟩ => Sound.pure ?_
    subst h0 h1 h2 h3 h4 hx
    exact Laid.mk (.ksymbol addr len kt flags n) h.symm rfl hn (by simp [KBody.enc])
  · next h => -- BPF_EVENT
    refine Sound.tag (Q := fun a bs => Laid cfg o ty (.bpfEvent a) bs) ?_ fun _ _ h => h
    refine Sound.bind (Sound.u16 hs) fun bt b0 h0 => Sound.bind (Sound.u16 hs) fun flags b1 h1 => Sound.bind (Sound.u32 hs) fun id b2 h2 =>
      Sound.bind (Sound.array 8) fun tag b3 ⟨h3, hl⟩ => Sound.pure ?_
    subst h0 h1 h2 h3
    exact Laid.mk (.bpfEvent ⟨bt, flags, id, b3⟩) h.symm rfl hl (by simp [KBody.enc])
  · next h => -- CGROUP
    refine Sound.tag (Q := fun a bs => Laid cfg o ty (.cgroup a) bs) ?_ fun _ _ h => h
    refine Sound.bind (Sound.u64 hs) fun id b0 h0 => Sound.bind Sound.name fun x b4 ⟨n, hx, h4, hn⟩ => Sound.pure ?_
    subst h0 h4 hx
    exact Laid.mk (.cgroup id n) h.symm rfl hn (by simp [KBody.enc])
  · next h => -- TEXT_POKE
    refine Sound.tag (Q := fun a bs => Laid cfg o ty (.textPoke a) bs) ?_ fun _ _ h => h
    refine Sound.bind (Sound.u64 hs) fun addr b0 h0 => Sound.bind (Sound.u16 hs) fun oldLen b1 h1 => Sound.bind (Sound.u16 hs) fun newLen b2 h2 =>
      Sound.bind (Sound.array _) fun data b3 ⟨h3, hl⟩ => ?_
    subst h0 h1 h2 h3
    have hr := roundUpMod_spec (oldLen.toNat + newLen.toNat)
    rw [← hl] at hr
    have hsp : Sound cfg (ParserM.cowSplitAt b3 oldLen.toNat : Spec (List Byte × List Byte)) fun x bs => x = (b3.take oldLen.toNat, b3.drop oldLen.toNat) ∧ bs = [] := by
      show Sound cfg (Spec.splitAt b3 oldLen.toNat) _
      unfold Spec.splitAt
      exact Sound.ite (fun _ _ _ _ _ hr => by cases hr) fun _ => Sound.pure ⟨rfl, rfl⟩
    refine Sound.bind hsp fun x b4 ⟨hx, h4⟩ => ?_
    subst hx h4
    refine Sound.pure ?_
    have l1 : (b3.take oldLen.toNat).length = oldLen.toNat := by rw [List.length_take]; omega
    have l2 : ((b3.drop oldLen.toNat).take newLen.toNat).length = newLen.toNat := by rw [List.length_take, List.length_drop]; omega
    have l3 : ((b3.drop oldLen.toNat).drop newLen.toNat).length = b3.length - oldLen.toNat - newLen.toNat := by rw [List.length_drop, List.length_drop]
    refine Laid.mk (.textPoke addr (b3.take oldLen.toNat) ((b3.drop oldLen.toNat).take newLen.toNat) ((b3.drop oldLen.toNat).drop newLen.toNat))
      h.symm rfl ⟨?_, ?_, ?_, ?_⟩ ?_
    · rw [l1]; exact oldLen.isLt
    · rw [l2]; exact newLen.isLt
    · rw [l3]; omega
    · rw [l1, l2, l3]; omega
    · simp only [KBody.enc, l1, l2]
      rw [show BitVec.ofNat 16 oldLen.toNat = oldLen by simp, show BitVec.ofNat 16 newLen.toNat = newLen by simp]
      rw [List.append_assoc (b3.take _), List.take_append_drop, List.take_append_drop]
      simp
  · next h => -- AUX_OUTPUT_HW_ID
    refine Sound.tag (Q := fun a bs => Laid cfg o ty (.auxOutputHwId a) bs) ?_ fun _ _ h => h
    refine Sound.bind (Sound.u64 hs) fun hw b0 h0 => Sound.pure ?_
    subst h0
    exact Laid.mk (.auxOutputHwId ⟨hw⟩) h.symm rfl trivial (by simp [KBody.enc])
  · refine Sound.tag Sound.rest ?_
    rintro a bs ⟨rfl, h0⟩
    refine Laid.mk (.other ty bs) rfl rfl ⟨h0, ?_⟩ rfl
    have hty : ∀ n : Nat, n < 2 ^ 32 → (ty = BitVec.ofNat 32 n ↔ ty.toNat = n) := by
      intro n hn
      constructor
      · rintro rfl; exact toNat_ofNat_lt hn
      · intro h; apply BitVec.eq_of_toNat_eq; rw [h, toNat_ofNat_lt hn]
    rw [hty 0 (by omega), hty 14 (by omega)]
    by_cases h22 : ty.toNat < 22
    · have : ty.toNat = 0 ∨ ty.toNat = 14 := by
        rename_i m1 m2 m3 m4 m5 m6 m7 m8 m9 m10 m11 m12 m13 m15 m16 m17 m18 m19 m20 m21
        clear hty h24
        generalize ty.toNat = n at *
        match n, h22 with
        | 0, _ => exact .inl rfl
        | 1, _ => exact (m1 rfl).elim
        | 2, _ => exact (m2 rfl).elim
        | 3, _ => exact (m3 rfl).elim
        | 4, _ => exact (m4 rfl).elim
        | 5, _ => exact (m5 rfl).elim
        | 6, _ => exact (m6 rfl).elim
        | 7, _ => exact (m7 rfl).elim
        | 8, _ => exact (m8 rfl).elim
        | 9, _ => exact (m9 rfl).elim
        | 10, _ => exact (m10 rfl).elim
        | 11, _ => exact (m11 rfl).elim
        | 12, _ => exact (m12 rfl).elim
        | 13, _ => exact (m13 rfl).elim
        | 14, _ => exact .inr rfl
        | 15, _ => exact (m15 rfl).elim
        | 16, _ => exact (m16 rfl).elim
        | 17, _ => exact (m17 rfl).elim
        | 18, _ => exact (m18 rfl).elim
        | 19, _ => exact (m19 rfl).elim
        | 20, _ => exact (m20 rfl).elim
        | 21, _ => exact (m21 rfl).elim
        | n + 22, h => omega
      omega
    · omega

/-! ## Bodies that extend to the end of the record -/

/-- Nothing is left over. -/
def Drains {α : Type} (s : Spec α) : Prop := ∀ f a f', s f = .ok (a, f') → f'.s.bytes = []

theorem Drains.bind {α α' : Type} {s : Spec α} {k : α → Spec α'} (h : ∀ a, Drains (k a)) : Drains (s >>= k) := by
  intro f b f' hr
  rcases hs : s f with e | ⟨a, g⟩
  · rw [Spec.bind_err hs] at hr; cases hr
  · rw [Spec.bind_ok hs] at hr
    exact h a g b f' hr

theorem Drains.tag {α α' : Type} {s : Spec α} {k : α → α'} (h : Drains s) : Drains (s >>= fun a => Pure.pure (k a)) := by
  intro f b f' hr
  rcases hs : s f with e | ⟨a, g⟩
  · rw [Spec.bind_err hs] at hr; cases hr
  · rw [Spec.bind_ok hs] at hr
    cases hr
    exact h f a f' hs

theorem Drains.rest : Drains Spec.rest := by
  intro f a f' hr
  unfold Spec.rest at hr
  split at hr
  · cases hr
  · split at hr
    · cases hr
      simp
    · cases hr

theorem Drains.name : Drains (ParserM.restTrimNul : Spec (List Byte)) := Drains.tag Drains.rest

theorem Drains.body (b : KBody) (h : b.toEnd = true) (hf : b.Formed cfg cfg.misc) : Drains (parseBody b.type : Spec (Record List)) := by
  cases b with
  | mmap => exact Drains.tag (Drains.bind fun _ => Drains.bind fun _ => Drains.bind fun _ => Drains.bind fun _ => Drains.bind fun _ => Drains.tag Drains.name)
  | comm => exact Drains.tag (Drains.bind fun _ => Drains.bind fun _ => Drains.tag Drains.name)
  | mmap2 => exact Drains.tag (Drains.bind fun _ => Drains.bind fun _ => Drains.bind fun _ => Drains.bind fun _ => Drains.bind fun _ =>
      Drains.bind fun _ => Drains.bind fun _ => Drains.bind fun _ => Drains.tag Drains.name)
  | ksymbol => exact Drains.tag (Drains.bind fun _ => Drains.bind fun _ => Drains.bind fun _ => Drains.bind fun _ => Drains.tag Drains.name)
  | cgroup => exact Drains.tag (Drains.bind fun _ => Drains.tag Drains.name)
  | other ty data =>
    show Drains (parseBody ty : Spec (Record List))
    have hty : ty.toNat = 0 ∨ ty.toNat = 14 ∨ 22 ≤ ty.toNat := by
      rcases hf.2 with rfl | rfl | h
      · exact .inl rfl
      · exact .inr (.inl rfl)
      · exact .inr (.inr h)
    unfold parseBody
    split <;> first
      | exact Drains.tag Drains.rest
      | omega
  | _ => cases h

end Perf
