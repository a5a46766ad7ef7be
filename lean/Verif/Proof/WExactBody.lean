import Verif.Proof.WExact
/-!
# What the body parsers accept in pieces of memory, exactly
-/
namespace Perf
open ParserM
variable {cfg : ParseConfig} {o : Order} {w : Nat → Nat → Option Nat}

namespace WEnc

/-! ## Parts -/

theorem words (hs : Src cfg o) (wf : cfg.Wf) (n : Nat) : WEnc cfg (ParserM.slice U64.elem parseU64 n : Woven w (List U64))
    (fun v : List Byte × List U64 => v.2) (fun v => v.1 ++ v.2.flatMap (e64 o))
    fun k v tl => v.2.length = n ∧ v.1.length = dropAt cfg.endian.isNative w k (8 * n) ∧ (cfg.endian.isNative = true → v.2 = [] → tl ≠ []) :=
  slice (LEnc.codedU64 hs wf) (u64 hs) n

theorem cpu (hs : Src cfg o) : WEnc cfg (parseCpu : Woven w U32) (fun v : U32 × U32 => v.1) (fun v => e32 o v.1 ++ e32 o v.2) fun _ _ _ => True :=
  ((u32 hs).bind fun a => (u32 hs).map fun _ => a).re (fun _ v _ _ _ => ⟨v, rfl, rfl, trivial⟩) fun _ v _ _ _ => ⟨v, rfl, rfl, trivial, trivial⟩

theorem readValue (hs : Src cfg o) : WEnc cfg (parseReadValue : Woven w ReadValue) (fun v : KRead => v.readValue cfg.readFormat)
    (fun v => v.enc o cfg.readFormat) fun _ _ _ => cfg.readFormat.getLsbD 3 = false ∧ cfg.readFormat.getLsbD 5 = false := by
  have e (m : U64) (i : Nat) (hm : m = 1#64 <<< i) (hi : i < 64) :
    contains cfg.readFormat m = cfg.readFormat.getLsbD i := contains_rf _ i hi m hm
  refine WEnc.config (WEnc.ite (fun h3 => WEnc.fail ?_) fun h3 => WEnc.ite (fun h5 => WEnc.fail ?_) fun h5 => ?_)
  · rintro _ v tl ⟨h, _⟩
    rw [e ReadFormat.GROUP 3 rfl (by omega), h] at h3
    cases h3
  · rintro _ v tl ⟨_, h⟩
    exact h5 (diff_zero _ h)
  have h3' : cfg.readFormat.getLsbD 3 = false := by rw [← e ReadFormat.GROUP 3 rfl (by omega)]; simpa using h3
  refine ((u64 hs).bind fun value => (if64 hs _ (e _ 0 rfl (by omega))).bind fun te => (if64 hs _ (e _ 1 rfl (by omega))).bind fun tr =>
    (if64 hs _ (e _ 2 rfl (by omega))).bind fun id => (if64 hs _ (e _ 4 rfl (by omega))).map _).re ?_ ?_
  · rintro _ ⟨value, te, tr, id, lost⟩ tl _ _
    exact ⟨⟨value, te, tr, id, lost⟩, by simp only [getD_optv, KRead.readValue, _root_.id], by simp [KRead.enc], h3', diff_zero_inv _ h5⟩
  · rintro _ ⟨value, te, tr, id, lost⟩ tl _ _
    exact ⟨(value, te, tr, id, lost), by simp only [getD_optv, KRead.readValue, _root_.id], by simp [KRead.enc], by simp⟩

theorem opt64_length (c : Bool) (x : U64) : (opt c (e64 o x)).length = if c then 8 else 0 := by cases c <;> simp [opt]

theorem dropAt_from {native : Bool} {k i j n : Nat} (h : k + i = j) : dropAt native (fun i n => w (k + i) n) i n = dropAt native w j n := by subst h; rfl

theorem readGroup (hs : Src cfg o) (wf : cfg.Wf) : WEnc cfg (parseReadGroup : Woven w (ReadGroup List))
    (fun g : KGroup × List Byte => g.1.readGroup cfg.readFormat)
    (fun g => g.1.encHeld o cfg.readFormat g.2) fun k g tl => cfg.readFormat.getLsbD 3 = true ∧ cfg.readFormat.getLsbD 5 = false ∧
      g.2.length = dropAt cfg.endian.isNative w (k + 8 + (if cfg.readFormat.getLsbD 0 then 8 else 0) + (if cfg.readFormat.getLsbD 1 then 8 else 0)) (8 * (g.1.counters.flatMap (KCounter.words cfg.readFormat)).length) ∧
      (cfg.endian.isNative = true → g.1.counters = [] → tl ≠ []) := by
  have e (m : U64) (i : Nat) (hm : m = 1#64 <<< i) (hi : i < 64) :
    contains cfg.readFormat m = cfg.readFormat.getLsbD i := contains_rf _ i hi m hm
  refine WEnc.config (WEnc.ite (fun h3 => WEnc.fail ?_) fun h3 => WEnc.ite (fun h5 => WEnc.fail ?_) fun h5 => ?_)
  · rintro _ v tl ⟨h, _⟩
    rw [e ReadFormat.GROUP 3 rfl (by omega), h] at h3
    cases h3
  · rintro _ v tl ⟨_, h, _⟩
    exact h5 (diff_zero _ h)
  have h3' : cfg.readFormat.getLsbD 3 = true := by rw [← e ReadFormat.GROUP 3 rfl (by omega)]; simpa using h3
  have hwords : ∀ cs : List KCounter, (cs.flatMap (KCounter.words cfg.readFormat)).length = cs.length * ReadFormat.elementLen cfg.readFormat := by
    intro cs
    induction cs with
    | nil => simp
    | cons c cs ih => rw [List.flatMap_cons, List.length_append, ih, List.length_cons, Nat.succ_mul, Nat.add_comm, elementLen_eq cfg.readFormat c]
  have hpos : 0 < ReadFormat.elementLen cfg.readFormat := by
    rw [elementLen_eq cfg.readFormat ⟨0, 0, 0⟩]
    simp only [KCounter.words, List.length_append, List.length_cons]
    omega
  have hinner : ∀ (nr : U64) (k : List U64 → ReadGroup List), WEnc cfg (if nr.toNat * ReadFormat.elementLen cfg.readFormat ≥ usizeLimit then
      (ParserM.fail (.custom .invalidRecord "number of elements in group read was too large for data type") : Woven w (ReadGroup List))
      else (ParserM.slice U64.elem parseU64 (nr.toNat * ReadFormat.elementLen cfg.readFormat) : Woven w (List U64)) >>= fun d => Pure.pure (k d))
      (fun v : List Byte × List U64 => k v.2) (fun v => v.1 ++ v.2.flatMap (e64 o))
      fun j v tl => v.2.length = nr.toNat * ReadFormat.elementLen cfg.readFormat ∧ v.2.length < 65536 ∧
        v.1.length = dropAt cfg.endian.isNative w j (8 * v.2.length) ∧ (cfg.endian.isNative = true → v.2 = [] → tl ≠ []) := by
    intro nr k
    refine WEnc.ite (fun h => WEnc.fail ?_) fun h => ((words hs wf _).map k).re ?_ ?_
    · rintro _ xs tl ⟨h1, h2, _⟩
      have : (65536 : Nat) ≤ usizeLimit := by decide
      omega
    · rintro _ xs tl hl ⟨h1, h2, h3⟩
      refine ⟨xs, rfl, rfl, h1, ?_, by rw [h1]; exact h2, h3⟩
      rw [List.length_append, List.length_append, flatMap_e64_length] at hl
      omega
    · rintro _ xs tl _ ⟨h1, _, h2, h3⟩
      exact ⟨xs, rfl, rfl, h1, by rw [← h1]; exact h2, h3⟩
  refine ((u64 hs).bind fun nr => (if64 hs _ (e _ 0 rfl (by omega))).bind fun te =>
    (if64 hs _ (e _ 1 rfl (by omega))).bind fun tr => hinner nr _).re ?_ ?_
  · rintro j ⟨nr, te, tr, d, data⟩ tl _ ⟨_, _, _, hd, hl, hj, hn⟩
    dsimp only at hd hl hn hj
    obtain ⟨cs, hc, hw⟩ := words_exist cfg.readFormat nr.toNat data (by omega)
    rw [List.take_of_length_le (by omega)] at hw
    refine ⟨(⟨te, tr, cs⟩, d), ?_, ?_, h3', diff_zero_inv _ h5, by rw [← hw]; simpa only [opt64_length, e64_length] using hj, fun h h0 => hn h ?_⟩
    · simp only [getD_optv, KGroup.readGroup, hw]
    · simp only [KGroup.encHeld, ofNat_toNat64 nr hc, hw]
      simp
    · have h0 : cs = [] := h0
      rw [hw, h0]; rfl
  · rintro j ⟨⟨te, tr, cs⟩, d⟩ tl hlen ⟨_, _, hj, hn⟩
    have hl : (cs.flatMap (KCounter.words cfg.readFormat)).length < 65536 := by
      simp only [KGroup.encHeld, List.length_append, flatMap_e64_length] at hlen
      omega
    have hc : cs.length < 2 ^ 64 := by
      rw [hwords] at hl
      have := Nat.le_mul_of_pos_right cs.length hpos
      omega
    have hnr : (BitVec.ofNat 64 cs.length).toNat = cs.length := toNat_ofNat_lt hc
    refine ⟨(BitVec.ofNat 64 cs.length, te, tr, d, cs.flatMap (KCounter.words cfg.readFormat)), ?_, ?_, trivial, fun _ => trivial, fun _ => trivial, ?_, hl, by simpa only [opt64_length, e64_length] using hj, ?_⟩
    · simp only [getD_optv, KGroup.readGroup]
    · simp [KGroup.encHeld]
    · dsimp only
      rw [hnr, hwords]
    · intro h h0
      refine hn h ?_
      dsimp only at h0
      have := hwords cs
      rw [h0] at this
      have := this.symm
      simp only [List.length_nil, Nat.mul_eq_zero] at this
      rcases this with h | h
      · exact List.length_eq_zero_iff.1 h
      · omega

/-- Counter values in a sample. -/
theorem values (hs : Src cfg o) (wf : cfg.Wf) : WEnc cfg (parseValues : Woven w (ReadGroup List))
    (fun v : KRead × KGroup × List Byte => (if cfg.readFormat.getLsbD 3 then v.2.1.readGroup cfg.readFormat else
        { readFormat := cfg.readFormat ||| 8#64
          timeEnabled := if cfg.readFormat.getLsbD 0 then v.1.timeEnabled else 0#64
          timeRunning := if cfg.readFormat.getLsbD 1 then v.1.timeRunning else 0#64
          data := KCounter.words cfg.readFormat ⟨v.1.value, v.1.id, v.1.lost⟩ } : ReadGroup List))
    (fun v => if cfg.readFormat.getLsbD 3 then v.2.1.encHeld o cfg.readFormat v.2.2 else v.1.enc o cfg.readFormat)
    fun k v tl => cfg.readFormat.getLsbD 5 = false ∧
      (cfg.readFormat.getLsbD 3 = true → v.2.2.length = dropAt cfg.endian.isNative w (k + 8 + (if cfg.readFormat.getLsbD 0 then 8 else 0) + (if cfg.readFormat.getLsbD 1 then 8 else 0)) (8 * (v.2.1.counters.flatMap (KCounter.words cfg.readFormat)).length)) ∧
      (cfg.endian.isNative = true → cfg.readFormat.getLsbD 3 = true → v.2.1.counters = [] → tl ≠ []) := by
  refine WEnc.config ?_
  have e (m : U64) (i : Nat) (hm : m = 1#64 <<< i) (hi : i < 64) :
    contains cfg.readFormat m = cfg.readFormat.getLsbD i := contains_rf _ i hi m hm
  have e3 := e ReadFormat.GROUP 3 rfl (by omega)
  have e2 := e ReadFormat.ID 2 rfl (by omega)
  have e4 := e ReadFormat.LOST 4 rfl (by omega)
  refine WEnc.ite (fun h3 => ?_) fun h3 => ?_
  · rw [e3] at h3
    refine (readGroup hs wf).re ?_ ?_
    · rintro _ g tl _ ⟨_, h5, hj, hn⟩
      exact ⟨(⟨0, 0, 0, 0, 0⟩, g), by rw [if_pos h3], by rw [if_pos h3], h5, fun _ => hj, fun h _ => hn h⟩
    · rintro _ ⟨_, g⟩ tl _ ⟨h5, hj, hn⟩
      exact ⟨g, by rw [if_pos h3], by rw [if_pos h3], h3, h5, hj h3, fun h => hn h h3⟩
  · rw [e3] at h3
    have hv : ∀ v : KRead, (ReadGroup.ofValue (Woven w) (v.readValue cfg.readFormat) : ReadGroup List) =
        { readFormat := cfg.readFormat ||| 8#64
          timeEnabled := if cfg.readFormat.getLsbD 0 then v.timeEnabled else 0#64
          timeRunning := if cfg.readFormat.getLsbD 1 then v.timeRunning else 0#64
          data := KCounter.words cfg.readFormat ⟨v.value, v.id, v.lost⟩ } := by
      intro v
      unfold ReadGroup.ofValue KRead.readValue KCounter.words
      simp only [ReadValue.getId, ReadValue.getLost, e2, e4, thenSome]
      cases cfg.readFormat.getLsbD 2 <;> cases cfg.readFormat.getLsbD 4 <;> rfl
    refine ((readValue hs).map (ReadGroup.ofValue (Woven w))).re ?_ ?_
    · rintro _ v tl _ ⟨_, h5⟩
      exact ⟨(v, ⟨0, 0, []⟩, []), by rw [if_neg h3]; exact hv v, by rw [if_neg h3], h5, fun h => absurd h h3, fun _ h => absurd h h3⟩
    · rintro _ ⟨v, _⟩ tl _ ⟨h5, _⟩
      exact ⟨v, by rw [if_neg h3]; exact hv v, by rw [if_neg h3], by simpa using h3, h5⟩

/-- A count, and then something of that length. -/
theorem counted {α T V : Type} {b : Nat} {s : Nat → Woven w α} {count : Woven w (BitVec b)} {ec : BitVec b → List Byte} {val : V → α} {en : V → List Byte}
    (list : V → List T) {C : Nat → V → List Byte → Prop} (m : Nat) (hc : WEnc cfg count id ec fun _ _ _ => True) (hm : ∀ x, (ec x).length = m)
    (h : ∀ n, WEnc cfg (s n) val en fun k xs tl => (list xs).length = n ∧ C k xs tl) (hle : ∀ xs, (en xs).length < 65536 → (list xs).length < 2 ^ b) :
    WEnc cfg (count >>= fun n => s n.toNat) val (fun xs => ec (BitVec.ofNat b (list xs).length) ++ en xs) fun k => C (k + m) := by
  refine (hc.bind fun n => h n.toNat).re ?_ ?_
  · rintro _ ⟨n, xs⟩ tl _ ⟨_, hl, h⟩
    dsimp only at hl h
    refine ⟨xs, rfl, ?_, by rw [← hm n]; exact h⟩
    dsimp only
    rw [hl]
    simp
  · rintro _ xs tl hlen h
    have hlt := hle xs (by simp only [List.length_append] at hlen; omega)
    exact ⟨(BitVec.ofNat b (list xs).length, xs), rfl, rfl, trivial, (toNat_ofNat_lt hlt).symm, by dsimp only; rw [hm]; exact h⟩

theorem callchain (hs : Src cfg o) (wf : cfg.Wf) : WEnc cfg (parseCallchain : Woven w (List U64)) (fun v : List Byte × List U64 => v.2)
    (fun v => e64 o (BitVec.ofNat 64 v.2.length) ++ v.1 ++ v.2.flatMap (e64 o)) fun k v tl =>
      v.1.length = dropAt cfg.endian.isNative w (k + 8) (8 * v.2.length) ∧ (cfg.endian.isNative = true → v.2 = [] → tl ≠ []) := by
  refine (counted (s := fun n => (ParserM.slice U64.elem parseU64 n : Woven w (List U64))) (fun v : List Byte × List U64 => v.2)
    (val := fun v => v.2) (en := fun v => v.1 ++ v.2.flatMap (e64 o)) (C := fun k v tl => v.1.length = dropAt cfg.endian.isNative w k (8 * v.2.length) ∧ (cfg.endian.isNative = true → v.2 = [] → tl ≠ []))
    8 (u64 hs) (e64_length o) (fun n => (words hs wf n).re ?_ ?_) ?_).re ?_ ?_
  · rintro k v tl _ ⟨h1, h2, h3⟩; exact ⟨v, rfl, rfl, h1, by rw [h1]; exact h2, h3⟩
  · rintro k v tl _ ⟨h1, h2, h3⟩; exact ⟨v, rfl, rfl, h1, by rw [← h1]; exact h2, h3⟩
  · intro v h; rw [List.length_append, flatMap_e64_length] at h; omega
  · rintro k v tl _ ⟨h1, h2⟩; exact ⟨v, rfl, by simp, h1, h2⟩
  · rintro k v tl _ ⟨h1, h2⟩; exact ⟨v, rfl, by simp, h1, h2⟩

theorem raw (hs : Src cfg o) : WEnc cfg (ParserM.padded 8 parseRawInner : Woven w (List Byte)) (fun v : List Byte × List Byte => v.1)
    (fun v => e32 o (BitVec.ofNat 32 v.1.length) ++ v.1 ++ v.2) fun _ v _ => v.2.length < 8 ∧ (4 + v.1.length + v.2.length) % 8 = 0 := by
  have hin : WEnc cfg (parseRawInner : Woven w (List Byte)) id (fun xs => e32 o (BitVec.ofNat 32 xs.length) ++ xs)
      fun _ xs tl => xs = [] → tl ≠ [] := counted (fun v : List Byte => v) 4 (u32 hs) (e32_length o) (fun n => bytes n) fun xs h => by have h : xs.length < 65536 := h; omega
  refine (padded hin (n := 8) (by decide)).re ?_ ?_
  · rintro _ ⟨v, pad⟩ tl _ ⟨_, h1, h2⟩
    exact ⟨(v, pad), rfl, rfl, h1, by simpa using h2⟩
  · rintro _ ⟨v, pad⟩ tl _ ⟨h1, h2⟩
    refine ⟨(v, pad), rfl, rfl, fun h0 hp => ?_, h1, by simpa using h2⟩
    dsimp only at h0 hp h2
    rw [h0, (List.append_eq_nil_iff.1 hp).1] at h2
    simp at h2

theorem branchEntry (hs : Src cfg o) : WEnc cfg (parseBranchEntry : Woven w BranchEntry) id (encBranch o) fun _ _ _ => True :=
  ((u64 hs).bind fun a => (u64 hs).bind fun b => (u64 hs).map fun c => (⟨a, b, c⟩ : BranchEntry)).re
    (fun _ v _ _ _ => ⟨⟨v.1, v.2.1, v.2.2⟩, rfl, by simp [encBranch], trivial⟩)
    fun _ v _ _ _ => ⟨(v.from_, v.to, v.bits), rfl, by simp [encBranch], trivial, trivial, trivial⟩

theorem lbr (hs : Src cfg o) (wf : cfg.Wf) (hw : Bool) : WEnc cfg (parseLbr hw : Woven w (List BranchEntry × Option U64))
    (fun v : U64 × List Byte × List BranchEntry => (v.2.2, optv hw v.1))
    (fun v => e64 o (BitVec.ofNat 64 v.2.2.length) ++ opt hw (e64 o v.1) ++ v.2.1 ++ v.2.2.flatMap (encBranch o))
    fun k v tl => v.2.1.length = dropAt cfg.endian.isNative w (k + 8 + (if hw then 8 else 0)) (24 * v.2.2.length) ∧ (cfg.endian.isNative = true → v.2.2 = [] → tl ≠ []) := by
  refine ((u64 hs).bind fun nr => (if64 hs hw rfl).bind fun idx =>
    (slice (LEnc.codedBranch hs wf) (branchEntry hs) nr.toNat).map fun l => (l, optv hw idx)).re ?_ ?_
  · rintro k ⟨nr, idx, d, xs⟩ tl _ ⟨_, _, hl, hd, h⟩
    dsimp only [id] at hl h hd
    exact ⟨(idx, d, xs), rfl, by simp [hl], by dsimp only; rw [hl]; simp only [opt64_length, e64_length] at hd; exact hd, h⟩
  · rintro k ⟨idx, d, xs⟩ tl hlen' ⟨hd, h⟩
    have hlt : xs.length < 2 ^ 64 := by
      have : (xs.flatMap (encBranch o)).length = xs.length * 24 := (LEnc.codedBranch hs wf).flat xs
      simp only [List.length_append] at hlen'
      omega
    have hn : (BitVec.ofNat 64 xs.length).toNat = xs.length := toNat_ofNat_lt hlt
    exact ⟨(BitVec.ofNat 64 xs.length, idx, d, xs), rfl, by simp, trivial, fun _ => trivial, hn.symm, by dsimp only; rw [hn]; simp only [opt64_length, e64_length]; exact hd, h⟩

theorem regs (hs : Src cfg o) (wf : cfg.Wf) (mask : U64) : WEnc cfg (parseRegisters mask : Woven w (Registers List))
    (fun v : KRegs × List Byte => (⟨v.1.abi, mask, v.1.values⟩ : Registers List)) (fun v => v.1.encHeld o v.2)
    fun k v tl => v.1.values.length = popcount mask ∧ v.2.length = dropAt cfg.endian.isNative w (k + 8) (8 * v.1.values.length) ∧
      (cfg.endian.isNative = true → v.1.values = [] → tl ≠ []) := by
  refine ((u64 hs).bind fun abi => (words hs wf (popcount mask)).map fun l => (⟨abi, mask, l⟩ : Registers List)).re ?_ ?_
  · rintro k ⟨abi, d, xs⟩ tl _ ⟨_, h1, h2, h3⟩
    exact ⟨(⟨abi, xs⟩, d), rfl, by simp [KRegs.encHeld], h1, by dsimp only at h1 ⊢; rw [h1]; simpa only [e64_length] using h2, h3⟩
  · rintro k ⟨⟨abi, xs⟩, d⟩ tl _ ⟨h1, h2, h3⟩
    exact ⟨(abi, d, xs), rfl, by simp [KRegs.encHeld], trivial, h1, by dsimp only at h1 ⊢; rw [← h1]; simpa only [e64_length] using h2, h3⟩

theorem stack (hs : Src cfg o) : WEnc cfg (parseStackUser : Woven w (List Byte))
    (fun v : List Byte × U64 => (if v.1 = [] then [] else v.1.take v.2.toNat))
    (fun v => e64 o (BitVec.ofNat 64 v.1.length) ++ v.1 ++ (if v.1 = [] then [] else e64 o v.2))
    fun _ v tl => (v.1 ≠ [] → v.2.toNat ≤ v.1.length) ∧ (v.1 = [] → tl ≠ []) := by
  have htail : ∀ (size : U64) (data : List Byte), data.length = size.toNat → WEnc cfg
      ((parseDynSize size : Woven w U64) >>= fun d => if d.toNat > (elems (Woven w) data).length then
        ParserM.fail (.custom .invalidRecord "stack dyn_size was greater than the record size")
        else Pure.pure (cowTruncate (Woven w) data d.toNat))
      (fun d : U64 => (if data = [] then [] else data.take d.toNat)) (fun d => if data = [] then [] else e64 o d)
      fun _ d _ => data ≠ [] → d.toNat ≤ data.length := by
    intro size data hl
    by_cases hz : size.toNat = 0
    · have : (parseDynSize size : Woven w U64) = Pure.pure 0#64 := by unfold parseDynSize; rw [if_pos hz]
      rw [this]
      have hd : data = [] := List.length_eq_zero_iff.1 (hl.trans hz)
      subst hd
      refine ((WEnc.pure (cfg := cfg) 0#64).bind fun _ => WEnc.pure (α := List Byte) ([])).re ?_ ?_
      · rintro _ v tl _ _; exact ⟨0, by simp, by simp, by simp⟩
      · rintro _ v tl _ _; exact ⟨((), ()), by simp, by simp, by simp⟩
    · have : (parseDynSize size : Woven w U64) = parseU64 := by unfold parseDynSize; rw [if_neg hz]
      rw [this]
      have hd : data ≠ [] := by intro h; rw [h] at hl; simp at hl; omega
      refine ((u64 hs).bind (val' := fun d (_ : Unit) => data.take d.toNat) (enc' := fun _ _ => [])
        (C' := fun d _ _ _ => d.toNat ≤ data.length) fun d => WEnc.ite (fun h => WEnc.fail ?_) fun h => ?_).re ?_ ?_
      · intro _ v tl h'
        have h : d.toNat > data.length := h
        omega
      · have h : ¬ d.toNat > data.length := h
        exact (WEnc.pure _).re (fun _ v tl _ _ => ⟨(), rfl, rfl, by omega⟩) fun _ v tl _ _ => ⟨(), rfl, rfl, trivial⟩
      · rintro _ ⟨d, _⟩ tl _ ⟨_, h⟩
        exact ⟨d, by simp [hd], by simp [hd], fun _ => h⟩
      · rintro _ d tl _ h
        exact ⟨(d, ()), by simp [hd], by simp [hd], trivial, h hd⟩
  refine ((u64 hs).bind fun size => (bytes (cfg := cfg) size.toNat).bindC fun _ data t h => htail size data h.1).re ?_ ?_
  · rintro _ ⟨size, data, d⟩ tl _ ⟨_, ⟨hl, h1⟩, h2⟩
    dsimp only [id] at hl h1 h2
    refine ⟨(data, d), rfl, by simp [hl], h2, fun h0 => ?_⟩
    have h0 : data = [] := h0
    have := h1 h0
    rw [if_pos h0] at this
    exact this
  · rintro _ ⟨data, d⟩ tl hlen ⟨h1, h2⟩
    dsimp only at h1 h2 hlen
    simp only [List.length_append] at hlen
    have hlt : data.length < 2 ^ 64 := by omega
    refine ⟨(BitVec.ofNat 64 data.length, data, d), rfl, by simp, trivial, ⟨(toNat_ofNat_lt hlt).symm, fun h0 => ?_⟩, h1⟩
    have h0 : data = [] := h0
    dsimp only
    rw [if_pos h0]
    exact h2 h0

theorem auxData (hs : Src cfg o) : WEnc cfg (parseAuxData : Woven w (List Byte)) id (fun xs => e64 o (BitVec.ofNat 64 xs.length) ++ xs)
    fun _ xs tl => xs = [] → tl ≠ [] :=
  counted (fun v : List Byte => v) 8 (u64 hs) (e64_length o) (fun n => bytes n) fun xs h => by have h : xs.length < 65536 := h; omega

/-! ## Samples -/

set_option linter.unusedSimpArgs false in
theorem sample (hs : Src cfg o) (wf : cfg.Wf) : WEnc cfg (parseSample : Woven w (Sample List))
    (fun s : KSample × Dropped => s.1.valueTaken cfg.sampleType cfg.readFormat cfg.regsUser cfg.regsIntr cfg.branchHwIndex)
    (fun s => s.1.encHeld o cfg.sampleType cfg.readFormat cfg.branchHwIndex s.2)
    fun k s tl => s.1.Strewn cfg.endian.isNative o cfg.sampleType cfg.readFormat cfg.regsUser cfg.regsIntr cfg.branchHwIndex (fun i n => w (k + i) n) s.2 tl := by
  refine WEnc.config ?_
  have e (m : U64) (i : Nat) (hm : m = 1#64 <<< i) (hi : i < 64) :
    contains cfg.sampleType m = cfg.sampleType.getLsbD i := contains_rf _ i hi m hm
  refine (
    (if64 hs _ (e _ 16 rfl (by omega))).bind fun identifier =>
    (if64 hs _ (e _ 0 rfl (by omega))).bind fun ip =>
    (if32 hs _ (e _ 1 rfl (by omega))).bind fun pid =>
    (if32 hs _ (e _ 1 rfl (by omega))).bind fun tid =>
    (if64 hs _ (e _ 2 rfl (by omega))).bind fun time =>
    (if64 hs _ (e _ 3 rfl (by omega))).bind fun addr =>
    (if64 hs _ (e _ 6 rfl (by omega))).bind fun id =>
    (if64 hs _ (e _ 9 rfl (by omega))).bind fun streamId =>
    (parseIf (0, 0) _ (e _ 7 rfl (by omega)) fun _ => cpu hs).bind fun cpu =>
    (if64 hs _ (e _ 8 rfl (by omega))).bind fun period =>
    (parseIf (⟨0, 0, 0, 0, 0⟩, ⟨0, 0, []⟩, []) _ (e _ 4 rfl (by omega)) fun _ => values hs wf).bind fun values =>
    (parseIf ([], []) _ (e _ 5 rfl (by omega)) fun _ => callchain hs wf).bind fun callchain =>
    (parseIf ([], []) _ (e _ 10 rfl (by omega)) fun _ => raw hs).bind fun raw =>
    (parseIf (0, [], []) _ (e _ 11 rfl (by omega)) fun _ => lbr hs wf _).bind fun lbr =>
    (parseIf (⟨0, []⟩, []) _ (e _ 12 rfl (by omega)) fun _ => WEnc.config (regs hs wf _)).bind fun ru =>
    (parseIf ([], 0) _ (e _ 13 rfl (by omega)) fun _ => stack hs).bind fun stack =>
    (if64 hs _ (e _ 14 rfl (by omega))).bind fun weight =>
    (if64 hs _ (e _ 15 rfl (by omega))).bind fun dataSrc =>
    (if64 hs _ (e _ 17 rfl (by omega))).bind fun transaction =>
    (parseIf (⟨0, []⟩, []) _ (e _ 18 rfl (by omega)) fun _ => WEnc.config (regs hs wf _)).bind fun ri =>
    (if64 hs _ (e _ 19 rfl (by omega))).bind fun physAddr =>
    (if64 hs _ (e _ 21 rfl (by omega))).bind fun cgroup =>
    (if64 hs _ (e _ 22 rfl (by omega))).bind fun dataPageSize =>
    (if64 hs _ (e _ 23 rfl (by omega))).bind fun codePageSize =>
    (parseIf [] _ (e _ 20 rfl (by omega)) fun _ => auxData hs).map _).re ?_ ?_
  · rintro k ⟨identifier, ip, pid, tid, time, addr, id, streamId, cpu, period, values, callchain, raw, lbr, ru, stack, weight, dataSrc, transaction,
      ri, physAddr, cgroup, dataPageSize, codePageSize, aux⟩ tl _
      ⟨-, -, -, -, -, -, -, -, -, -, k10, k11, k12, k13, k14, k15, -, -, -, k19, -, -, -, -, k24⟩
    refine ⟨({ identifier, ip, pid, tid, time, addr, id, streamId, cpu := cpu.1, res := cpu.2, period, read := values.1, group := values.2.1
               callchain := callchain.2, raw := raw.1, rawPad := raw.2, lbrHwIndex := lbr.1, lbr := lbr.2.2, regsUser := ru.1, stack := stack.1
               dynSize := stack.2, weight, dataSrc, transaction, regsIntr := ri.1, physAddr, cgroup, dataPageSize, codePageSize, aux },
             { values := values.2.2, callchain := callchain.1, lbr := lbr.2.1, regsUser := ru.2, regsIntr := ri.2 }), ?_, ?_, ?_⟩
    · simp only [KSample.valueTaken, KSample.value, or_optv, map_optv]
      congr 1
      · cases cfg.sampleType.getLsbD 11 <;> rfl
    · simp only [KSample.encHeld, KSample.afterHeld, KSample.partsHeld, KSample.encRaw, KSample.encStack, KSample.encAux,
           List.drop_succ_cons, List.drop_zero, List.flatten_cons, List.flatten_nil, List.append_nil, List.append_assoc, opt_append, List.drop_nil, List.nil_append]
    · dsimp only at k10 k11 k12 k13 k14 k15 k19 k24
      refine ⟨k12, fun h => (k15 h).1, fun h => (k14 h).1, fun h => (k19 h).1, fun h => (k10 h).1, fun h h3 => ((k10 h).2.1 h3).trans (dropAt_from (by
          simp only [KSample.beforeHeld, KSample.partsHeld, KSample.encRaw, KSample.encStack, List.take_succ_cons, List.take_zero, List.flatten_cons, List.flatten_nil, opt_append, List.length_append, List.length_nil]
          omega)).symm, fun h => (k11 h).1.trans (dropAt_from (by
          simp only [KSample.beforeHeld, KSample.partsHeld, KSample.encRaw, KSample.encStack, List.take_succ_cons, List.take_zero, List.flatten_cons, List.flatten_nil, opt_append, List.length_append, List.length_nil]
          omega)).symm,
        fun h => (k13 h).1.trans (dropAt_from (by
          simp only [KSample.beforeHeld, KSample.partsHeld, KSample.encRaw, KSample.encStack, List.take_succ_cons, List.take_zero, List.flatten_cons, List.flatten_nil, opt_append, List.length_append, List.length_nil]
          omega)).symm, fun h => (k14 h).2.1.trans (dropAt_from (by
          simp only [KSample.beforeHeld, KSample.partsHeld, KSample.encRaw, KSample.encStack, List.take_succ_cons, List.take_zero, List.flatten_cons, List.flatten_nil, opt_append, List.length_append, List.length_nil]
          omega)).symm, fun h => (k19 h).2.1.trans (dropAt_from (by
          simp only [KSample.beforeHeld, KSample.partsHeld, KSample.encRaw, KSample.encStack, List.take_succ_cons, List.take_zero, List.flatten_cons, List.flatten_nil, opt_append, List.length_append, List.length_nil]
          omega)).symm, fun n h h3 h0 => ?_, fun n h h0 => ?_, fun n h h0 => ?_,
        fun n h h0 => ?_, fun h h0 => ?_, fun n h h0 => ?_, k24⟩
      · have := (k10 h).2.2 n h3 h0
        simpa only [KSample.encHeld, KSample.afterHeld, KSample.partsHeld, KSample.encRaw, KSample.encStack, KSample.encAux,
           List.drop_succ_cons, List.drop_zero, List.flatten_cons, List.flatten_nil, List.append_nil, List.append_assoc, opt_append, List.drop_nil, List.nil_append] using this
      · have := (k11 h).2 n h0
        simpa only [KSample.encHeld, KSample.afterHeld, KSample.partsHeld, KSample.encRaw, KSample.encStack, KSample.encAux,
           List.drop_succ_cons, List.drop_zero, List.flatten_cons, List.flatten_nil, List.append_nil, List.append_assoc, opt_append, List.drop_nil, List.nil_append] using this
      · have := (k13 h).2 n h0
        simpa only [KSample.encHeld, KSample.afterHeld, KSample.partsHeld, KSample.encRaw, KSample.encStack, KSample.encAux,
           List.drop_succ_cons, List.drop_zero, List.flatten_cons, List.flatten_nil, List.append_nil, List.append_assoc, opt_append, List.drop_nil, List.nil_append] using this
      · have := (k14 h).2.2 n h0
        simpa only [KSample.encHeld, KSample.afterHeld, KSample.partsHeld, KSample.encRaw, KSample.encStack, KSample.encAux,
           List.drop_succ_cons, List.drop_zero, List.flatten_cons, List.flatten_nil, List.append_nil, List.append_assoc, opt_append, List.drop_nil, List.nil_append] using this
      · have := (k15 h).2 h0
        simpa only [KSample.encHeld, KSample.afterHeld, KSample.partsHeld, KSample.encRaw, KSample.encStack, KSample.encAux,
           List.drop_succ_cons, List.drop_zero, List.flatten_cons, List.flatten_nil, List.append_nil, List.append_assoc, opt_append, List.drop_nil, List.nil_append] using this
      · have := (k19 h).2.2 n h0
        simpa only [KSample.encHeld, KSample.afterHeld, KSample.partsHeld, KSample.encRaw, KSample.encStack, KSample.encAux,
           List.drop_succ_cons, List.drop_zero, List.flatten_cons, List.flatten_nil, List.append_nil, List.append_assoc, opt_append, List.drop_nil, List.nil_append] using this
  · rintro j ⟨s, d⟩ tl _ k
    dsimp only at k
    refine ⟨(s.identifier, s.ip, s.pid, s.tid, s.time, s.addr, s.id, s.streamId, (s.cpu, s.res), s.period, (s.read, s.group, d.values), (d.callchain, s.callchain),
      (s.raw, s.rawPad), (s.lbrHwIndex, d.lbr, s.lbr), (s.regsUser, d.regsUser), (s.stack, s.dynSize), s.weight, s.dataSrc, s.transaction, (s.regsIntr, d.regsIntr),
      s.physAddr, s.cgroup, s.dataPageSize, s.codePageSize, s.aux), ?_, ?_, ?_⟩
    · simp only [KSample.valueTaken, KSample.value, or_optv, map_optv]
      congr 1
      · cases cfg.sampleType.getLsbD 11 <;> rfl
    · simp only [KSample.encHeld, KSample.afterHeld, KSample.partsHeld, KSample.encRaw, KSample.encStack, KSample.encAux,
           List.drop_succ_cons, List.drop_zero, List.flatten_cons, List.flatten_nil, List.append_nil, List.append_assoc, opt_append, List.drop_nil, List.nil_append]
    · refine ⟨fun _ => trivial, fun _ => trivial, fun _ => trivial, fun _ => trivial, fun _ => trivial, fun _ => trivial, fun _ => trivial,
        fun _ => trivial, fun _ => trivial, fun _ => trivial, fun h => ⟨k.readFormat h, fun h3 => (k.dropValues h h3).trans (dropAt_from (by
          simp only [KSample.beforeHeld, KSample.partsHeld, KSample.encRaw, KSample.encStack, List.take_succ_cons, List.take_zero, List.flatten_cons, List.flatten_nil, opt_append, List.length_append, List.length_nil]
          omega)), fun n h3 h0 => ?_⟩,
        fun h => ⟨(k.dropCallchain h).trans (dropAt_from (by
          simp only [KSample.beforeHeld, KSample.partsHeld, KSample.encRaw, KSample.encStack, List.take_succ_cons, List.take_zero, List.flatten_cons, List.flatten_nil, opt_append, List.length_append, List.length_nil]
          omega)), fun n h0 => ?_⟩, k.rawPad, fun h => ⟨(k.dropLbr h).trans (dropAt_from (by
          simp only [KSample.beforeHeld, KSample.partsHeld, KSample.encRaw, KSample.encStack, List.take_succ_cons, List.take_zero, List.flatten_cons, List.flatten_nil, opt_append, List.length_append, List.length_nil]
          omega)), fun n h0 => ?_⟩,
        fun h => ⟨k.regsUser h, (k.dropRegsUser h).trans (dropAt_from (by
          simp only [KSample.beforeHeld, KSample.partsHeld, KSample.encRaw, KSample.encStack, List.take_succ_cons, List.take_zero, List.flatten_cons, List.flatten_nil, opt_append, List.length_append, List.length_nil]
          omega)), fun n h0 => ?_⟩, fun h => ⟨k.dynSize h, fun h0 => ?_⟩, fun _ => trivial, fun _ => trivial, fun _ => trivial,
        fun h => ⟨k.regsIntr h, (k.dropRegsIntr h).trans (dropAt_from (by
          simp only [KSample.beforeHeld, KSample.partsHeld, KSample.encRaw, KSample.encStack, List.take_succ_cons, List.take_zero, List.flatten_cons, List.flatten_nil, opt_append, List.length_append, List.length_nil]
          omega)), fun n h0 => ?_⟩, fun _ => trivial, fun _ => trivial, fun _ => trivial, fun _ => trivial, k.endAux⟩
      · have := k.endValues n h h3 h0
        simpa only [KSample.encHeld, KSample.afterHeld, KSample.partsHeld, KSample.encRaw, KSample.encStack, KSample.encAux,
           List.drop_succ_cons, List.drop_zero, List.flatten_cons, List.flatten_nil, List.append_nil, List.append_assoc, opt_append, List.drop_nil, List.nil_append] using this
      · have := k.endCallchain n h h0
        simpa only [KSample.encHeld, KSample.afterHeld, KSample.partsHeld, KSample.encRaw, KSample.encStack, KSample.encAux,
           List.drop_succ_cons, List.drop_zero, List.flatten_cons, List.flatten_nil, List.append_nil, List.append_assoc, opt_append, List.drop_nil, List.nil_append] using this
      · have := k.endLbr n h h0
        simpa only [KSample.encHeld, KSample.afterHeld, KSample.partsHeld, KSample.encRaw, KSample.encStack, KSample.encAux,
           List.drop_succ_cons, List.drop_zero, List.flatten_cons, List.flatten_nil, List.append_nil, List.append_assoc, opt_append, List.drop_nil, List.nil_append] using this
      · have := k.endRegsUser n h h0
        simpa only [KSample.encHeld, KSample.afterHeld, KSample.partsHeld, KSample.encRaw, KSample.encStack, KSample.encAux,
           List.drop_succ_cons, List.drop_zero, List.flatten_cons, List.flatten_nil, List.append_nil, List.append_assoc, opt_append, List.drop_nil, List.nil_append] using this
      · have := k.endStack h h0
        simpa only [KSample.encHeld, KSample.afterHeld, KSample.partsHeld, KSample.encRaw, KSample.encStack, KSample.encAux,
           List.drop_succ_cons, List.drop_zero, List.flatten_cons, List.flatten_nil, List.append_nil, List.append_assoc, opt_append, List.drop_nil, List.nil_append] using this
      · have := k.endRegsIntr n h h0
        simpa only [KSample.encHeld, KSample.afterHeld, KSample.partsHeld, KSample.encRaw, KSample.encStack, KSample.encAux,
           List.drop_succ_cons, List.drop_zero, List.flatten_cons, List.flatten_nil, List.append_nil, List.append_assoc, opt_append, List.drop_nil, List.nil_append] using this

/-! ## Bodies -/

theorem mmapDetail (hs : Src cfg o) : WEnc cfg (parseMmapDetail : Woven w MmapDetail) KDetail.value (KDetail.enc o) fun _ d _ => d.Ok cfg.misc := by
  refine WEnc.config (WEnc.ite (fun h => ?_) fun h => ?_)
  · have hm : cfg.misc.getLsbD 14 = true := (misc_bit _ 14 _ (by decide) (by omega)).1 h
    have hid : ∀ (len : U8) (id : List Byte), WEnc cfg (if len.toNat > id.length then
          ParserM.fail (.custom .invalidRecord s!"build_id had invalid length ({len.toNat} > 20)")
        else Pure.pure (MmapDetail.buildId id len) : Woven w MmapDetail) (fun _ : Unit => MmapDetail.buildId id len) (fun _ => [])
        fun _ _ _ => len.toNat ≤ id.length := fun len id =>
      WEnc.ite (fun h => WEnc.fail fun _ _ _ h' => Nat.not_le.2 h h') fun h => (WEnc.pure (MmapDetail.buildId id len)).re
        (fun _ _ _ _ _ => ⟨(), rfl, rfl, Nat.not_lt.1 h⟩) fun _ _ _ _ _ => ⟨(), rfl, rfl, trivial⟩
    refine ((u8 (cfg := cfg)).bind fun len => (u8 (cfg := cfg)).bind fun _ => (u16 hs).bind fun _ => (array (cfg := cfg) 20).bind
      (val' := fun id (_ : Unit) => MmapDetail.buildId id len) (enc' := fun _ _ => []) (C' := fun id _ _ _ => len.toNat ≤ id.length) fun id =>
      hid len id).re ?_ ?_
    · rintro _ ⟨len, r1, r2, id, _⟩ tl _ ⟨_, _, _, ⟨hl, _⟩, hle⟩
      dsimp only at hl hle
      exact ⟨.buildId len r1 r2 id, rfl, by simp [KDetail.enc], hm, hl, by omega⟩
    · rintro _ (⟨maj, min, ino, gen⟩ | ⟨len, r1, r2, id⟩) tl _ hd
      · have hd : cfg.misc.getLsbD 14 = false := hd
        rw [hm] at hd; cases hd
      · obtain ⟨_, hl, hle⟩ := hd
        refine ⟨(len, r1, r2, id, ()), rfl, by simp [KDetail.enc], trivial, trivial, trivial, ⟨hl, fun h0 => ?_⟩, by dsimp only; omega⟩
        have h0 : id = [] := h0
        rw [h0] at hl; cases hl
  · have hm : cfg.misc.getLsbD 14 = false := by
      rw [← Bool.not_eq_true]
      exact fun h' => h ((misc_bit _ 14 _ (by decide) (by omega)).2 h')
    refine ((u32 hs).bind fun maj => (u32 hs).bind fun min => (u64 hs).bind fun ino => (u64 hs).map fun gen => MmapDetail.default maj min ino gen).re ?_ ?_
    · rintro _ ⟨maj, min, ino, gen⟩ tl _ _
      exact ⟨.inode maj min ino gen, rfl, by simp [KDetail.enc], hm⟩
    · rintro _ (⟨maj, min, ino, gen⟩ | ⟨len, r1, r2, id⟩) tl _ hd
      · exact ⟨(maj, min, ino, gen), rfl, by simp [KDetail.enc], trivial, trivial, trivial, trivial⟩
      · have hd := hd.1
        rw [hm] at hd; cases hd

theorem switchCpuWide (hs : Src cfg o) : WEnc cfg (parseSwitchCpuWide : Woven w SwitchCpuWide)
    (fun v : U32 × U32 => if cfg.misc.getLsbD 13 then .out v.1 v.2 else .in v.1 v.2) (fun v => e32 o v.1 ++ e32 o v.2) fun _ _ _ => True := by
  have hm : (cfg.misc &&& MISC_SWITCH_OUT ≠ 0#16) ↔ cfg.misc.getLsbD 13 = true := misc_bit _ 13 _ (by decide) (by omega)
  refine ((u32 hs).bind fun pid => (u32 hs).bind (val' := fun tid (_ : Unit) => if cfg.misc.getLsbD 13 then SwitchCpuWide.out pid tid else .in pid tid)
    (enc' := fun _ _ => []) (C' := fun _ _ _ _ => True) fun tid => WEnc.config (WEnc.ite (fun h => ?_) fun h => ?_)).re
    (fun _ v _ _ _ => ⟨(v.1, v.2.1), rfl, by simp, trivial⟩) fun _ v _ _ _ => ⟨(v.1, v.2, ()), rfl, by simp, trivial, trivial, trivial⟩
  · rw [if_pos (hm.1 h)]; exact WEnc.pure _
  · rw [if_neg fun h' => h (hm.2 h')]; exact WEnc.pure _

theorem namespaceEntry (hs : Src cfg o) : WEnc cfg (parseNamespaceEntry : Woven w NamespaceEntry) id (fun x => e64 o x.dev ++ e64 o x.inode) fun _ _ _ => True :=
  ((u64 hs).bind fun a => (u64 hs).map fun b => (⟨a, b⟩ : NamespaceEntry)).re (fun _ v _ _ _ => ⟨⟨v.1, v.2⟩, rfl, rfl, trivial⟩)
    fun _ v _ _ _ => ⟨(v.dev, v.inode), rfl, rfl, trivial, trivial⟩

theorem namespaces (hs : Src cfg o) (wf : cfg.Wf) : WEnc cfg (parseNamespaces : Woven w (Namespaces List))
    (fun v : U32 × U32 × List Byte × List NamespaceEntry => (⟨v.1, v.2.1, v.2.2.2⟩ : Namespaces List))
    (fun v => e32 o v.1 ++ e32 o v.2.1 ++ e64 o (BitVec.ofNat 64 v.2.2.2.length) ++ v.2.2.1 ++ v.2.2.2.flatMap fun e => e64 o e.dev ++ e64 o e.inode)
    fun k v tl => v.2.2.1.length = dropAt cfg.endian.isNative w (k + 16) (16 * v.2.2.2.length) ∧ (cfg.endian.isNative = true → v.2.2.2 = [] → tl ≠ []) := by
  refine ((u32 hs).bind fun pid => (u32 hs).bind fun tid =>
    (u64 hs).bind fun n => (slice (LEnc.codedNamespace hs wf) (namespaceEntry hs) n.toNat).map fun l => (⟨pid, tid, l⟩ : Namespaces List)).re ?_ ?_
  · rintro k ⟨pid, tid, n, d, xs⟩ tl _ ⟨_, _, _, hl, hd, h⟩
    dsimp only [id] at hl hd h
    refine ⟨(pid, tid, d, xs), rfl, by simp [hl], ?_, h⟩
    dsimp only
    rw [hl, hd]
    simp only [e32_length, e64_length]
    rfl
  · rintro k ⟨pid, tid, d, xs⟩ tl hlen ⟨hd, h⟩
    dsimp only at hd h
    have hlt : xs.length < 2 ^ 64 := by
      have : (xs.flatMap fun e => e64 o e.dev ++ e64 o e.inode).length = xs.length * 16 := (LEnc.codedNamespace hs wf).flat xs
      simp only [List.length_append] at hlen
      omega
    have hn : (BitVec.ofNat 64 xs.length).toNat = xs.length := toNat_ofNat_lt hlt
    refine ⟨(pid, tid, BitVec.ofNat 64 xs.length, d, xs), rfl, by simp, trivial, trivial, trivial, hn.symm, ?_, h⟩
    dsimp only
    rw [hn, hd]
    simp only [e32_length, e64_length]
    rfl

/-- What is taken for the old and the new code. -/
def pokeRead (whole : Bool) (addr : U64) (old new pad : List Byte) : TextPoke List :=
  if whole then ⟨addr, old, new⟩
  else if old = [] then ⟨addr, new ++ pad, []⟩
  else if new ++ pad = [] then ⟨addr, [], []⟩
  else ⟨addr, old, new⟩

theorem textPoke (hs : Src cfg o) : WEnc cfg (parseTextPoke : Woven w (TextPoke List))
    (fun v : U64 × List Byte × List Byte × List Byte × Bool => pokeRead v.2.2.2.2 v.1 v.2.1 v.2.2.1 v.2.2.2.1)
    (fun v => e64 o v.1 ++ (e16 o (BitVec.ofNat 16 v.2.1.length) ++ (e16 o (BitVec.ofNat 16 v.2.2.1.length) ++ (v.2.1 ++ v.2.2.1 ++ v.2.2.2.1))))
    fun k v _ => (v.2.1.length < 65536 ∧ v.2.2.1.length < 65536 ∧ v.2.2.2.1.length < 8 ∧ (v.2.1.length + v.2.2.1.length + v.2.2.2.1.length) % 8 = 4) ∧
      v.2.2.2.2 = (w (k + 12) (v.2.1.length + v.2.2.1.length + v.2.2.2.1.length)).isSome := by
  have hsplit : ∀ (addr : U64) (oldLen newLen : U16) (data : List Byte), data.length = roundUpMod (oldLen.toNat + newLen.toNat) 4 8 →
      WEnc cfg ((ParserM.cowSplitAt data oldLen.toNat : Woven w (List Byte × List Byte)) >>= fun x =>
        Pure.pure (⟨addr, x.1, cowTruncate (Woven w) x.2 newLen.toNat⟩ : TextPoke List))
      (fun whole : Bool => pokeRead whole addr (data.take oldLen.toNat) ((data.drop oldLen.toNat).take newLen.toNat) ((data.drop oldLen.toNat).drop newLen.toNat))
      (fun _ => []) fun k whole _ => whole = (w (k - data.length) data.length).isSome := by
    intro addr oldLen newLen data hl
    have hr := roundUpMod_spec (oldLen.toNat + newLen.toNat)
    rw [← hl] at hr
    have hdrop : (data.drop oldLen.toNat).take newLen.toNat ++ (data.drop oldLen.toNat).drop newLen.toNat = data.drop oldLen.toNat := List.take_append_drop _ _
    have hd0 : data ≠ [] := by rintro rfl; simp at hr
    have hrun : ∀ f : Flat, ((ParserM.cowSplitAt data oldLen.toNat : Woven w (List Byte × List Byte)) >>= fun x =>
        Pure.pure (⟨addr, x.1, cowTruncate (Woven w) x.2 newLen.toNat⟩ : TextPoke List)) f =
        .ok (pokeRead (w (f.off - data.length) data.length).isSome addr (data.take oldLen.toNat) ((data.drop oldLen.toNat).take newLen.toNat)
          ((data.drop oldLen.toNat).drop newLen.toNat), f) := by
      intro f
      rw [Woven.bind_eq]
      have hc : (ParserM.cowSplitAt data oldLen.toNat : Woven w (List Byte × List Byte)) f =
        match (Woven.asRead w f data).splitAt oldLen.toNat with
        | some r => .ok ((r.1.data, r.2.data), f)
        | none => .error .panic := by
        simp only [ParserM.cowSplitAt]
        cases (Woven.asRead w f data).splitAt oldLen.toNat <;> rfl
      rw [hc]
      unfold Woven.asRead pokeRead
      rw [hdrop]
      by_cases hw : (w (f.off - data.length) data.length).isSome = true
      · rw [if_pos hw, if_pos hw]
        unfold Cow.splitAt
        dsimp only
        rw [if_pos (by omega)]
        rfl
      rw [if_neg hw, if_neg hw]
      unfold Cow.splitAt
      dsimp only
      by_cases h0 : oldLen.toNat = 0
      · rw [if_pos h0, h0, List.take_zero, List.drop_zero, if_pos rfl]
        show Except.ok (TextPoke.mk addr data (([] : List Byte).take newLen.toNat), f) = _
        rw [List.take_nil]
      rw [if_neg h0]
      have ht : data.take oldLen.toNat ≠ [] := by
        intro h
        rw [List.take_eq_nil_iff] at h
        rcases h with h | h
        · exact h0 h
        · exact hd0 h
      rw [if_neg ht]
      by_cases h1 : oldLen.toNat = data.length
      · rw [if_pos h1, if_pos (by rw [h1, List.drop_length])]
        have : newLen.toNat = 0 := by omega
        show Except.ok (TextPoke.mk addr [] (data.take newLen.toNat), f) = _
        rw [this, List.take_zero]
      · rw [if_neg h1, if_pos (by omega), if_neg (by rw [List.drop_eq_nil_iff]; omega)]
        rfl
    intro f _ _ a g
    rw [hrun f]
    constructor
    · intro h
      have h := Except.ok.inj h
      exact ⟨_, f.s.bytes, rfl, by have h := congrArg Prod.snd h; dsimp only at h; rw [← h]; simp, (congrArg Prod.fst h).symm, rfl⟩
    · rintro ⟨whole, tl, _, h2, h3, h4⟩
      dsimp only at h2 h3 h4
      rw [h2, h3, h4]
      simp
  refine ((u64 hs).bind fun addr => (u16 hs).bind fun oldLen => (u16 hs).bind fun newLen =>
    (bytes (cfg := cfg) (roundUpMod (oldLen.toNat + newLen.toNat) 4 8)).bindC fun _ data t h => hsplit addr oldLen newLen data h.1).re ?_ ?_
  · rintro k ⟨addr, oldLen, newLen, data, whole⟩ tl _ ⟨_, _, _, ⟨hl, _⟩, hw⟩
    dsimp only [id] at hl hw
    have hr := roundUpMod_spec (oldLen.toNat + newLen.toNat)
    rw [← hl] at hr
    have l1 : (data.take oldLen.toNat).length = oldLen.toNat := by rw [List.length_take]; omega
    have l2 : ((data.drop oldLen.toNat).take newLen.toNat).length = newLen.toNat := by rw [List.length_take, List.length_drop]; omega
    have l3 : ((data.drop oldLen.toNat).drop newLen.toNat).length = data.length - oldLen.toNat - newLen.toNat := by rw [List.length_drop, List.length_drop]
    refine ⟨(addr, data.take oldLen.toNat, (data.drop oldLen.toNat).take newLen.toNat, (data.drop oldLen.toNat).drop newLen.toNat, whole), rfl, ?_,
      ⟨?_, ?_, ?_, ?_⟩, ?_⟩
    · dsimp only [id]
      rw [l1, l2, show BitVec.ofNat 16 oldLen.toNat = oldLen by simp, show BitVec.ofNat 16 newLen.toNat = newLen by simp,
        List.append_assoc (data.take _), List.take_append_drop, List.take_append_drop]
      simp
    · rw [l1]; exact oldLen.isLt
    · rw [l2]; exact newLen.isLt
    · rw [l3]; omega
    · dsimp only; rw [l1, l2, l3]; omega
    · dsimp only
      rw [l1, l2, l3, hw, show oldLen.toNat + newLen.toNat + (data.length - oldLen.toNat - newLen.toNat) = data.length by omega]
      simp only [e64_length, e16_length]
      rw [show k + 8 + 2 + 2 + data.length - data.length = k + 12 by omega]
  · rintro k ⟨addr, old, new, pad, whole⟩ tl _ ⟨⟨h1, h2, h3, h4⟩, hw⟩
    dsimp only at h1 h2 h3 h4 hw
    have n1 : (BitVec.ofNat 16 old.length).toNat = old.length := toNat_ofNat_lt h1
    have n2 : (BitVec.ofNat 16 new.length).toNat = new.length := toNat_ofNat_lt h2
    have hr := roundUpMod_spec (old.length + new.length)
    refine ⟨(addr, BitVec.ofNat 16 old.length, BitVec.ofNat 16 new.length, old ++ new ++ pad, whole), ?_, ?_, trivial, trivial, trivial, ⟨?_, fun h0 => ?_⟩, ?_⟩
    · dsimp only [id]
      rw [n1, n2, List.append_assoc, List.take_left, List.drop_left, List.take_left, List.drop_left]
    · simp
    · dsimp only [id]
      rw [n1, n2]
      simp only [List.length_append]
      omega
    · have h0 : old ++ new ++ pad = [] := h0
      have := congrArg List.length h0
      simp only [List.length_append, List.length_nil] at this
      omega
    · dsimp only [id]
      rw [hw]
      simp only [e64_length, e16_length, List.length_append]
      rw [show k + 8 + 2 + 2 + (old.length + new.length + pad.length) - (old.length + new.length + pad.length) = k + 12 by omega]

theorem tagged {α V : Type} {s : Woven w α} {k : α → Record List} {val : V → α} {enc : V → List Byte} {C : Nat → V → List Byte → Prop} {ty : U32}
    (mk : V → KBody) (dr : V → Dropped) (fl : V → Bool)
    (h : WEnc cfg s val enc C) (h1 : ∀ j v tl, C j v tl → (mk v).type = ty ∧ (mk v).Strewn o cfg cfg.misc (fun i n => w (j + i) n) (dr v) tl ∧
      ((mk v).toEnd = true → tl = []))
    (hfl : ∀ j v tl, C j v tl → fl v = (mk v).whole (fun i n => w (j + i) n))
    (hval : ∀ v, k (val v) = if fl v then (mk v).valueHeld cfg cfg.misc else (mk v).valueTaken cfg cfg.misc) (henc : ∀ v, enc v = (mk v).encHeld o cfg (dr v))
    (h2 : ∀ (b : KBody) d j tl, b.type.toNat = ty.toNat → b.Strewn o cfg cfg.misc (fun i n => w (j + i) n) d tl → (b.toEnd = true → tl = []) →
      ∃ v, mk v = b ∧ b.encHeld o cfg (dr v) = b.encHeld o cfg d ∧ C j v tl) :
    WEnc cfg (s >>= fun a => Pure.pure (k a))
      (fun b : KBody × Dropped × Bool => if b.2.2 then b.1.valueHeld cfg cfg.misc else b.1.valueTaken cfg cfg.misc) (fun b => b.1.encHeld o cfg b.2.1)
      fun j b tl => b.2.2 = b.1.whole (fun i n => w (j + i) n) ∧ b.1.type = ty ∧ b.1.Strewn o cfg cfg.misc (fun i n => w (j + i) n) b.2.1 tl ∧
        (b.1.toEnd = true → tl = []) := by
  refine (h.map k).re ?_ ?_
  · intro j v tl _ c
    exact ⟨(mk v, dr v, fl v), hval v, henc v, hfl j v tl c, h1 j v tl c⟩
  · rintro j ⟨b, d, x⟩ tl _ ⟨hx, hb, hT, he⟩
    dsimp only at hb hT he hx
    obtain ⟨v, rfl, hv, c⟩ := h2 b d j tl (by rw [hb]) hT he
    refine ⟨v, ?_, (henc v).trans hv, c⟩
    rw [hx, ← hfl j v tl c]
    exact hval v

theorem pokeRead_value (v : U64 × List Byte × List Byte × List Byte × Bool) :
    (.textPoke (pokeRead v.2.2.2.2 v.1 v.2.1 v.2.2.1 v.2.2.2.1) : Record List) =
      if v.2.2.2.2 then (KBody.textPoke v.1 v.2.1 v.2.2.1 v.2.2.2.1).valueHeld cfg cfg.misc
      else (KBody.textPoke v.1 v.2.1 v.2.2.1 v.2.2.2.1).valueTaken cfg cfg.misc := by
  unfold pokeRead
  split
  · rfl
  · simp only [KBody.valueTaken]
    split
    · rfl
    · split <;> rfl

/-- Which bodies are taken, and for what. -/
theorem body (hs : Src cfg o) (wf : cfg.Wf) (ty : U32) : WEnc cfg (parseBody ty : Woven w (Record List)) 
    (fun b : KBody × Dropped × Bool => if b.2.2 then b.1.valueHeld cfg cfg.misc else b.1.valueTaken cfg cfg.misc) (fun b => b.1.encHeld o cfg b.2.1)
    fun k b tl => b.2.2 = b.1.whole (fun i n => w (k + i) n) ∧ b.1.type = ty ∧ b.1.Strewn o cfg cfg.misc (fun i n => w (k + i) n) b.2.1 tl ∧
      (b.1.toEnd = true → tl = []) := by
  unfold parseBody
  split
  · next h => -- MMAP
    refine tagged (fun v => .mmap v.1 v.2.1 v.2.2.1 v.2.2.2.1 v.2.2.2.2.1 v.2.2.2.2.2) (fun _ => {}) (fun _ => true) ((u32 hs).bind fun pid => (u32 hs).bind fun tid => (u64 hs).bind fun addr => (u64 hs).bind fun len => (u64 hs).bind fun pgoff => (name (cfg := cfg)).map fun c => (⟨pid, tid, addr, len, pgoff, c⟩ : Mmap List))
      (fun _ v tl c => ⟨BitVec.eq_of_toNat_eq h.symm, by exact c.2.2.2.2.2.2, fun _ => c.2.2.2.2.2.1⟩) (fun _ _ _ _ => rfl) (fun v => rfl) (fun v => by simp [KBody.encHeld, KBody.enc]) ?_
    intro b d k tl hb hT he
    cases b with
    | mmap pid tid addr len pgoff n => exact ⟨(pid, tid, addr, len, pgoff, n), rfl, rfl, trivial, trivial, trivial, trivial, trivial, he rfl, hT⟩
    | other ty' d => exact absurd hb (KBody.other_ne (o := o) (cfg := cfg) (misc := cfg.misc) (tl := tl) hT (by omega))
    | _ => exact absurd hb (by rw [h]; simp [KBody.type])
  · next h => -- LOST
    refine tagged (fun v => .lost ⟨v.1, v.2⟩) (fun _ => {}) (fun _ => true) ((u64 hs).bind fun id => (u64 hs).map fun lost => (⟨id, lost⟩ : Lost))
      (fun _ v tl c => ⟨BitVec.eq_of_toNat_eq h.symm, trivial, nofun⟩) (fun _ _ _ _ => rfl) (fun v => rfl) (fun v => by simp [KBody.encHeld, KBody.enc]) ?_
    intro b d k tl hb hT he
    cases b with
    | lost r => exact ⟨(r.id, r.lost), rfl, rfl, trivial, trivial⟩
    | other ty' d => exact absurd hb (KBody.other_ne (o := o) (cfg := cfg) (misc := cfg.misc) (tl := tl) hT (by omega))
    | _ => exact absurd hb (by rw [h]; simp [KBody.type])
  · next h => -- COMM
    refine tagged (fun v => .comm v.1 v.2.1 v.2.2) (fun _ => {}) (fun _ => true) ((u32 hs).bind fun pid => (u32 hs).bind fun tid => (name (cfg := cfg)).map fun c => (⟨pid, tid, c⟩ : Comm List))
      (fun _ v tl c => ⟨BitVec.eq_of_toNat_eq h.symm, by exact c.2.2.2, fun _ => c.2.2.1⟩) (fun _ _ _ _ => rfl) (fun v => rfl) (fun v => by simp [KBody.encHeld, KBody.enc]) ?_
    intro b d k tl hb hT he
    cases b with
    | comm pid tid n => exact ⟨(pid, tid, n), rfl, rfl, trivial, trivial, he rfl, hT⟩
    | other ty' d => exact absurd hb (KBody.other_ne (o := o) (cfg := cfg) (misc := cfg.misc) (tl := tl) hT (by omega))
    | _ => exact absurd hb (by rw [h]; simp [KBody.type])
  · next h => -- EXIT
    refine tagged (fun v => .exit ⟨v.1, v.2.1, v.2.2.1, v.2.2.2.1, v.2.2.2.2⟩) (fun _ => {}) (fun _ => true) ((u32 hs).bind fun pid => (u32 hs).bind fun ppid => (u32 hs).bind fun tid => (u32 hs).bind fun ptid => (u64 hs).map fun time => (⟨pid, ppid, tid, ptid, time⟩ : Exit))
      (fun _ v tl c => ⟨BitVec.eq_of_toNat_eq h.symm, trivial, nofun⟩) (fun _ _ _ _ => rfl) (fun v => rfl) (fun v => by simp [KBody.encHeld, KBody.enc]) ?_
    intro b d k tl hb hT he
    cases b with
    | exit r => exact ⟨(r.pid, r.ppid, r.tid, r.ptid, r.time), rfl, rfl, trivial, trivial, trivial, trivial, trivial⟩
    | other ty' d => exact absurd hb (KBody.other_ne (o := o) (cfg := cfg) (misc := cfg.misc) (tl := tl) hT (by omega))
    | _ => exact absurd hb (by rw [h]; simp [KBody.type])
  · next h => -- THROTTLE
    refine tagged (fun v => .throttle ⟨v.1, v.2.1, v.2.2⟩) (fun _ => {}) (fun _ => true) ((u64 hs).bind fun time => (u64 hs).bind fun id => (u64 hs).map fun streamId => (⟨time, id, streamId⟩ : Throttle))
      (fun _ v tl c => ⟨BitVec.eq_of_toNat_eq h.symm, trivial, nofun⟩) (fun _ _ _ _ => rfl) (fun v => rfl) (fun v => by simp [KBody.encHeld, KBody.enc]) ?_
    intro b d k tl hb hT he
    cases b with
    | throttle r => exact ⟨(r.time, r.id, r.streamId), rfl, rfl, trivial, trivial, trivial⟩
    | other ty' d => exact absurd hb (KBody.other_ne (o := o) (cfg := cfg) (misc := cfg.misc) (tl := tl) hT (by omega))
    | _ => exact absurd hb (by rw [h]; simp [KBody.type])
  · next h => -- UNTHROTTLE
    refine tagged (fun v => .unthrottle ⟨v.1, v.2.1, v.2.2⟩) (fun _ => {}) (fun _ => true) ((u64 hs).bind fun time => (u64 hs).bind fun id => (u64 hs).map fun streamId => (⟨time, id, streamId⟩ : Throttle))
      (fun _ v tl c => ⟨BitVec.eq_of_toNat_eq h.symm, trivial, nofun⟩) (fun _ _ _ _ => rfl) (fun v => rfl) (fun v => by simp [KBody.encHeld, KBody.enc]) ?_
    intro b d k tl hb hT he
    cases b with
    | unthrottle r => exact ⟨(r.time, r.id, r.streamId), rfl, rfl, trivial, trivial, trivial⟩
    | other ty' d => exact absurd hb (KBody.other_ne (o := o) (cfg := cfg) (misc := cfg.misc) (tl := tl) hT (by omega))
    | _ => exact absurd hb (by rw [h]; simp [KBody.type])
  · next h => -- FORK
    refine tagged (fun v => .fork ⟨v.1, v.2.1, v.2.2.1, v.2.2.2.1, v.2.2.2.2⟩) (fun _ => {}) (fun _ => true) ((u32 hs).bind fun pid => (u32 hs).bind fun ppid => (u32 hs).bind fun tid => (u32 hs).bind fun ptid => (u64 hs).map fun time => (⟨pid, ppid, tid, ptid, time⟩ : Exit))
      (fun _ v tl c => ⟨BitVec.eq_of_toNat_eq h.symm, trivial, nofun⟩) (fun _ _ _ _ => rfl) (fun v => rfl) (fun v => by simp [KBody.encHeld, KBody.enc]) ?_
    intro b d k tl hb hT he
    cases b with
    | fork r => exact ⟨(r.pid, r.ppid, r.tid, r.ptid, r.time), rfl, rfl, trivial, trivial, trivial, trivial, trivial⟩
    | other ty' d => exact absurd hb (KBody.other_ne (o := o) (cfg := cfg) (misc := cfg.misc) (tl := tl) hT (by omega))
    | _ => exact absurd hb (by rw [h]; simp [KBody.type])
  · next h => -- READ
    refine tagged (fun v => .read v.1 v.2.1 v.2.2) (fun _ => {}) (fun _ => true) ((u32 hs).bind fun pid => (u32 hs).bind fun tid => (readValue hs).map fun c => (⟨pid, tid, c⟩ : Read))
      (fun _ v tl c => ⟨BitVec.eq_of_toNat_eq h.symm, by exact c.2.2, nofun⟩) (fun _ _ _ _ => rfl) (fun v => rfl) (fun v => by simp [KBody.encHeld, KBody.enc]) ?_
    intro b d k tl hb hT he
    cases b with
    | read pid tid k => exact ⟨(pid, tid, k), rfl, rfl, trivial, trivial, hT⟩
    | other ty' d => exact absurd hb (KBody.other_ne (o := o) (cfg := cfg) (misc := cfg.misc) (tl := tl) hT (by omega))
    | _ => exact absurd hb (by rw [h]; simp [KBody.type])
  · next h => -- SAMPLE
    refine tagged (fun v => .sample v.1) (fun v => v.2) (fun _ => true) (sample hs wf) (fun _ v tl c => ⟨BitVec.eq_of_toNat_eq h.symm, by exact c, nofun⟩) (fun _ _ _ _ => rfl) (fun v => rfl) (fun v => rfl) ?_
    intro b d k tl hb hT he
    cases b with
    | sample s => exact ⟨(s, d), rfl, rfl, hT⟩
    | other ty' d => exact absurd hb (KBody.other_ne (o := o) (cfg := cfg) (misc := cfg.misc) (tl := tl) hT (by omega))
    | _ => exact absurd hb (by rw [h]; simp [KBody.type])
  · next h => -- MMAP2
    refine tagged (fun v => .mmap2 v.1 v.2.1 v.2.2.1 v.2.2.2.1 v.2.2.2.2.1 v.2.2.2.2.2.1 v.2.2.2.2.2.2.1 v.2.2.2.2.2.2.2.1 v.2.2.2.2.2.2.2.2) (fun _ => {}) (fun _ => true) ((u32 hs).bind fun pid => (u32 hs).bind fun tid => (u64 hs).bind fun addr => (u64 hs).bind fun len => (u64 hs).bind fun pgoff => (mmapDetail hs).bind fun d => (u32 hs).bind fun prot => (u32 hs).bind fun flags => (name (cfg := cfg)).map fun c => (⟨pid, tid, addr, len, pgoff, prot, flags, c, d.value⟩ : Mmap2 List))
      (fun _ v tl c => ⟨BitVec.eq_of_toNat_eq h.symm, ⟨c.2.2.2.2.2.1, c.2.2.2.2.2.2.2.2.2⟩, fun _ => c.2.2.2.2.2.2.2.2.1⟩) (fun _ _ _ _ => rfl) (fun v => rfl) (fun v => by simp [KBody.encHeld, KBody.enc]) ?_
    intro b d k tl hb hT he
    cases b with
    | mmap2 pid tid addr len pgoff d prot flags n => exact ⟨(pid, tid, addr, len, pgoff, d, prot, flags, n), rfl, rfl, trivial, trivial, trivial, trivial, trivial, hT.1, trivial, trivial, he rfl, hT.2⟩
    | other ty' d => exact absurd hb (KBody.other_ne (o := o) (cfg := cfg) (misc := cfg.misc) (tl := tl) hT (by omega))
    | _ => exact absurd hb (by rw [h]; simp [KBody.type])
  · next h => -- AUX
    refine tagged (fun v => .aux ⟨v.1, v.2.1, v.2.2⟩) (fun _ => {}) (fun _ => true) ((u64 hs).bind fun auxOffset => (u64 hs).bind fun auxSize => (u64 hs).map fun flags => (⟨auxOffset, auxSize, flags⟩ : Aux))
      (fun _ v tl c => ⟨BitVec.eq_of_toNat_eq h.symm, trivial, nofun⟩) (fun _ _ _ _ => rfl) (fun v => rfl) (fun v => by simp [KBody.encHeld, KBody.enc]) ?_
    intro b d k tl hb hT he
    cases b with
    | aux r => exact ⟨(r.auxOffset, r.auxSize, r.flags), rfl, rfl, trivial, trivial, trivial⟩
    | other ty' d => exact absurd hb (KBody.other_ne (o := o) (cfg := cfg) (misc := cfg.misc) (tl := tl) hT (by omega))
    | _ => exact absurd hb (by rw [h]; simp [KBody.type])
  · next h => -- ITRACE_START
    refine tagged (fun v => .itraceStart ⟨v.1, v.2⟩) (fun _ => {}) (fun _ => true) ((u32 hs).bind fun pid => (u32 hs).map fun tid => (⟨pid, tid⟩ : ITraceStart))
      (fun _ v tl c => ⟨BitVec.eq_of_toNat_eq h.symm, trivial, nofun⟩) (fun _ _ _ _ => rfl) (fun v => rfl) (fun v => by simp [KBody.encHeld, KBody.enc]) ?_
    intro b d k tl hb hT he
    cases b with
    | itraceStart r => exact ⟨(r.pid, r.tid), rfl, rfl, trivial, trivial⟩
    | other ty' d => exact absurd hb (KBody.other_ne (o := o) (cfg := cfg) (misc := cfg.misc) (tl := tl) hT (by omega))
    | _ => exact absurd hb (by rw [h]; simp [KBody.type])
  · next h => -- LOST_SAMPLES
    refine tagged (fun v => .lostSamples ⟨v⟩) (fun _ => {}) (fun _ => true) ((u64 hs).map fun lost => (⟨lost⟩ : LostSamples))
      (fun _ v tl c => ⟨BitVec.eq_of_toNat_eq h.symm, trivial, nofun⟩) (fun _ _ _ _ => rfl) (fun v => rfl) (fun v => by simp [KBody.encHeld, KBody.enc]) ?_
    intro b d k tl hb hT he
    cases b with
    | lostSamples r => exact ⟨r.lost, rfl, rfl, trivial⟩
    | other ty' d => exact absurd hb (KBody.other_ne (o := o) (cfg := cfg) (misc := cfg.misc) (tl := tl) hT (by omega))
    | _ => exact absurd hb (by rw [h]; simp [KBody.type])
  · next h => -- SWITCH_CPU_WIDE
    refine tagged (fun v => .switchCpuWide v.1 v.2) (fun _ => {}) (fun _ => true) (switchCpuWide hs) (fun _ v tl c => ⟨BitVec.eq_of_toNat_eq h.symm, trivial, nofun⟩) (fun _ _ _ _ => rfl) (fun v => rfl)
      (fun v => rfl) ?_
    intro b d k tl hb hT he
    cases b with
    | switchCpuWide pid tid => exact ⟨(pid, tid), rfl, rfl, trivial⟩
    | other ty' d => exact absurd hb (KBody.other_ne (o := o) (cfg := cfg) (misc := cfg.misc) (tl := tl) hT (by omega))
    | _ => exact absurd hb (by rw [h]; simp [KBody.type])
  · next h => -- NAMESPACES
    refine tagged (fun v => .namespaces v.1 v.2.1 v.2.2.2) (fun v => { entries := v.2.2.1 }) (fun _ => true) (namespaces hs wf) (fun _ v tl c => ⟨BitVec.eq_of_toNat_eq h.symm, by exact c, nofun⟩) (fun _ _ _ _ => rfl) (fun v => rfl)
      (fun v => by simp [KBody.encHeld]) ?_
    intro b d k tl hb hT he
    cases b with
    | namespaces pid tid es => exact ⟨(pid, tid, d.entries, es), rfl, rfl, hT⟩
    | other ty' d => exact absurd hb (KBody.other_ne (o := o) (cfg := cfg) (misc := cfg.misc) (tl := tl) hT (by omega))
    | _ => exact absurd hb (by rw [h]; simp [KBody.type])
  · next h => -- KSYMBOL
    refine tagged (fun v => .ksymbol v.1 v.2.1 v.2.2.1 v.2.2.2.1 v.2.2.2.2) (fun _ => {}) (fun _ => true) ((u64 hs).bind fun addr => (u32 hs).bind fun len => (u16 hs).bind fun ksymType => (u16 hs).bind fun flags => (name (cfg := cfg)).map fun c => (⟨addr, len, ksymType, flags, c⟩ : KSymbol List))
      (fun _ v tl c => ⟨BitVec.eq_of_toNat_eq h.symm, by exact c.2.2.2.2.2, fun _ => c.2.2.2.2.1⟩) (fun _ _ _ _ => rfl) (fun v => rfl) (fun v => by simp [KBody.encHeld, KBody.enc]) ?_
    intro b d k tl hb hT he
    cases b with
    | ksymbol addr len ksymType flags n => exact ⟨(addr, len, ksymType, flags, n), rfl, rfl, trivial, trivial, trivial, trivial, he rfl, hT⟩
    | other ty' d => exact absurd hb (KBody.other_ne (o := o) (cfg := cfg) (misc := cfg.misc) (tl := tl) hT (by omega))
    | _ => exact absurd hb (by rw [h]; simp [KBody.type])
  · next h => -- BPF_EVENT
    refine tagged (fun v => .bpfEvent ⟨v.1, v.2.1, v.2.2.1, v.2.2.2⟩) (fun _ => {}) (fun _ => true) ((u16 hs).bind fun ty => (u16 hs).bind fun flags => (u32 hs).bind fun id => (array (cfg := cfg) 8).map fun tag => (⟨ty, flags, id, tag⟩ : BpfEvent))
      (fun _ v tl c => ⟨BitVec.eq_of_toNat_eq h.symm, by exact c.2.2.2.1, nofun⟩) (fun _ _ _ _ => rfl) (fun v => rfl) (fun v => by simp [KBody.encHeld, KBody.enc]) ?_
    intro b d k tl hb hT he
    cases b with
    | bpfEvent r => exact ⟨(r.ty, r.flags, r.id, r.tag), rfl, rfl, trivial, trivial, trivial, hT, fun h0 => by have h0 : r.tag = [] := h0; have hT : r.tag.length = 8 := hT; rw [h0] at hT; cases hT⟩
    | other ty' d => exact absurd hb (KBody.other_ne (o := o) (cfg := cfg) (misc := cfg.misc) (tl := tl) hT (by omega))
    | _ => exact absurd hb (by rw [h]; simp [KBody.type])
  · next h => -- CGROUP
    refine tagged (fun v => .cgroup v.1 v.2) (fun _ => {}) (fun _ => true) ((u64 hs).bind fun id => (name (cfg := cfg)).map fun c => (⟨id, c⟩ : CGroup List))
      (fun _ v tl c => ⟨BitVec.eq_of_toNat_eq h.symm, by exact c.2.2, fun _ => c.2.1⟩) (fun _ _ _ _ => rfl) (fun v => rfl) (fun v => by simp [KBody.encHeld, KBody.enc]) ?_
    intro b d k tl hb hT he
    cases b with
    | cgroup id n => exact ⟨(id, n), rfl, rfl, trivial, he rfl, hT⟩
    | other ty' d => exact absurd hb (KBody.other_ne (o := o) (cfg := cfg) (misc := cfg.misc) (tl := tl) hT (by omega))
    | _ => exact absurd hb (by rw [h]; simp [KBody.type])
  · next h => -- TEXT_POKE
    refine tagged (fun v => .textPoke v.1 v.2.1 v.2.2.1 v.2.2.2.1) (fun _ => {}) (fun v => v.2.2.2.2) (textPoke hs)
      (fun _ v tl c => ⟨BitVec.eq_of_toNat_eq h.symm, by exact c.1, nofun⟩) (fun _ v tl c => c.2) pokeRead_value
      (fun v => by simp [KBody.encHeld, KBody.enc]) ?_
    intro b d k tl hb hT he
    cases b with
    | textPoke addr old new pad => exact ⟨(addr, old, new, pad, (w (k + 12) (old.length + new.length + pad.length)).isSome), rfl, rfl, hT, rfl⟩
    | other ty' d => exact absurd hb (KBody.other_ne (o := o) (cfg := cfg) (misc := cfg.misc) (tl := tl) hT (by omega))
    | _ => exact absurd hb (by rw [h]; simp [KBody.type])
  · next h => -- AUX_OUTPUT_HW_ID
    refine tagged (fun v => .auxOutputHwId ⟨v⟩) (fun _ => {}) (fun _ => true) ((u64 hs).map fun hwId => (⟨hwId⟩ : AuxOutputHwId))
      (fun _ v tl c => ⟨BitVec.eq_of_toNat_eq h.symm, trivial, nofun⟩) (fun _ _ _ _ => rfl) (fun v => rfl) (fun v => by simp [KBody.encHeld, KBody.enc]) ?_
    intro b d k tl hb hT he
    cases b with
    | auxOutputHwId r => exact ⟨r.hwId, rfl, rfl, trivial⟩
    | other ty' d => exact absurd hb (KBody.other_ne (o := o) (cfg := cfg) (misc := cfg.misc) (tl := tl) hT (by omega))
    | _ => exact absurd hb (by rw [h]; simp [KBody.type])
  · rename_i m1 m2 m3 m4 m5 m6 m7 m8 m9 m10 m11 m12 m13 m15 m16 m17 m18 m19 m20 m21
    refine ((rest (cfg := cfg)).map _).re ?_ ?_
    · rintro _ data tl _ ⟨rfl, h0⟩
      refine ⟨(.other ty data, {}, true), rfl, rfl, rfl, rfl, ⟨h0, ?_⟩, fun _ => rfl⟩
      have hty : ∀ n : Nat, n < 2 ^ 32 → (ty = BitVec.ofNat 32 n ↔ ty.toNat = n) := by
        intro n hn
        constructor
        · rintro rfl; exact toNat_ofNat_lt hn
        · intro h; apply BitVec.eq_of_toNat_eq; rw [h, toNat_ofNat_lt hn]
      rw [hty 0 (by omega), hty 14 (by omega)]
      clear hty
      generalize ty.toNat = n at *
      by_cases h22 : 22 ≤ n
      · exact .inr (.inr h22)
      · match n, h22 with
        | 0, _ => exact .inl rfl
        | 14, _ => exact .inr (.inl rfl)
        | 1, _ => exact (m1 rfl).elim
        | 2, _ => exact (m2 rfl).elim
        | 3, _ => exact (m3 rfl).elim
        | 4, _ => exact (m4 rfl).elim
        | 5, _ => exact (m5 rfl).elim
        | 6, _ => exact (m6 rfl).elim
        | 7, _ => exact (m7 rfl).elim
        | 8, _ => exact (m8 rfl).elim
        | 9, _ => exact (m9 rfl).elim
        | 10, _ => exact (m10 rfl).elim
        | 11, _ => exact (m11 rfl).elim
        | 12, _ => exact (m12 rfl).elim
        | 13, _ => exact (m13 rfl).elim
        | 15, _ => exact (m15 rfl).elim
        | 16, _ => exact (m16 rfl).elim
        | 17, _ => exact (m17 rfl).elim
        | 18, _ => exact (m18 rfl).elim
        | 19, _ => exact (m19 rfl).elim
        | 20, _ => exact (m20 rfl).elim
        | 21, _ => exact (m21 rfl).elim
        | n + 22, h => exact (h (by omega)).elim
    · rintro k ⟨b, dr, x⟩ tl _ ⟨hx, hb, hT, he⟩
      dsimp only at hb hT he hx
      cases b with
      | other ty' d =>
        have hb : ty' = ty := hb
        subst hb
        have hx : x = true := hx
        subst hx
        exact ⟨d, rfl, rfl, he rfl, hT.1⟩
      | switch => exact hT.elim
      | _ =>
        subst hb
        exfalso
        first
          | exact m1 rfl
          | exact m2 rfl
          | exact m3 rfl
          | exact m4 rfl
          | exact m5 rfl
          | exact m6 rfl
          | exact m7 rfl
          | exact m8 rfl
          | exact m9 rfl
          | exact m10 rfl
          | exact m11 rfl
          | exact m12 rfl
          | exact m13 rfl
          | exact m15 rfl
          | exact m16 rfl
          | exact m17 rfl
          | exact m18 rfl
          | exact m19 rfl
          | exact m20 rfl
          | exact m21 rfl

end WEnc
end Perf
