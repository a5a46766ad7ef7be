import Verif.Proof.WErr
/-!
# With what errors the body parsers end in pieces of memory, exactly
-/
namespace Perf
open ParserM
variable {cfg : ParseConfig} {o : Order} {w : Nat → Nat → Option Nat} {α α' V : Type}

theorem elementLen_words (rf : U64) : ReadFormat.elementLen rf = counterWords rf := by
  rw [elementLen_eq rf ⟨0, 0, 0⟩]
  unfold counterWords KCounter.words
  cases rf.getLsbD 2 <;> cases rf.getLsbD 4 <;> rfl

theorem diff_ne (cfg : ParseConfig) : ReadFormat.diff cfg.readFormat ReadFormat.all ≠ 0#64 ↔ cfg.readFormat.getLsbD 5 = true := by
  constructor
  · intro h
    cases h' : cfg.readFormat.getLsbD 5
    · exact absurd (diff_zero _ h') h
    · rfl
  · intro h h'
    rw [diff_zero_inv _ (fun h => h h')] at h
    cases h

namespace WErr

theorem if64 (b : Bool) : NoComplaint cfg (Perf.parseIf b (parseU64 : Woven w U64)) := parseIfQ u64

theorem readValue (hs : Src cfg o) : WErr cfg (parseReadValue : Woven w ReadValue) fun e _ _ =>
    cfg.readFormat.getLsbD 3 = true ∧ e = .custom .unsupportedConfig "attempted to parse a SingleRead with a config that has GROUP set in read_format" ∨
    cfg.readFormat.getLsbD 3 = false ∧ cfg.readFormat.getLsbD 5 = true ∧ e = .unknownFlags := by
  have e (m : U64) (i : Nat) (hm : m = 1#64 <<< i) (hi : i < 64) :
    contains cfg.readFormat m = cfg.readFormat.getLsbD i := contains_rf _ i hi m hm
  refine WErr.config ((WErr.ite (fun _ => WErr.fail _) fun h3 => WErr.ite (fun _ => WErr.fail _) fun h5 =>
    u64.bindQ (WEnc.u64 hs) fun value => (if64 _).bindQ (WEnc.if64 hs _ rfl) fun te => (if64 _).bindQ (WEnc.if64 hs _ rfl) fun tr =>
    (if64 _).bindQ (WEnc.if64 hs _ rfl) fun id => (if64 _).map _).re fun x _ _ _ => ?_)
  rw [e ReadFormat.GROUP 3 rfl (by omega), diff_ne]
  simp only [and_false, or_false, Bool.not_eq_true]
  rfl

theorem readGroup (hs : Src cfg o) (h3 : cfg.readFormat.getLsbD 3 = true) : WErr cfg (parseReadGroup : Woven w (ReadGroup List)) fun e _ bs =>
    cfg.readFormat.getLsbD 5 = true ∧ e = .unknownFlags ∨ cfg.readFormat.getLsbD 5 = false ∧
    ∃ (nr te tr : U64) (tl : List Byte), bs = e64 o nr ++ opt (cfg.readFormat.getLsbD 0) (e64 o te) ++ opt (cfg.readFormat.getLsbD 1) (e64 o tr) ++ tl ∧
      (2 ^ 64 ≤ nr.toNat * counterWords cfg.readFormat ∧ e = .custom .invalidRecord "number of elements in group read was too large for data type" ∨
       nr.toNat * counterWords cfg.readFormat < 2 ^ 64 ∧ cfg.endian.isNative = true ∧ 2 ^ 64 ≤ nr.toNat * counterWords cfg.readFormat * 8 ∧
        e = .tooManyBytes) := by
  have e (m : U64) (i : Nat) (hm : m = 1#64 <<< i) (hi : i < 64) :
    contains cfg.readFormat m = cfg.readFormat.getLsbD i := contains_rf _ i hi m hm
  refine WErr.config ((WErr.ite (fun _ => WErr.fail _) fun _ => WErr.ite (fun _ => WErr.fail _) fun h5 =>
    u64.after (WEnc.u64 hs) (fun _ _ _ => trivial) fun nr =>
    (if64 _).after (WEnc.if64 hs _ (e _ 0 rfl (by omega))) (fun _ _ _ _ => trivial) fun te =>
    (if64 _).after (WEnc.if64 hs _ (e _ 1 rfl (by omega))) (fun _ _ _ _ => trivial) fun tr =>
    WErr.ite (fun _ => WErr.fail _) fun _ => (WErr.slice (WEnc.u64 hs) u64 _).map _).re fun x _ bs _ => ?_)
  rw [e ReadFormat.GROUP 3 rfl (by omega), h3, diff_ne, elementLen_words]
  simp only [Bool.not_true, Bool.false_eq_true, false_and, false_or, not_false_eq_true, true_and, Bool.not_eq_true]
  refine or_congr Iff.rfl (and_congr Iff.rfl ?_)
  constructor
  · rintro ⟨nr, _, rfl, te, _, rfl, tr, tl, rfl, h⟩
    refine ⟨nr, te, tr, tl, by simp, ?_⟩
    rcases h with ⟨h1, h2⟩ | ⟨h1, h2, h3, h4⟩
    · exact .inl ⟨h1, h2⟩
    · exact .inr ⟨Nat.not_le.1 h1, h2, h3, h4⟩
  · rintro ⟨nr, te, tr, tl, rfl, h⟩
    refine ⟨nr, _, by rw [List.append_assoc, List.append_assoc], te, _, rfl, tr, tl, rfl, ?_⟩
    rcases h with ⟨h1, h2⟩ | ⟨h1, h2, h3, h4⟩
    · exact .inl ⟨h1, h2⟩
    · exact .inr ⟨Nat.not_le.2 h1, h2, h3, h4⟩

theorem values (hs : Src cfg o) (hw : Bool) : WErr cfg (parseValues : Woven w (ReadGroup List)) fun e _ bs =>
    PartWrong cfg.endian.isNative o cfg.readFormat hw 4 bs e := by
  have e3 : contains cfg.readFormat ReadFormat.GROUP = cfg.readFormat.getLsbD 3 := contains_rf _ 3 (by omega) _ rfl
  refine WErr.config ((WErr.ite (fun h => readGroup hs (e3.symm.trans h)) fun h => (readValue hs).map _).re fun x _ bs _ => ?_)
  rw [e3]
  constructor
  · rintro (⟨h3, ⟨h5, rfl⟩ | ⟨h5, nr, te, tr, tl, rfl, ⟨h1, rfl⟩ | ⟨h1, h2, h4, rfl⟩⟩⟩ | ⟨h3, ⟨h, _⟩ | ⟨_, h5, rfl⟩⟩)
    · exact .flags _ h5
    · exact .group nr te tr tl h5 h3 h1
    · exact .values nr te tr tl h5 h3 h2 h1 h4
    · exact absurd h h3
    · exact .flags _ h5
  · intro h
    cases h with
    | flags _ h5 =>
      by_cases h3 : cfg.readFormat.getLsbD 3 = true
      · exact .inl ⟨h3, .inl ⟨h5, rfl⟩⟩
      · exact .inr ⟨h3, .inr ⟨by simpa using h3, h5, rfl⟩⟩
    | group nr te tr tl h5 h3 h1 => exact .inl ⟨h3, .inr ⟨h5, nr, te, tr, tl, rfl, .inl ⟨h1, rfl⟩⟩⟩
    | values nr te tr tl h5 h3 h2 h1 h4 => exact .inl ⟨h3, .inr ⟨h5, nr, te, tr, tl, rfl, .inr ⟨h1, h2, h4, rfl⟩⟩⟩

theorem callchain (hs : Src cfg o) (hw : Bool) : WErr cfg (parseCallchain : Woven w (List U64)) fun e _ bs =>
    PartWrong cfg.endian.isNative o cfg.readFormat hw 5 bs e := by
  refine (u64.after (WEnc.u64 hs) (fun _ _ _ => trivial) fun nr => WErr.slice (WEnc.u64 hs) u64 nr.toNat).re fun x _ bs _ => ?_
  constructor
  · rintro ⟨nr, tl, rfl, h1, h2, rfl⟩
    exact .callchain nr tl h1 h2
  · intro h
    cases h with
    | callchain nr tl h1 h2 => exact ⟨nr, tl, rfl, h1, h2, rfl⟩

theorem branchEntry (hs : Src cfg o) : NoComplaint cfg (parseBranchEntry : Woven w BranchEntry) :=
  u64.bindQ (WEnc.u64 hs) fun _ => u64.bindQ (WEnc.u64 hs) fun _ => u64.map _

theorem lbr (hs : Src cfg o) (hw : Bool) : WErr cfg (parseLbr hw : Woven w (List BranchEntry × Option U64)) fun e _ bs =>
    PartWrong cfg.endian.isNative o cfg.readFormat hw 11 bs e := by
  refine (u64.after (WEnc.u64 hs) (fun _ _ _ => trivial) fun nr => (if64 _).after (WEnc.if64 hs hw rfl) (fun _ _ _ _ => trivial) fun i =>
    (WErr.slice (WEnc.branchEntry hs) (branchEntry hs) nr.toNat).map _).re fun x _ bs _ => ?_
  constructor
  · rintro ⟨nr, _, rfl, i, tl, rfl, h1, h2, rfl⟩
    rw [← List.append_assoc]
    exact .branches nr i tl h1 h2
  · intro h
    cases h with
    | branches nr i tl h1 h2 => exact ⟨nr, _, List.append_assoc _ _ _, i, tl, rfl, h1, h2, rfl⟩

theorem stack (hs : Src cfg o) (hw : Bool) : WErr cfg (parseStackUser : Woven w (List Byte)) fun e _ bs =>
    PartWrong cfg.endian.isNative o cfg.readFormat hw 13 bs e := by
  have htail : ∀ (size : U64) (data : List Byte), data.length = size.toNat → WErr cfg
      ((parseDynSize size : Woven w U64) >>= fun d => if d.toNat > (elems (Woven w) data).length then
        ParserM.fail (.custom .invalidRecord "stack dyn_size was greater than the record size")
        else Pure.pure (cowTruncate (Woven w) data d.toNat))
      fun e _ bs => data ≠ [] ∧ ∃ (d : U64) (tl : List Byte), bs = e64 o d ++ tl ∧ data.length < d.toNat ∧
        e = .custom .invalidRecord "stack dyn_size was greater than the record size" := by
    intro size data hl
    by_cases hz : size.toNat = 0
    · have : (parseDynSize size : Woven w U64) = Pure.pure 0#64 := by unfold parseDynSize; rw [if_pos hz]
      rw [this]
      have hd : data = [] := List.length_eq_zero_iff.1 (hl.trans hz)
      subst hd
      refine ((WErr.pure (cfg := cfg) 0#64).bindQ (WEnc.pure 0#64) fun _ => (WErr.ite (fun h => WErr.fail _) fun _ => WErr.pure _).re
        fun _ _ _ _ => ⟨fun h => ?_, False.elim⟩).re fun _ _ _ _ => ⟨False.elim, fun h => absurd rfl h.1⟩
      exact h.elim (fun h => absurd h.1 (Nat.not_lt_zero _)) (·.2)
    · have : (parseDynSize size : Woven w U64) = parseU64 := by unfold parseDynSize; rw [if_neg hz]
      rw [this]
      have hd : data ≠ [] := by intro h; rw [h] at hl; simp at hl; omega
      refine (u64.after (WEnc.u64 hs) (fun _ _ _ => trivial) fun d => WErr.ite (fun _ => WErr.fail _) fun _ => WErr.pure _).re fun x _ bs _ => ?_
      constructor
      · rintro ⟨d, tl, rfl, ⟨h1, rfl⟩ | ⟨_, h⟩⟩
        · exact ⟨hd, d, tl, rfl, h1, rfl⟩
        · exact h.elim
      · rintro ⟨_, d, tl, rfl, h1, rfl⟩
        exact ⟨d, tl, rfl, .inl ⟨h1, rfl⟩⟩
  refine (u64.bind (WEnc.u64 hs) fun _ size _ _ => (bytes (cfg := cfg) size.toNat).bind (WEnc.bytes size.toNat)
    fun _ data _ h => htail size data h.1).re fun x k bs hlen => ?_
  constructor
  · rintro (h | ⟨size, _, rfl, _, h | ⟨data, _, rfl, ⟨hl, _⟩, hd, d, tl, rfl, h1, rfl⟩⟩)
    · exact h.elim
    · exact h.elim
    · have hl : data.length = size.toNat := hl
      have := PartWrong.stack (native := cfg.endian.isNative) (o := o) (rf := cfg.readFormat) (hwIndex := hw) data d tl hd h1
      rw [hl, BitVec.ofNat_toNat, BitVec.setWidth_eq, List.append_assoc, List.append_assoc] at this
      exact this
  · intro h
    cases h with
    | stack data d tl hd h1 =>
      simp only [List.length_append] at hlen
      have hlt : data.length < 2 ^ 64 := by omega
      exact .inr ⟨BitVec.ofNat 64 data.length, data ++ (e64 o d ++ tl), by rw [List.append_assoc, List.append_assoc], trivial, .inr ⟨data, _, rfl,
        ⟨(toNat_ofNat_lt hlt).symm, fun h => absurd h hd⟩, hd, d, tl, rfl, h1, rfl⟩⟩

theorem regs (hs : Src cfg o) (mask : U64) : NoComplaint cfg (parseRegisters mask : Woven w (Registers List)) := by
  refine u64.bindQ (WEnc.u64 hs) fun _ => ((WErr.slice (e := U64.elem) (WEnc.u64 hs) u64 (popcount mask)).map _).re fun _ _ _ _ => ⟨fun h => ?_, False.elim⟩
  have hp : popcount mask ≤ 64 := by
    have := List.length_filter_le (fun i => mask.getLsbD i) (List.range 64)
    rw [List.length_range] at this
    exact this
  have h8 : U64.elem.size = 8 := rfl
  have := h.2.1
  rw [h8] at this
  omega

theorem raw (hs : Src cfg o) : NoComplaint cfg (ParserM.padded 8 parseRawInner : Woven w (List Byte)) :=
  padded (u32.bindQ (WEnc.u32 hs) fun n => bytes n.toNat) 8

theorem auxData (hs : Src cfg o) : NoComplaint cfg (parseAuxData : Woven w (List Byte)) := u64.bindQ (WEnc.u64 hs) fun n => bytes n.toNat

theorem cpu (hs : Src cfg o) : NoComplaint cfg (parseCpu : Woven w U32) := u32.bindQ (WEnc.u32 hs) fun _ => u32.map _

end WErr
end Perf
