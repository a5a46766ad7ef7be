import Verif.Proof.PExact
/-!
# What the body parsers accept from a reader, exactly
-/
namespace Perf
open ParserM
variable {cfg : ParseConfig} {o : Order}

/-! ## Copies -/

/-- A group with its counters in a copy. -/
def ReadGroup.own (r : ReadGroup List) : ReadGroup Cow :=
  { readFormat := r.readFormat, timeEnabled := r.timeEnabled, timeRunning := r.timeRunning, data := .owned r.data }
def Registers.own (r : Registers List) : Registers Cow := { abi := r.abi, mask := r.mask, regs := .owned r.regs }
def Sample.own (s : Sample List) : Sample Cow :=
  { ip := s.ip, pid := s.pid, tid := s.tid, time := s.time, addr := s.addr, id := s.id, streamId := s.streamId
    cpu := s.cpu, period := s.period, values := s.values.map ReadGroup.own, callchain := s.callchain.map Cow.owned
    raw := s.raw.map Cow.owned, lbrHwIndex := s.lbrHwIndex, lbr := s.lbr.map Cow.owned
    regsUser := s.regsUser.map Registers.own, stackUser := s.stackUser.map Cow.owned, weight := s.weight
    dataSrc := s.dataSrc, transaction := s.transaction, regsIntr := s.regsIntr.map Registers.own
    physAddr := s.physAddr, aux := s.aux.map Cow.owned, cgroup := s.cgroup, dataPageSize := s.dataPageSize
    codePageSize := s.codePageSize }

theorem Sample.own_view (s : Sample List) : s.own.view = s := by
  unfold Sample.own Sample.view
  simp only [Option.map_map]
  have h1 : ∀ x : Option (ReadGroup List), x.map (ReadGroup.view ∘ ReadGroup.own) = x := fun x => by cases x <;> rfl
  have h2 : ∀ x : Option (Registers List), x.map (Registers.view ∘ Registers.own) = x := fun x => by cases x <;> rfl
  have h3 : ∀ {T : Type} (x : Option (List T)), x.map (Cow.data ∘ Cow.owned) = x := fun x => by cases x <;> rfl
  rw [h1, h2, h2, h3, h3, h3, h3, h3]

theorem map_optv {α α' : Type} (f : α → α') (c : Bool) (x : α) : (optv c x).map f = optv c (f x) := by cases c <;> rfl

namespace PEnc

/-! ## Parts -/

theorem words (hs : Src cfg o) (n : Nat) : PEnc cfg (ParserM.slice U64.elem parseU64 n : Piped (Cow U64)) Cow.owned (fun xs => xs.flatMap (e64 o))
    fun xs tl => xs.length = n ∧ (cfg.endian.isNative = true → xs = [] → tl ≠ []) :=
  slice (by decide) (e64_length o) (u64 hs) n

theorem cpu (hs : Src cfg o) : PEnc cfg (parseCpu : Piped U32) (fun v : U32 × U32 => v.1) (fun v => e32 o v.1 ++ e32 o v.2) fun _ _ => True :=
  ((u32 hs).bind fun a => (u32 hs).map fun _ => a).re (fun v _ _ _ => ⟨v, rfl, rfl, trivial⟩) fun v _ _ _ => ⟨v, rfl, rfl, trivial, trivial⟩

theorem readValue (hs : Src cfg o) : PEnc cfg (parseReadValue : Piped ReadValue) (fun v : KRead => v.readValue cfg.readFormat)
    (fun v => v.enc o cfg.readFormat) fun _ _ => cfg.readFormat.getLsbD 3 = false ∧ cfg.readFormat.getLsbD 5 = false := by
  have e (m : U64) (i : Nat) (hm : m = 1#64 <<< i) (hi : i < 64) :
    contains cfg.readFormat m = cfg.readFormat.getLsbD i := contains_rf _ i hi m hm
  refine PEnc.config (PEnc.ite (fun h3 => PEnc.fail ?_) fun h3 => PEnc.ite (fun h5 => PEnc.fail ?_) fun h5 => ?_)
  · rintro v tl ⟨h, _⟩
    rw [e ReadFormat.GROUP 3 rfl (by omega), h] at h3
    cases h3
  · rintro v tl ⟨_, h⟩
    exact h5 (diff_zero _ h)
  have h3' : cfg.readFormat.getLsbD 3 = false := by rw [← e ReadFormat.GROUP 3 rfl (by omega)]; simpa using h3
  refine ((u64 hs).bind fun value => (if64 hs _ (e _ 0 rfl (by omega))).bind fun te => (if64 hs _ (e _ 1 rfl (by omega))).bind fun tr =>
    (if64 hs _ (e _ 2 rfl (by omega))).bind fun id => (if64 hs _ (e _ 4 rfl (by omega))).map _).re ?_ ?_
  · rintro ⟨value, te, tr, id, lost⟩ tl _ _
    exact ⟨⟨value, te, tr, id, lost⟩, by simp only [getD_optv, KRead.readValue, _root_.id], by simp [KRead.enc], h3', diff_zero_inv _ h5⟩
  · rintro ⟨value, te, tr, id, lost⟩ tl _ _
    exact ⟨(value, te, tr, id, lost), by simp only [getD_optv, KRead.readValue, _root_.id], by simp [KRead.enc], by simp⟩

theorem readGroup (hs : Src cfg o) : PEnc cfg (parseReadGroup : Piped (ReadGroup Cow)) (fun g : KGroup => (g.readGroup cfg.readFormat).own)
    (fun g => g.enc o cfg.readFormat) fun g tl => cfg.readFormat.getLsbD 3 = true ∧ cfg.readFormat.getLsbD 5 = false ∧
      (cfg.endian.isNative = true → g.counters = [] → tl ≠ []) := by
  have e (m : U64) (i : Nat) (hm : m = 1#64 <<< i) (hi : i < 64) :
    contains cfg.readFormat m = cfg.readFormat.getLsbD i := contains_rf _ i hi m hm
  refine PEnc.config (PEnc.ite (fun h3 => PEnc.fail ?_) fun h3 => PEnc.ite (fun h5 => PEnc.fail ?_) fun h5 => ?_)
  · rintro v tl ⟨h, _⟩
    rw [e ReadFormat.GROUP 3 rfl (by omega), h] at h3
    cases h3
  · rintro v tl ⟨_, h, _⟩
    exact h5 (diff_zero _ h)
  have h3' : cfg.readFormat.getLsbD 3 = true := by rw [← e ReadFormat.GROUP 3 rfl (by omega)]; simpa using h3
  have hwords : ∀ cs : List KCounter, (cs.flatMap (KCounter.words cfg.readFormat)).length = cs.length * ReadFormat.elementLen cfg.readFormat := by
    intro cs
    induction cs with
    | nil => simp
    | cons c cs ih => rw [List.flatMap_cons, List.length_append, ih, List.length_cons, Nat.succ_mul, Nat.add_comm, elementLen_eq cfg.readFormat c]
  have hpos : 0 < ReadFormat.elementLen cfg.readFormat := by
    rw [elementLen_eq cfg.readFormat ⟨0, 0, 0⟩]
    simp only [KCounter.words, List.length_append, List.length_cons]
    omega
  have hinner : ∀ (nr : U64) (k : Cow U64 → ReadGroup Cow), PEnc cfg (if nr.toNat * ReadFormat.elementLen cfg.readFormat ≥ usizeLimit then
      (ParserM.fail (.custom .invalidRecord "number of elements in group read was too large for data type") : Piped (ReadGroup Cow))
      else (ParserM.slice U64.elem parseU64 (nr.toNat * ReadFormat.elementLen cfg.readFormat) : Piped (Cow U64)) >>= fun d => Pure.pure (k d))
      (fun xs => k (Cow.owned xs)) (fun xs => xs.flatMap (e64 o))
      fun xs tl => xs.length = nr.toNat * ReadFormat.elementLen cfg.readFormat ∧ xs.length < 65536 ∧
        (cfg.endian.isNative = true → xs = [] → tl ≠ []) := by
    intro nr k
    refine PEnc.ite (fun h => PEnc.fail ?_) fun h => ((words hs _).map k).re ?_ ?_
    · rintro xs tl ⟨h1, h2, _⟩
      have : (65536 : Nat) ≤ usizeLimit := by decide
      omega
    · rintro xs tl hl ⟨h1, h2⟩
      refine ⟨xs, rfl, rfl, h1, ?_, h2⟩
      rw [List.length_append, flatMap_e64_length] at hl
      omega
    · rintro xs tl _ ⟨h1, _, h2⟩
      exact ⟨xs, rfl, rfl, h1, h2⟩
  refine ((u64 hs).bind fun nr => (if64 hs _ (e _ 0 rfl (by omega))).bind fun te => (if64 hs _ (e _ 1 rfl (by omega))).bind fun tr =>
    hinner nr _).re ?_ ?_
  · rintro ⟨nr, te, tr, data⟩ tl _ ⟨_, _, _, hd, hl, hn⟩
    dsimp only at hd hl hn
    obtain ⟨cs, hc, hw⟩ := words_exist cfg.readFormat nr.toNat data (by omega)
    rw [List.take_of_length_le (by omega)] at hw
    refine ⟨⟨te, tr, cs⟩, ?_, ?_, h3', diff_zero_inv _ h5, fun h h0 => hn h ?_⟩
    · simp only [getD_optv, KGroup.readGroup, ReadGroup.own, hw]
    · simp only [KGroup.enc, ofNat_toNat64 nr hc, hw]
      simp
    · have h0 : cs = [] := h0
      rw [hw, h0]; rfl
  · rintro ⟨te, tr, cs⟩ tl hlen ⟨_, _, hn⟩
    have hl : (cs.flatMap (KCounter.words cfg.readFormat)).length < 65536 := by
      simp only [KGroup.enc, List.length_append, flatMap_e64_length] at hlen
      omega
    have hc : cs.length < 2 ^ 64 := by
      rw [hwords] at hl
      have := Nat.le_mul_of_pos_right cs.length hpos
      omega
    have hnr : (BitVec.ofNat 64 cs.length).toNat = cs.length := toNat_ofNat_lt hc
    refine ⟨(BitVec.ofNat 64 cs.length, te, tr, cs.flatMap (KCounter.words cfg.readFormat)), ?_, ?_, trivial, fun _ => trivial, fun _ => trivial, ?_, hl, ?_⟩
    · simp only [getD_optv, KGroup.readGroup, ReadGroup.own]
    · simp [KGroup.enc]
    · dsimp only
      rw [hnr, hwords]
    · intro h h0
      refine hn h ?_
      dsimp only at h0
      have := hwords cs
      rw [h0] at this
      have := this.symm
      simp only [List.length_nil, Nat.mul_eq_zero] at this
      rcases this with h | h
      · exact List.length_eq_zero_iff.1 h
      · omega

/-- Counter values in a sample. -/
theorem values (hs : Src cfg o) : PEnc cfg (parseValues : Piped (ReadGroup Cow))
    (fun v : KRead × KGroup => ReadGroup.own (if cfg.readFormat.getLsbD 3 then v.2.readGroup cfg.readFormat else
        { readFormat := cfg.readFormat ||| 8#64
          timeEnabled := if cfg.readFormat.getLsbD 0 then v.1.timeEnabled else 0#64
          timeRunning := if cfg.readFormat.getLsbD 1 then v.1.timeRunning else 0#64
          data := KCounter.words cfg.readFormat ⟨v.1.value, v.1.id, v.1.lost⟩ }))
    (fun v => if cfg.readFormat.getLsbD 3 then v.2.enc o cfg.readFormat else v.1.enc o cfg.readFormat)
    fun v tl => cfg.readFormat.getLsbD 5 = false ∧
      (cfg.endian.isNative = true → cfg.readFormat.getLsbD 3 = true → v.2.counters = [] → tl ≠ []) := by
  refine PEnc.config ?_
  have e (m : U64) (i : Nat) (hm : m = 1#64 <<< i) (hi : i < 64) :
    contains cfg.readFormat m = cfg.readFormat.getLsbD i := contains_rf _ i hi m hm
  have e3 := e ReadFormat.GROUP 3 rfl (by omega)
  have e2 := e ReadFormat.ID 2 rfl (by omega)
  have e4 := e ReadFormat.LOST 4 rfl (by omega)
  refine PEnc.ite (fun h3 => ?_) fun h3 => ?_
  · rw [e3] at h3
    refine (readGroup hs).re ?_ ?_
    · rintro g tl _ ⟨_, h5, hn⟩
      exact ⟨(⟨0, 0, 0, 0, 0⟩, g), by rw [if_pos h3], by rw [if_pos h3], h5, fun h _ => hn h⟩
    · rintro ⟨_, g⟩ tl _ ⟨h5, hn⟩
      exact ⟨g, by rw [if_pos h3], by rw [if_pos h3], h3, h5, fun h => hn h h3⟩
  · rw [e3] at h3
    have hv : ∀ v : KRead, (ReadGroup.ofValue Piped (v.readValue cfg.readFormat) : ReadGroup Cow) = ReadGroup.own
        { readFormat := cfg.readFormat ||| 8#64
          timeEnabled := if cfg.readFormat.getLsbD 0 then v.timeEnabled else 0#64
          timeRunning := if cfg.readFormat.getLsbD 1 then v.timeRunning else 0#64
          data := KCounter.words cfg.readFormat ⟨v.value, v.id, v.lost⟩ } := by
      intro v
      unfold ReadGroup.ofValue KRead.readValue KCounter.words ReadGroup.own
      simp only [ReadValue.getId, ReadValue.getLost, e2, e4, thenSome]
      cases cfg.readFormat.getLsbD 2 <;> cases cfg.readFormat.getLsbD 4 <;> rfl
    refine ((readValue hs).map (ReadGroup.ofValue Piped)).re ?_ ?_
    · rintro v tl _ ⟨_, h5⟩
      exact ⟨(v, ⟨0, 0, []⟩), by rw [if_neg h3]; exact hv v, by rw [if_neg h3], h5, fun _ h => absurd h h3⟩
    · rintro ⟨v, _⟩ tl _ ⟨h5, _⟩
      exact ⟨v, by rw [if_neg h3]; exact hv v, by rw [if_neg h3], by simpa using h3, h5⟩

/-- A count, and then something of that length. -/
theorem counted {α T : Type} {w : Nat} {s : Nat → Piped α} {count : Piped (BitVec w)} {ec : BitVec w → List Byte} {val : List T → α} {en : List T → List Byte}
    {C : List T → List Byte → Prop} (hc : PEnc cfg count id ec fun _ _ => True) (h : ∀ n, PEnc cfg (s n) val en fun xs tl => xs.length = n ∧ C xs tl)
    (hle : ∀ xs, (en xs).length < 65536 → xs.length < 2 ^ w) :
    PEnc cfg (count >>= fun n => s n.toNat) val (fun xs => ec (BitVec.ofNat w xs.length) ++ en xs) C := by
  refine (hc.bind fun n => h n.toNat).re ?_ ?_
  · rintro ⟨n, xs⟩ tl _ ⟨_, hl, h⟩
    dsimp only at hl h
    refine ⟨xs, rfl, ?_, h⟩
    dsimp only
    rw [hl]
    simp
  · rintro xs tl hlen h
    have hlt := hle xs (by simp only [List.length_append] at hlen; omega)
    exact ⟨(BitVec.ofNat w xs.length, xs), rfl, rfl, trivial, (toNat_ofNat_lt hlt).symm, h⟩

theorem callchain (hs : Src cfg o) : PEnc cfg (parseCallchain : Piped (Cow U64)) Cow.owned
    (fun xs => e64 o (BitVec.ofNat 64 xs.length) ++ xs.flatMap (e64 o)) fun xs tl => cfg.endian.isNative = true → xs = [] → tl ≠ [] :=
  counted (u64 hs) (fun n => words hs n) fun xs h => by rw [flatMap_e64_length] at h; omega

theorem raw (hs : Src cfg o) : PEnc cfg (ParserM.padded 8 parseRawInner : Piped (Cow Byte)) (fun v : List Byte × List Byte => Cow.owned v.1)
    (fun v => e32 o (BitVec.ofNat 32 v.1.length) ++ v.1 ++ v.2) fun v _ => v.2.length < 8 ∧ (4 + v.1.length + v.2.length) % 8 = 0 := by
  have hin : PEnc cfg (parseRawInner : Piped (Cow Byte)) Cow.owned (fun xs => e32 o (BitVec.ofNat 32 xs.length) ++ xs)
      fun xs tl => xs = [] → tl ≠ [] := counted (u32 hs) (fun n => bytes n) fun xs h => by have h : xs.length < 65536 := h; omega
  refine (padded hin (n := 8) (by decide)).re ?_ ?_
  · rintro ⟨v, pad⟩ tl _ ⟨_, h1, h2⟩
    exact ⟨(v, pad), rfl, rfl, h1, by simpa using h2⟩
  · rintro ⟨v, pad⟩ tl _ ⟨h1, h2⟩
    refine ⟨(v, pad), rfl, rfl, fun h0 hp => ?_, h1, by simpa using h2⟩
    dsimp only at h0 hp h2
    rw [h0, (List.append_eq_nil_iff.1 hp).1] at h2
    simp at h2

theorem branchEntry (hs : Src cfg o) : PEnc cfg (parseBranchEntry : Piped BranchEntry) id (encBranch o) fun _ _ => True :=
  ((u64 hs).bind fun a => (u64 hs).bind fun b => (u64 hs).map fun c => (⟨a, b, c⟩ : BranchEntry)).re
    (fun v _ _ _ => ⟨⟨v.1, v.2.1, v.2.2⟩, rfl, by simp [encBranch], trivial⟩)
    fun v _ _ _ => ⟨(v.from_, v.to, v.bits), rfl, by simp [encBranch], trivial, trivial, trivial⟩

theorem lbr (hs : Src cfg o) (hw : Bool) : PEnc cfg (parseLbr hw : Piped (Cow BranchEntry × Option U64))
    (fun v : U64 × List BranchEntry => (Cow.owned v.2, optv hw v.1))
    (fun v => e64 o (BitVec.ofNat 64 v.2.length) ++ opt hw (e64 o v.1) ++ v.2.flatMap (encBranch o))
    fun v tl => cfg.endian.isNative = true → v.2 = [] → tl ≠ [] := by
  have hlen : ∀ x, (encBranch o x).length = BranchEntry.elem.size := fun x => by simp [encBranch, BranchEntry.elem]
  have hflat : ∀ xs : List BranchEntry, xs.length ≤ (xs.flatMap (encBranch o)).length := by
    intro xs
    induction xs with
    | nil => simp
    | cons x xs ih => 
      rw [List.flatMap_cons, List.length_append, hlen, List.length_cons]
      have : BranchEntry.elem.size = 24 := rfl
      omega
  refine ((u64 hs).bind fun nr => (if64 hs hw rfl).bind fun idx => (slice (by decide) hlen (branchEntry hs) nr.toNat).map fun l => (l, optv hw idx)).re ?_ ?_
  · rintro ⟨nr, idx, xs⟩ tl _ ⟨_, _, hl, h⟩
    dsimp only [id] at hl h
    exact ⟨(idx, xs), rfl, by simp [hl], h⟩
  · rintro ⟨idx, xs⟩ tl hlen' h
    have hlt : xs.length < 2 ^ 64 := by
      have := hflat xs
      simp only [List.length_append] at hlen'
      omega
    exact ⟨(BitVec.ofNat 64 xs.length, idx, xs), rfl, by simp, trivial, fun _ => trivial, (toNat_ofNat_lt hlt).symm, h⟩

theorem regs (hs : Src cfg o) (mask : U64) : PEnc cfg (parseRegisters mask : Piped (Registers Cow))
    (fun v : KRegs => Registers.own ⟨v.abi, mask, v.values⟩) (fun v => v.encTaken o)
    fun v tl => v.values.length = popcount mask ∧ (cfg.endian.isNative = true → v.values = [] → tl ≠ []) :=
  ((u64 hs).bind fun abi => (words hs (popcount mask)).map fun l => (⟨abi, mask, l⟩ : Registers Cow)).re
    (fun v _ _ h => ⟨⟨v.1, v.2⟩, rfl, rfl, h.2⟩) fun v _ _ h => ⟨(v.abi, v.values), rfl, rfl, trivial, h⟩

theorem stack (hs : Src cfg o) : PEnc cfg (parseStackUser : Piped (Cow Byte))
    (fun v : List Byte × U64 => Cow.owned (if v.1 = [] then [] else v.1.take v.2.toNat))
    (fun v => e64 o (BitVec.ofNat 64 v.1.length) ++ v.1 ++ (if v.1 = [] then [] else e64 o v.2))
    fun v tl => (v.1 ≠ [] → v.2.toNat ≤ v.1.length) ∧ (v.1 = [] → tl ≠ []) := by
  have htail : ∀ (size : U64) (data : List Byte), data.length = size.toNat → PEnc cfg
      ((parseDynSize size : Piped U64) >>= fun d => if d.toNat > (elems Piped (Cow.owned data)).length then
        ParserM.fail (.custom .invalidRecord "stack dyn_size was greater than the record size")
        else Pure.pure (cowTruncate Piped (Cow.owned data) d.toNat))
      (fun d : U64 => Cow.owned (if data = [] then [] else data.take d.toNat)) (fun d => if data = [] then [] else e64 o d)
      fun d _ => data ≠ [] → d.toNat ≤ data.length := by
    intro size data hl
    by_cases hz : size.toNat = 0
    · have : (parseDynSize size : Piped U64) = Pure.pure 0#64 := by unfold parseDynSize; rw [if_pos hz]
      rw [this]
      have hd : data = [] := List.length_eq_zero_iff.1 (hl.trans hz)
      subst hd
      refine ((PEnc.pure (cfg := cfg) 0#64).bind fun _ => PEnc.pure (α := Cow Byte) (Cow.owned [])).re ?_ ?_
      · rintro v tl _ _; exact ⟨0, by simp, by simp, by simp⟩
      · rintro v tl _ _; exact ⟨((), ()), by simp, by simp, by simp⟩
    · have : (parseDynSize size : Piped U64) = parseU64 := by unfold parseDynSize; rw [if_neg hz]
      rw [this]
      have hd : data ≠ [] := by intro h; rw [h] at hl; simp at hl; omega
      refine ((u64 hs).bind (val' := fun d (_ : Unit) => Cow.owned (data.take d.toNat)) (enc' := fun _ _ => [])
        (C' := fun d _ _ => d.toNat ≤ data.length) fun d => PEnc.ite (fun h => PEnc.fail ?_) fun h => ?_).re ?_ ?_
      · intro v tl h'
        have h : d.toNat > data.length := h
        omega
      · have h : ¬ d.toNat > data.length := h
        exact (PEnc.pure _).re (fun v tl _ _ => ⟨(), rfl, rfl, by omega⟩) fun v tl _ _ => ⟨(), rfl, rfl, trivial⟩
      · rintro ⟨d, _⟩ tl _ ⟨_, h⟩
        exact ⟨d, by simp [hd], by simp [hd], fun _ => h⟩
      · rintro d tl _ h
        exact ⟨(d, ()), by simp [hd], by simp [hd], trivial, h hd⟩
  refine ((u64 hs).bind fun size => (bytes (cfg := cfg) size.toNat).bindC fun data t h => htail size data h.1).re ?_ ?_
  · rintro ⟨size, data, d⟩ tl _ ⟨_, ⟨hl, h1⟩, h2⟩
    dsimp only [id] at hl h1 h2
    refine ⟨(data, d), rfl, by simp [hl], h2, fun h0 => ?_⟩
    have h0 : data = [] := h0
    have := h1 h0
    rw [if_pos h0] at this
    exact this
  · rintro ⟨data, d⟩ tl hlen ⟨h1, h2⟩
    dsimp only at h1 h2 hlen
    simp only [List.length_append] at hlen
    have hlt : data.length < 2 ^ 64 := by omega
    refine ⟨(BitVec.ofNat 64 data.length, data, d), rfl, by simp, trivial, ⟨(toNat_ofNat_lt hlt).symm, fun h0 => ?_⟩, h1⟩
    have h0 : data = [] := h0
    dsimp only
    rw [if_pos h0]
    exact h2 h0

theorem auxData (hs : Src cfg o) : PEnc cfg (parseAuxData : Piped (Cow Byte)) Cow.owned (fun xs => e64 o (BitVec.ofNat 64 xs.length) ++ xs)
    fun xs tl => xs = [] → tl ≠ [] :=
  counted (u64 hs) (fun n => bytes n) fun xs h => by have h : xs.length < 65536 := h; omega

/-! ## Samples -/

set_option linter.unusedSimpArgs false in
theorem sample (hs : Src cfg o) : PEnc cfg (parseSample : Piped (Sample Cow))
    (fun s : KSample => (s.valueTaken cfg.sampleType cfg.readFormat cfg.regsUser cfg.regsIntr cfg.branchHwIndex).own)
    (fun s => s.encTaken o cfg.sampleType cfg.readFormat cfg.branchHwIndex)
    fun s tl => s.Taken cfg.endian.isNative o cfg.sampleType cfg.readFormat cfg.regsUser cfg.regsIntr cfg.branchHwIndex tl := by
  refine PEnc.config ?_
  have e (m : U64) (i : Nat) (hm : m = 1#64 <<< i) (hi : i < 64) :
    contains cfg.sampleType m = cfg.sampleType.getLsbD i := contains_rf _ i hi m hm
  refine (
    (if64 hs _ (e _ 16 rfl (by omega))).bind fun identifier =>
    (if64 hs _ (e _ 0 rfl (by omega))).bind fun ip =>
    (if32 hs _ (e _ 1 rfl (by omega))).bind fun pid =>
    (if32 hs _ (e _ 1 rfl (by omega))).bind fun tid =>
    (if64 hs _ (e _ 2 rfl (by omega))).bind fun time =>
    (if64 hs _ (e _ 3 rfl (by omega))).bind fun addr =>
    (if64 hs _ (e _ 6 rfl (by omega))).bind fun id =>
    (if64 hs _ (e _ 9 rfl (by omega))).bind fun streamId =>
    (parseIf (0, 0) _ (e _ 7 rfl (by omega)) fun _ => cpu hs).bind fun cpu =>
    (if64 hs _ (e _ 8 rfl (by omega))).bind fun period =>
    (parseIf (⟨0, 0, 0, 0, 0⟩, ⟨0, 0, []⟩) _ (e _ 4 rfl (by omega)) fun _ => values hs).bind fun values =>
    (parseIf [] _ (e _ 5 rfl (by omega)) fun _ => callchain hs).bind fun callchain =>
    (parseIf ([], []) _ (e _ 10 rfl (by omega)) fun _ => raw hs).bind fun raw =>
    (parseIf (0, []) _ (e _ 11 rfl (by omega)) fun _ => lbr hs _).bind fun lbr =>
    (parseIf ⟨0, []⟩ _ (e _ 12 rfl (by omega)) fun _ => PEnc.config (regs hs _)).bind fun ru =>
    (parseIf ([], 0) _ (e _ 13 rfl (by omega)) fun _ => stack hs).bind fun stack =>
    (if64 hs _ (e _ 14 rfl (by omega))).bind fun weight =>
    (if64 hs _ (e _ 15 rfl (by omega))).bind fun dataSrc =>
    (if64 hs _ (e _ 17 rfl (by omega))).bind fun transaction =>
    (parseIf ⟨0, []⟩ _ (e _ 18 rfl (by omega)) fun _ => PEnc.config (regs hs _)).bind fun ri =>
    (if64 hs _ (e _ 19 rfl (by omega))).bind fun physAddr =>
    (if64 hs _ (e _ 21 rfl (by omega))).bind fun cgroup =>
    (if64 hs _ (e _ 22 rfl (by omega))).bind fun dataPageSize =>
    (if64 hs _ (e _ 23 rfl (by omega))).bind fun codePageSize =>
    (parseIf [] _ (e _ 20 rfl (by omega)) fun _ => auxData hs).map _).re ?_ ?_
  · rintro ⟨identifier, ip, pid, tid, time, addr, id, streamId, cpu, period, values, callchain, raw, lbr, ru, stack, weight, dataSrc, transaction,
      ri, physAddr, cgroup, dataPageSize, codePageSize, aux⟩ tl _
      ⟨-, -, -, -, -, -, -, -, -, -, k10, k11, k12, k13, k14, k15, -, -, -, k19, -, -, -, -, k24⟩
    refine ⟨{ identifier, ip, pid, tid, time, addr, id, streamId, cpu := cpu.1, res := cpu.2, period, read := values.1, group := values.2
              callchain, raw := raw.1, rawPad := raw.2, lbrHwIndex := lbr.1, lbr := lbr.2, regsUser := ru, stack := stack.1, dynSize := stack.2
              weight, dataSrc, transaction, regsIntr := ri, physAddr, cgroup, dataPageSize, codePageSize, aux }, ?_, ?_, ?_⟩
    · simp only [KSample.valueTaken, KSample.value, Sample.own, or_optv, map_optv]
      congr 1
      · cases cfg.sampleType.getLsbD 11 <;> rfl
    · simp only [KSample.encTaken, KSample.afterTaken, KSample.partsTaken, KSample.encValues, KSample.encCallchain, KSample.encRaw, KSample.encLbr, KSample.encStack, KSample.encAux,
           List.drop_succ_cons, List.drop_zero, List.flatten_cons, List.flatten_nil, List.append_nil, List.append_assoc, opt_append, List.drop_nil, List.nil_append]
    · dsimp only at k10 k11 k12 k13 k14 k15 k19 k24
      refine ⟨k12, fun h => (k15 h).1, fun h => (k14 h).1, fun h => (k19 h).1, fun h => (k10 h).1, fun n h h3 h0 => ?_, fun n h h0 => ?_, fun n h h0 => ?_,
        fun n h h0 => ?_, fun h h0 => ?_, fun n h h0 => ?_, k24⟩
      · have := (k10 h).2 n h3 h0
        simpa only [KSample.afterTaken, KSample.partsTaken, KSample.encValues, KSample.encCallchain, KSample.encRaw, KSample.encLbr, KSample.encStack, KSample.encAux,
           List.drop_succ_cons, List.drop_zero, List.flatten_cons, List.flatten_nil, List.append_nil, List.append_assoc, opt_append, List.drop_nil, List.nil_append] using this
      · have := k11 h n h0
        simpa only [KSample.afterTaken, KSample.partsTaken, KSample.encValues, KSample.encCallchain, KSample.encRaw, KSample.encLbr, KSample.encStack, KSample.encAux,
           List.drop_succ_cons, List.drop_zero, List.flatten_cons, List.flatten_nil, List.append_nil, List.append_assoc, opt_append, List.drop_nil, List.nil_append] using this
      · have := k13 h n h0
        simpa only [KSample.afterTaken, KSample.partsTaken, KSample.encValues, KSample.encCallchain, KSample.encRaw, KSample.encLbr, KSample.encStack, KSample.encAux,
           List.drop_succ_cons, List.drop_zero, List.flatten_cons, List.flatten_nil, List.append_nil, List.append_assoc, opt_append, List.drop_nil, List.nil_append] using this
      · have := (k14 h).2 n h0
        simpa only [KSample.afterTaken, KSample.partsTaken, KSample.encValues, KSample.encCallchain, KSample.encRaw, KSample.encLbr, KSample.encStack, KSample.encAux,
           List.drop_succ_cons, List.drop_zero, List.flatten_cons, List.flatten_nil, List.append_nil, List.append_assoc, opt_append, List.drop_nil, List.nil_append] using this
      · have := (k15 h).2 h0
        simpa only [KSample.afterTaken, KSample.partsTaken, KSample.encValues, KSample.encCallchain, KSample.encRaw, KSample.encLbr, KSample.encStack, KSample.encAux,
           List.drop_succ_cons, List.drop_zero, List.flatten_cons, List.flatten_nil, List.append_nil, List.append_assoc, opt_append, List.drop_nil, List.nil_append] using this
      · have := (k19 h).2 n h0
        simpa only [KSample.afterTaken, KSample.partsTaken, KSample.encValues, KSample.encCallchain, KSample.encRaw, KSample.encLbr, KSample.encStack, KSample.encAux,
           List.drop_succ_cons, List.drop_zero, List.flatten_cons, List.flatten_nil, List.append_nil, List.append_assoc, opt_append, List.drop_nil, List.nil_append] using this
  · rintro s tl _ k
    refine ⟨(s.identifier, s.ip, s.pid, s.tid, s.time, s.addr, s.id, s.streamId, (s.cpu, s.res), s.period, (s.read, s.group), s.callchain,
      (s.raw, s.rawPad), (s.lbrHwIndex, s.lbr), s.regsUser, (s.stack, s.dynSize), s.weight, s.dataSrc, s.transaction, s.regsIntr, s.physAddr,
      s.cgroup, s.dataPageSize, s.codePageSize, s.aux), ?_, ?_, ?_⟩
    · simp only [KSample.valueTaken, KSample.value, Sample.own, or_optv, map_optv]
      congr 1
      · cases cfg.sampleType.getLsbD 11 <;> rfl
    · simp only [KSample.encTaken, KSample.afterTaken, KSample.partsTaken, KSample.encValues, KSample.encCallchain, KSample.encRaw, KSample.encLbr, KSample.encStack, KSample.encAux,
           List.drop_succ_cons, List.drop_zero, List.flatten_cons, List.flatten_nil, List.append_nil, List.append_assoc, opt_append, List.drop_nil, List.nil_append]
    · refine ⟨fun _ => trivial, fun _ => trivial, fun _ => trivial, fun _ => trivial, fun _ => trivial, fun _ => trivial, fun _ => trivial,
        fun _ => trivial, fun _ => trivial, fun _ => trivial, fun h => ⟨k.readFormat h, fun n h3 h0 => ?_⟩, fun h n h0 => ?_, k.rawPad, fun h n h0 => ?_,
        fun h => ⟨k.regsUser h, fun n h0 => ?_⟩, fun h => ⟨k.dynSize h, fun h0 => ?_⟩, fun _ => trivial, fun _ => trivial, fun _ => trivial,
        fun h => ⟨k.regsIntr h, fun n h0 => ?_⟩, fun _ => trivial, fun _ => trivial, fun _ => trivial, fun _ => trivial, k.endAux⟩
      · have := k.endValues n h h3 h0
        simpa only [KSample.afterTaken, KSample.partsTaken, KSample.encValues, KSample.encCallchain, KSample.encRaw, KSample.encLbr, KSample.encStack, KSample.encAux,
           List.drop_succ_cons, List.drop_zero, List.flatten_cons, List.flatten_nil, List.append_nil, List.append_assoc, opt_append, List.drop_nil, List.nil_append] using this
      · have := k.endCallchain n h h0
        simpa only [KSample.afterTaken, KSample.partsTaken, KSample.encValues, KSample.encCallchain, KSample.encRaw, KSample.encLbr, KSample.encStack, KSample.encAux,
           List.drop_succ_cons, List.drop_zero, List.flatten_cons, List.flatten_nil, List.append_nil, List.append_assoc, opt_append, List.drop_nil, List.nil_append] using this
      · have := k.endLbr n h h0
        simpa only [KSample.afterTaken, KSample.partsTaken, KSample.encValues, KSample.encCallchain, KSample.encRaw, KSample.encLbr, KSample.encStack, KSample.encAux,
           List.drop_succ_cons, List.drop_zero, List.flatten_cons, List.flatten_nil, List.append_nil, List.append_assoc, opt_append, List.drop_nil, List.nil_append] using this
      · have := k.endRegsUser n h h0
        simpa only [KSample.afterTaken, KSample.partsTaken, KSample.encValues, KSample.encCallchain, KSample.encRaw, KSample.encLbr, KSample.encStack, KSample.encAux,
           List.drop_succ_cons, List.drop_zero, List.flatten_cons, List.flatten_nil, List.append_nil, List.append_assoc, opt_append, List.drop_nil, List.nil_append] using this
      · have := k.endStack h h0
        simpa only [KSample.afterTaken, KSample.partsTaken, KSample.encValues, KSample.encCallchain, KSample.encRaw, KSample.encLbr, KSample.encStack, KSample.encAux,
           List.drop_succ_cons, List.drop_zero, List.flatten_cons, List.flatten_nil, List.append_nil, List.append_assoc, opt_append, List.drop_nil, List.nil_append] using this
      · have := k.endRegsIntr n h h0
        simpa only [KSample.afterTaken, KSample.partsTaken, KSample.encValues, KSample.encCallchain, KSample.encRaw, KSample.encLbr, KSample.encStack, KSample.encAux,
           List.drop_succ_cons, List.drop_zero, List.flatten_cons, List.flatten_nil, List.append_nil, List.append_assoc, opt_append, List.drop_nil, List.nil_append] using this

/-! ## Bodies -/

theorem mmapDetail (hs : Src cfg o) : PEnc cfg (parseMmapDetail : Piped MmapDetail) KDetail.value (KDetail.enc o) fun d _ => d.Ok cfg.misc := by
  refine PEnc.config (PEnc.ite (fun h => ?_) fun h => ?_)
  · have hm : cfg.misc.getLsbD 14 = true := (misc_bit _ 14 _ (by decide) (by omega)).1 h
    have hid : ∀ (len : U8) (id : List Byte), PEnc cfg (if len.toNat > id.length then
          ParserM.fail (.custom .invalidRecord s!"build_id had invalid length ({len.toNat} > 20)")
        else Pure.pure (MmapDetail.buildId id len) : Piped MmapDetail) (fun _ : Unit => MmapDetail.buildId id len) (fun _ => [])
        fun _ _ => len.toNat ≤ id.length := fun len id =>
      PEnc.ite (fun h => PEnc.fail fun _ _ h' => Nat.not_le.2 h h') fun h => (PEnc.pure (MmapDetail.buildId id len)).re
        (fun _ _ _ _ => ⟨(), rfl, rfl, Nat.not_lt.1 h⟩) fun _ _ _ _ => ⟨(), rfl, rfl, trivial⟩
    refine ((u8 (cfg := cfg)).bind fun len => (u8 (cfg := cfg)).bind fun _ => (u16 hs).bind fun _ => (array (cfg := cfg) 20).bind
      (val' := fun id (_ : Unit) => MmapDetail.buildId id len) (enc' := fun _ _ => []) (C' := fun id _ _ => len.toNat ≤ id.length) fun id =>
      hid len id).re ?_ ?_
    · rintro ⟨len, r1, r2, id, _⟩ tl _ ⟨_, _, _, ⟨hl, _⟩, hle⟩
      dsimp only at hl hle
      exact ⟨.buildId len r1 r2 id, rfl, by simp [KDetail.enc], hm, hl, by omega⟩
    · rintro (⟨maj, min, ino, gen⟩ | ⟨len, r1, r2, id⟩) tl _ hd
      · have hd : cfg.misc.getLsbD 14 = false := hd
        rw [hm] at hd; cases hd
      · obtain ⟨_, hl, hle⟩ := hd
        refine ⟨(len, r1, r2, id, ()), rfl, by simp [KDetail.enc], trivial, trivial, trivial, ⟨hl, fun h0 => ?_⟩, by dsimp only; omega⟩
        have h0 : id = [] := h0
        rw [h0] at hl; cases hl
  · have hm : cfg.misc.getLsbD 14 = false := by
      rw [← Bool.not_eq_true]
      exact fun h' => h ((misc_bit _ 14 _ (by decide) (by omega)).2 h')
    refine ((u32 hs).bind fun maj => (u32 hs).bind fun min => (u64 hs).bind fun ino => (u64 hs).map fun gen => MmapDetail.default maj min ino gen).re ?_ ?_
    · rintro ⟨maj, min, ino, gen⟩ tl _ _
      exact ⟨.inode maj min ino gen, rfl, by simp [KDetail.enc], hm⟩
    · rintro (⟨maj, min, ino, gen⟩ | ⟨len, r1, r2, id⟩) tl _ hd
      · exact ⟨(maj, min, ino, gen), rfl, by simp [KDetail.enc], trivial, trivial, trivial, trivial⟩
      · have hd := hd.1
        rw [hm] at hd; cases hd

theorem switchCpuWide (hs : Src cfg o) : PEnc cfg (parseSwitchCpuWide : Piped SwitchCpuWide)
    (fun v : U32 × U32 => if cfg.misc.getLsbD 13 then .out v.1 v.2 else .in v.1 v.2) (fun v => e32 o v.1 ++ e32 o v.2) fun _ _ => True := by
  have hm : (cfg.misc &&& MISC_SWITCH_OUT ≠ 0#16) ↔ cfg.misc.getLsbD 13 = true := misc_bit _ 13 _ (by decide) (by omega)
  refine ((u32 hs).bind fun pid => (u32 hs).bind (val' := fun tid (_ : Unit) => if cfg.misc.getLsbD 13 then SwitchCpuWide.out pid tid else .in pid tid)
    (enc' := fun _ _ => []) (C' := fun _ _ _ => True) fun tid => PEnc.config (PEnc.ite (fun h => ?_) fun h => ?_)).re
    (fun v _ _ _ => ⟨(v.1, v.2.1), rfl, by simp, trivial⟩) fun v _ _ _ => ⟨(v.1, v.2, ()), rfl, by simp, trivial, trivial, trivial⟩
  · rw [if_pos (hm.1 h)]; exact PEnc.pure _
  · rw [if_neg fun h' => h (hm.2 h')]; exact PEnc.pure _

theorem namespaceEntry (hs : Src cfg o) : PEnc cfg (parseNamespaceEntry : Piped NamespaceEntry) id (fun x => e64 o x.dev ++ e64 o x.inode) fun _ _ => True :=
  ((u64 hs).bind fun a => (u64 hs).map fun b => (⟨a, b⟩ : NamespaceEntry)).re (fun v _ _ _ => ⟨⟨v.1, v.2⟩, rfl, rfl, trivial⟩)
    fun v _ _ _ => ⟨(v.dev, v.inode), rfl, rfl, trivial, trivial⟩

theorem namespaces (hs : Src cfg o) : PEnc cfg (parseNamespaces : Piped (Namespaces Cow))
    (fun v : U32 × U32 × List NamespaceEntry => ⟨v.1, v.2.1, Cow.owned v.2.2⟩)
    (fun v => e32 o v.1 ++ e32 o v.2.1 ++ (e64 o (BitVec.ofNat 64 v.2.2.length) ++ v.2.2.flatMap fun e => e64 o e.dev ++ e64 o e.inode))
    fun v tl => cfg.endian.isNative = true → v.2.2 = [] → tl ≠ [] := by
  have hlen : ∀ x : NamespaceEntry, (e64 o x.dev ++ e64 o x.inode).length = NamespaceEntry.elem.size := fun x => by simp [NamespaceEntry.elem]
  have hflat : ∀ xs : List NamespaceEntry, xs.length ≤ (xs.flatMap fun e => e64 o e.dev ++ e64 o e.inode).length := by
    intro xs
    induction xs with
    | nil => simp
    | cons x xs ih =>
      rw [List.flatMap_cons, List.length_append, hlen, List.length_cons]
      have : NamespaceEntry.elem.size = 16 := rfl
      omega
  have hl : PEnc cfg (parseU64 >>= fun len => ParserM.slice NamespaceEntry.elem parseNamespaceEntry len.toNat : Piped (Cow NamespaceEntry)) Cow.owned
      (fun xs => e64 o (BitVec.ofNat 64 xs.length) ++ xs.flatMap fun e => e64 o e.dev ++ e64 o e.inode)
      fun xs tl => cfg.endian.isNative = true → xs = [] → tl ≠ [] :=
    counted (u64 hs) (fun n => slice (by decide) hlen (namespaceEntry hs) n) fun xs h => by have := hflat xs; omega
  refine ((u32 hs).bind fun pid => (u32 hs).bind (val' := fun tid (es : List NamespaceEntry) => (⟨pid, tid, Cow.owned es⟩ : Namespaces Cow))
    (enc' := fun _ xs => e64 o (BitVec.ofNat 64 xs.length) ++ xs.flatMap fun e => e64 o e.dev ++ e64 o e.inode)
    (C' := fun _ xs tl => cfg.endian.isNative = true → xs = [] → tl ≠ []) fun tid => ?_).re (V := U32 × U32 × List NamespaceEntry) (fun v _ _ c => ⟨v, rfl, by simp, c.2.2⟩)
    fun v _ _ c => ⟨v, rfl, by simp, trivial, trivial, c⟩
  have := hl.map fun l => (⟨pid, tid, l⟩ : Namespaces Cow)
  rw [show ((parseU64 >>= fun len => ParserM.slice NamespaceEntry.elem parseNamespaceEntry len.toNat : Piped (Cow NamespaceEntry)) >>=
    fun a => Pure.pure (⟨pid, tid, a⟩ : Namespaces Cow)) = (parseU64 : Piped U64) >>= fun len =>
      (ParserM.slice NamespaceEntry.elem parseNamespaceEntry len.toNat : Piped (Cow NamespaceEntry)) >>= fun a => Pure.pure ⟨pid, tid, a⟩ from
      Piped.bind_assoc _ _ _] at this
  exact this

/-- What is taken for the old and the new code. -/
def pokeCopy (addr : U64) (old new pad : List Byte) : TextPoke Cow :=
  if old = [] then ⟨addr, .owned (new ++ pad), .borrowed []⟩
  else if new ++ pad = [] then ⟨addr, .borrowed [], .owned []⟩
  else ⟨addr, .owned old, .owned new⟩

theorem textPoke (hs : Src cfg o) : PEnc cfg (parseTextPoke : Piped (TextPoke Cow))
    (fun v : U64 × List Byte × List Byte × List Byte => pokeCopy v.1 v.2.1 v.2.2.1 v.2.2.2)
    (fun v => e64 o v.1 ++ (e16 o (BitVec.ofNat 16 v.2.1.length) ++ (e16 o (BitVec.ofNat 16 v.2.2.1.length) ++ (v.2.1 ++ v.2.2.1 ++ v.2.2.2))))
    fun v _ => v.2.1.length < 65536 ∧ v.2.2.1.length < 65536 ∧ v.2.2.2.length < 8 ∧ (v.2.1.length + v.2.2.1.length + v.2.2.2.length) % 8 = 4 := by
  have hsplit : ∀ (addr : U64) (oldLen newLen : U16) (data : List Byte), data.length = roundUpMod (oldLen.toNat + newLen.toNat) 4 8 →
      PEnc cfg ((ParserM.cowSplitAt (Cow.owned data) oldLen.toNat : Piped (Cow Byte × Cow Byte)) >>= fun x =>
        Pure.pure (⟨addr, x.1, cowTruncate Piped x.2 newLen.toNat⟩ : TextPoke Cow))
      (fun _ : Unit => pokeCopy addr (data.take oldLen.toNat) ((data.drop oldLen.toNat).take newLen.toNat) ((data.drop oldLen.toNat).drop newLen.toNat))
      (fun _ => []) fun _ _ => True := by
    intro addr oldLen newLen data hl
    have hr := roundUpMod_spec (oldLen.toNat + newLen.toNat)
    rw [← hl] at hr
    have hdrop : (data.drop oldLen.toNat).take newLen.toNat ++ (data.drop oldLen.toNat).drop newLen.toNat = data.drop oldLen.toNat := List.take_append_drop _ _
    have hd0 : data ≠ [] := by rintro rfl; simp at hr
    have hn : ∀ x : Cow Byte × Cow Byte, (Cow.owned data).splitAt oldLen.toNat = some x →
        (⟨addr, x.1, x.2.truncate newLen.toNat⟩ : TextPoke Cow) =
          pokeCopy addr (data.take oldLen.toNat) ((data.drop oldLen.toNat).take newLen.toNat) ((data.drop oldLen.toNat).drop newLen.toNat) := by
      intro x hx
      unfold pokeCopy
      rw [hdrop]
      unfold Cow.splitAt at hx
      by_cases h0 : oldLen.toNat = 0
      · simp only [h0, if_true, Option.some.injEq] at hx
        subst hx
        rw [h0, List.take_zero, List.drop_zero, if_pos rfl]
        simp [Cow.truncate]
      · simp only [h0, if_false] at hx
        have ht : data.take oldLen.toNat ≠ [] := by
          intro h
          rw [List.take_eq_nil_iff] at h
          rcases h with h | h
          · exact h0 h
          · exact hd0 h
        rw [if_neg ht]
        by_cases h1 : oldLen.toNat = data.length
        · simp only [h1, if_true, Option.some.injEq] at hx
          subst hx
          rw [if_pos (by rw [h1, List.drop_length])]
          have : newLen.toNat = 0 := by omega
          simp [Cow.truncate, this]
        · simp only [h1, if_false] at hx
          rw [if_pos (by omega)] at hx
          simp only [Option.some.injEq] at hx
          subst hx
          rw [if_neg (by rw [List.drop_eq_nil_iff]; omega)]
          rfl
    have hsome : ∃ x, (Cow.owned data).splitAt oldLen.toNat = some x := by
      unfold Cow.splitAt
      by_cases h0 : oldLen.toNat = 0
      · refine ⟨(Cow.owned data, Cow.borrowed []), ?_⟩; simp only [h0, if_true]
      · by_cases h1 : oldLen.toNat = data.length
        · refine ⟨(Cow.borrowed [], Cow.owned data), ?_⟩; dsimp only; rw [if_neg h0, if_pos h1]
        · exact ⟨_, by dsimp only; rw [if_neg h0, if_neg h1, if_pos (by omega)]⟩
    obtain ⟨x, hx⟩ := hsome
    have hrun : (ParserM.cowSplitAt (Cow.owned data) oldLen.toNat : Piped (Cow Byte × Cow Byte)) = Pure.pure x := by
      simp only [ParserM.cowSplitAt, hx]
    rw [hrun, ← hn x hx]
    exact PEnc.pure _
  refine ((u64 hs).bind fun addr => (u16 hs).bind fun oldLen => (u16 hs).bind fun newLen =>
    (bytes (cfg := cfg) (roundUpMod (oldLen.toNat + newLen.toNat) 4 8)).bindC fun data t h => hsplit addr oldLen newLen data h.1).re ?_ ?_
  · rintro ⟨addr, oldLen, newLen, data, _⟩ tl _ ⟨_, _, _, ⟨hl, _⟩, _⟩
    dsimp only [id] at hl
    have hr := roundUpMod_spec (oldLen.toNat + newLen.toNat)
    rw [← hl] at hr
    have l1 : (data.take oldLen.toNat).length = oldLen.toNat := by rw [List.length_take]; omega
    have l2 : ((data.drop oldLen.toNat).take newLen.toNat).length = newLen.toNat := by rw [List.length_take, List.length_drop]; omega
    have l3 : ((data.drop oldLen.toNat).drop newLen.toNat).length = data.length - oldLen.toNat - newLen.toNat := by rw [List.length_drop, List.length_drop]
    refine ⟨(addr, data.take oldLen.toNat, (data.drop oldLen.toNat).take newLen.toNat, (data.drop oldLen.toNat).drop newLen.toNat), rfl, ?_, ?_, ?_, ?_, ?_⟩
    · dsimp only [id]
      rw [l1, l2, show BitVec.ofNat 16 oldLen.toNat = oldLen by simp, show BitVec.ofNat 16 newLen.toNat = newLen by simp,
        List.append_assoc (data.take _), List.take_append_drop, List.take_append_drop]
      simp
    · rw [l1]; exact oldLen.isLt
    · rw [l2]; exact newLen.isLt
    · rw [l3]; omega
    · dsimp only; rw [l1, l2, l3]; omega
  · rintro ⟨addr, old, new, pad⟩ tl _ ⟨h1, h2, h3, h4⟩
    dsimp only at h1 h2 h3 h4
    have n1 : (BitVec.ofNat 16 old.length).toNat = old.length := toNat_ofNat_lt h1
    have n2 : (BitVec.ofNat 16 new.length).toNat = new.length := toNat_ofNat_lt h2
    have hr := roundUpMod_spec (old.length + new.length)
    refine ⟨(addr, BitVec.ofNat 16 old.length, BitVec.ofNat 16 new.length, old ++ new ++ pad, ()), ?_, ?_, trivial, trivial, trivial, ⟨?_, fun h0 => ?_⟩, trivial⟩
    · dsimp only [id]
      rw [n1, n2, List.append_assoc, List.take_left, List.drop_left, List.take_left, List.drop_left]
    · simp
    · dsimp only [id]
      rw [n1, n2]
      simp only [List.length_append]
      omega
    · have h0 : old ++ new ++ pad = [] := h0
      have := congrArg List.length h0
      simp only [List.length_append, List.length_nil] at this
      omega

end PEnc

/-- What is returned for a body that is taken from a reader: copies. -/
def KBody.copy (cfg : ParseConfig) (misc : U16) : KBody → Record Cow
  | .mmap pid tid addr len pgoff name => .mmap ⟨pid, tid, addr, len, pgoff, .owned name.text⟩
  | .lost r => .lost r
  | .comm pid tid name => .comm ⟨pid, tid, .owned name.text⟩
  | .exit r => .exit r
  | .throttle r => .throttle r
  | .unthrottle r => .unthrottle r
  | .fork r => .fork r
  | .read pid tid values => .read ⟨pid, tid, values.readValue cfg.readFormat⟩
  | .sample s => .sample (s.valueTaken cfg.sampleType cfg.readFormat cfg.regsUser cfg.regsIntr cfg.branchHwIndex).own
  | .mmap2 pid tid addr len pgoff detail prot flags name =>
    .mmap2 ⟨pid, tid, addr, len, pgoff, prot, flags, .owned name.text, detail.value⟩
  | .aux r => .aux r
  | .itraceStart r => .itraceStart r
  | .lostSamples r => .lostSamples r
  | .switch => .switch
  | .switchCpuWide pid tid => .switchCpuWide (if misc.getLsbD 13 then .out pid tid else .in pid tid)
  | .namespaces pid tid entries => .namespaces ⟨pid, tid, .owned entries⟩
  | .ksymbol addr len ksymType flags name => .ksymbol ⟨addr, len, ksymType, flags, .owned name.text⟩
  | .bpfEvent r => .bpfEvent r
  | .cgroup id name => .cgroup ⟨id, .owned name.text⟩
  | .textPoke addr old new pad => .textPoke (PEnc.pokeCopy addr old new pad)
  | .auxOutputHwId r => .auxOutputHwId r
  | .other ty data => .unknown ty (.owned data)

theorem KBody.copy_view (b : KBody) (misc : U16) : (b.copy cfg misc).view = b.valueTaken cfg misc := by
  cases b with
  | sample s => exact congrArg Record.sample (Sample.own_view _)
  | textPoke addr old new pad =>
    show Record.textPoke (PEnc.pokeCopy addr old new pad).view = _
    unfold PEnc.pokeCopy KBody.valueTaken
    by_cases h1 : old = []
    · simp only [h1, if_true]; rfl
    · by_cases h2 : new ++ pad = []
      · simp only [h1, h2, if_true, if_false]; rfl
      · simp only [h1, h2, if_false]; rfl
  | _ => rfl

/-- Unknown records have no known type. -/
theorem KBody.other_ne {ty : U32} {n : Nat} {d tl : List Byte} {misc : U16} (h : (KBody.other ty d).Taken o cfg misc tl)
    (hn : n ≠ 0 ∧ n ≠ 14 ∧ n < 22) : (KBody.other ty d).type.toNat ≠ n := by
  intro he
  have he : ty.toNat = n := he
  obtain ⟨_, rfl | rfl | h⟩ := h
  · exact hn.1 he.symm
  · exact hn.2.1 he.symm
  · omega

namespace PEnc

theorem tagged {α V : Type} {s : Piped α} {k : α → Record Cow} {val : V → α} {enc : V → List Byte} {C : V → List Byte → Prop} {ty : U32} (mk : V → KBody)
    (h : PEnc cfg s val enc C) (h1 : ∀ v tl, C v tl → (mk v).type = ty ∧ (mk v).Taken o cfg cfg.misc tl ∧ ((mk v).toEnd = true → tl = []))
    (hval : ∀ v, k (val v) = (mk v).copy cfg cfg.misc) (henc : ∀ v, enc v = (mk v).encTaken o cfg)
    (h2 : ∀ (b : KBody) tl, b.type.toNat = ty.toNat → b.Taken o cfg cfg.misc tl → (b.toEnd = true → tl = []) → ∃ v, mk v = b ∧ C v tl) :
    PEnc cfg (s >>= fun a => Pure.pure (k a)) (fun b : KBody => b.copy cfg cfg.misc) (fun b => b.encTaken o cfg)
      fun b tl => b.type = ty ∧ b.Taken o cfg cfg.misc tl ∧ (b.toEnd = true → tl = []) := by
  refine (h.map k).re ?_ ?_
  · intro v tl _ c
    exact ⟨mk v, hval v, henc v, h1 v tl c⟩
  · rintro b tl _ ⟨hb, hT, he⟩
    obtain ⟨v, rfl, c⟩ := h2 b tl (by rw [hb]) hT he
    exact ⟨v, hval v, henc v, c⟩

/-- Which bodies are taken, and for what. -/
theorem body (hs : Src cfg o) (ty : U32) : PEnc cfg (parseBody ty : Piped (Record Cow)) (fun b : KBody => b.copy cfg cfg.misc) (fun b => b.encTaken o cfg)
    fun b tl => b.type = ty ∧ b.Taken o cfg cfg.misc tl ∧ (b.toEnd = true → tl = []) := by
  unfold parseBody
  split
  · next h => -- MMAP
    refine tagged (fun v => .mmap v.1 v.2.1 v.2.2.1 v.2.2.2.1 v.2.2.2.2.1 v.2.2.2.2.2) ((u32 hs).bind fun pid => (u32 hs).bind fun tid => (u64 hs).bind fun addr => (u64 hs).bind fun len => (u64 hs).bind fun pgoff => (name (cfg := cfg)).map fun c => (⟨pid, tid, addr, len, pgoff, c⟩ : Mmap Cow))
      (fun v tl c => ⟨BitVec.eq_of_toNat_eq h.symm, by exact c.2.2.2.2.2.2, fun _ => c.2.2.2.2.2.1⟩) (fun v => rfl) (fun v => by simp [KBody.encTaken, KBody.enc]) ?_
    intro b tl hb hT he
    cases b with
    | mmap pid tid addr len pgoff n => exact ⟨(pid, tid, addr, len, pgoff, n), rfl, trivial, trivial, trivial, trivial, trivial, he rfl, hT⟩
    | other ty' d => exact absurd hb (KBody.other_ne hT (by omega))
    | _ => exact absurd hb (by rw [h]; simp [KBody.type])
  · next h => -- LOST
    refine tagged (fun v => .lost ⟨v.1, v.2⟩) ((u64 hs).bind fun id => (u64 hs).map fun lost => (⟨id, lost⟩ : Lost))
      (fun v tl c => ⟨BitVec.eq_of_toNat_eq h.symm, trivial, nofun⟩) (fun v => rfl) (fun v => by simp [KBody.encTaken, KBody.enc]) ?_
    intro b tl hb hT he
    cases b with
    | lost r => exact ⟨(r.id, r.lost), rfl, trivial, trivial⟩
    | other ty' d => exact absurd hb (KBody.other_ne hT (by omega))
    | _ => exact absurd hb (by rw [h]; simp [KBody.type])
  · next h => -- COMM
    refine tagged (fun v => .comm v.1 v.2.1 v.2.2) ((u32 hs).bind fun pid => (u32 hs).bind fun tid => (name (cfg := cfg)).map fun c => (⟨pid, tid, c⟩ : Comm Cow))
      (fun v tl c => ⟨BitVec.eq_of_toNat_eq h.symm, by exact c.2.2.2, fun _ => c.2.2.1⟩) (fun v => rfl) (fun v => by simp [KBody.encTaken, KBody.enc]) ?_
    intro b tl hb hT he
    cases b with
    | comm pid tid n => exact ⟨(pid, tid, n), rfl, trivial, trivial, he rfl, hT⟩
    | other ty' d => exact absurd hb (KBody.other_ne hT (by omega))
    | _ => exact absurd hb (by rw [h]; simp [KBody.type])
  · next h => -- EXIT
    refine tagged (fun v => .exit ⟨v.1, v.2.1, v.2.2.1, v.2.2.2.1, v.2.2.2.2⟩) ((u32 hs).bind fun pid => (u32 hs).bind fun ppid => (u32 hs).bind fun tid => (u32 hs).bind fun ptid => (u64 hs).map fun time => (⟨pid, ppid, tid, ptid, time⟩ : Exit))
      (fun v tl c => ⟨BitVec.eq_of_toNat_eq h.symm, trivial, nofun⟩) (fun v => rfl) (fun v => by simp [KBody.encTaken, KBody.enc]) ?_
    intro b tl hb hT he
    cases b with
    | exit r => exact ⟨(r.pid, r.ppid, r.tid, r.ptid, r.time), rfl, trivial, trivial, trivial, trivial, trivial⟩
    | other ty' d => exact absurd hb (KBody.other_ne hT (by omega))
    | _ => exact absurd hb (by rw [h]; simp [KBody.type])
  · next h => -- THROTTLE
    refine tagged (fun v => .throttle ⟨v.1, v.2.1, v.2.2⟩) ((u64 hs).bind fun time => (u64 hs).bind fun id => (u64 hs).map fun streamId => (⟨time, id, streamId⟩ : Throttle))
      (fun v tl c => ⟨BitVec.eq_of_toNat_eq h.symm, trivial, nofun⟩) (fun v => rfl) (fun v => by simp [KBody.encTaken, KBody.enc]) ?_
    intro b tl hb hT he
    cases b with
    | throttle r => exact ⟨(r.time, r.id, r.streamId), rfl, trivial, trivial, trivial⟩
    | other ty' d => exact absurd hb (KBody.other_ne hT (by omega))
    | _ => exact absurd hb (by rw [h]; simp [KBody.type])
  · next h => -- UNTHROTTLE
    refine tagged (fun v => .unthrottle ⟨v.1, v.2.1, v.2.2⟩) ((u64 hs).bind fun time => (u64 hs).bind fun id => (u64 hs).map fun streamId => (⟨time, id, streamId⟩ : Throttle))
      (fun v tl c => ⟨BitVec.eq_of_toNat_eq h.symm, trivial, nofun⟩) (fun v => rfl) (fun v => by simp [KBody.encTaken, KBody.enc]) ?_
    intro b tl hb hT he
    cases b with
    | unthrottle r => exact ⟨(r.time, r.id, r.streamId), rfl, trivial, trivial, trivial⟩
    | other ty' d => exact absurd hb (KBody.other_ne hT (by omega))
    | _ => exact absurd hb (by rw [h]; simp [KBody.type])
  · next h => -- FORK
    refine tagged (fun v => .fork ⟨v.1, v.2.1, v.2.2.1, v.2.2.2.1, v.2.2.2.2⟩) ((u32 hs).bind fun pid => (u32 hs).bind fun ppid => (u32 hs).bind fun tid => (u32 hs).bind fun ptid => (u64 hs).map fun time => (⟨pid, ppid, tid, ptid, time⟩ : Exit))
      (fun v tl c => ⟨BitVec.eq_of_toNat_eq h.symm, trivial, nofun⟩) (fun v => rfl) (fun v => by simp [KBody.encTaken, KBody.enc]) ?_
    intro b tl hb hT he
    cases b with
    | fork r => exact ⟨(r.pid, r.ppid, r.tid, r.ptid, r.time), rfl, trivial, trivial, trivial, trivial, trivial⟩
    | other ty' d => exact absurd hb (KBody.other_ne hT (by omega))
    | _ => exact absurd hb (by rw [h]; simp [KBody.type])
  · next h => -- READ
    refine tagged (fun v => .read v.1 v.2.1 v.2.2) ((u32 hs).bind fun pid => (u32 hs).bind fun tid => (readValue hs).map fun c => (⟨pid, tid, c⟩ : Read))
      (fun v tl c => ⟨BitVec.eq_of_toNat_eq h.symm, by exact c.2.2, nofun⟩) (fun v => rfl) (fun v => by simp [KBody.encTaken, KBody.enc]) ?_
    intro b tl hb hT he
    cases b with
    | read pid tid k => exact ⟨(pid, tid, k), rfl, trivial, trivial, hT⟩
    | other ty' d => exact absurd hb (KBody.other_ne hT (by omega))
    | _ => exact absurd hb (by rw [h]; simp [KBody.type])
  · next h => -- SAMPLE
    refine tagged (fun v => .sample v) (sample hs) (fun v tl c => ⟨BitVec.eq_of_toNat_eq h.symm, by exact c, nofun⟩) (fun v => rfl) (fun v => rfl) ?_
    intro b tl hb hT he
    cases b with
    | sample s => exact ⟨s, rfl, hT⟩
    | other ty' d => exact absurd hb (KBody.other_ne hT (by omega))
    | _ => exact absurd hb (by rw [h]; simp [KBody.type])
  · next h => -- MMAP2
    refine tagged (fun v => .mmap2 v.1 v.2.1 v.2.2.1 v.2.2.2.1 v.2.2.2.2.1 v.2.2.2.2.2.1 v.2.2.2.2.2.2.1 v.2.2.2.2.2.2.2.1 v.2.2.2.2.2.2.2.2) ((u32 hs).bind fun pid => (u32 hs).bind fun tid => (u64 hs).bind fun addr => (u64 hs).bind fun len => (u64 hs).bind fun pgoff => (mmapDetail hs).bind fun d => (u32 hs).bind fun prot => (u32 hs).bind fun flags => (name (cfg := cfg)).map fun c => (⟨pid, tid, addr, len, pgoff, prot, flags, c, d.value⟩ : Mmap2 Cow))
      (fun v tl c => ⟨BitVec.eq_of_toNat_eq h.symm, ⟨c.2.2.2.2.2.1, c.2.2.2.2.2.2.2.2.2⟩, fun _ => c.2.2.2.2.2.2.2.2.1⟩) (fun v => rfl) (fun v => by simp [KBody.encTaken, KBody.enc]) ?_
    intro b tl hb hT he
    cases b with
    | mmap2 pid tid addr len pgoff d prot flags n => exact ⟨(pid, tid, addr, len, pgoff, d, prot, flags, n), rfl, trivial, trivial, trivial, trivial, trivial, hT.1, trivial, trivial, he rfl, hT.2⟩
    | other ty' d => exact absurd hb (KBody.other_ne hT (by omega))
    | _ => exact absurd hb (by rw [h]; simp [KBody.type])
  · next h => -- AUX
    refine tagged (fun v => .aux ⟨v.1, v.2.1, v.2.2⟩) ((u64 hs).bind fun auxOffset => (u64 hs).bind fun auxSize => (u64 hs).map fun flags => (⟨auxOffset, auxSize, flags⟩ : Aux))
      (fun v tl c => ⟨BitVec.eq_of_toNat_eq h.symm, trivial, nofun⟩) (fun v => rfl) (fun v => by simp [KBody.encTaken, KBody.enc]) ?_
    intro b tl hb hT he
    cases b with
    | aux r => exact ⟨(r.auxOffset, r.auxSize, r.flags), rfl, trivial, trivial, trivial⟩
    | other ty' d => exact absurd hb (KBody.other_ne hT (by omega))
    | _ => exact absurd hb (by rw [h]; simp [KBody.type])
  · next h => -- ITRACE_START
    refine tagged (fun v => .itraceStart ⟨v.1, v.2⟩) ((u32 hs).bind fun pid => (u32 hs).map fun tid => (⟨pid, tid⟩ : ITraceStart))
      (fun v tl c => ⟨BitVec.eq_of_toNat_eq h.symm, trivial, nofun⟩) (fun v => rfl) (fun v => by simp [KBody.encTaken, KBody.enc]) ?_
    intro b tl hb hT he
    cases b with
    | itraceStart r => exact ⟨(r.pid, r.tid), rfl, trivial, trivial⟩
    | other ty' d => exact absurd hb (KBody.other_ne hT (by omega))
    | _ => exact absurd hb (by rw [h]; simp [KBody.type])
  · next h => -- LOST_SAMPLES
    refine tagged (fun v => .lostSamples ⟨v⟩) ((u64 hs).map fun lost => (⟨lost⟩ : LostSamples))
      (fun v tl c => ⟨BitVec.eq_of_toNat_eq h.symm, trivial, nofun⟩) (fun v => rfl) (fun v => by simp [KBody.encTaken, KBody.enc]) ?_
    intro b tl hb hT he
    cases b with
    | lostSamples r => exact ⟨r.lost, rfl, trivial⟩
    | other ty' d => exact absurd hb (KBody.other_ne hT (by omega))
    | _ => exact absurd hb (by rw [h]; simp [KBody.type])
  · next h => -- SWITCH_CPU_WIDE
    refine tagged (fun v => .switchCpuWide v.1 v.2) (switchCpuWide hs) (fun v tl c => ⟨BitVec.eq_of_toNat_eq h.symm, trivial, nofun⟩) (fun v => rfl)
      (fun v => rfl) ?_
    intro b tl hb hT he
    cases b with
    | switchCpuWide pid tid => exact ⟨(pid, tid), rfl, trivial⟩
    | other ty' d => exact absurd hb (KBody.other_ne hT (by omega))
    | _ => exact absurd hb (by rw [h]; simp [KBody.type])
  · next h => -- NAMESPACES
    refine tagged (fun v => .namespaces v.1 v.2.1 v.2.2) (namespaces hs) (fun v tl c => ⟨BitVec.eq_of_toNat_eq h.symm, by exact c, nofun⟩) (fun v => rfl)
      (fun v => by simp [KBody.encTaken, KBody.enc]) ?_
    intro b tl hb hT he
    cases b with
    | namespaces pid tid es => exact ⟨(pid, tid, es), rfl, hT⟩
    | other ty' d => exact absurd hb (KBody.other_ne hT (by omega))
    | _ => exact absurd hb (by rw [h]; simp [KBody.type])
  · next h => -- KSYMBOL
    refine tagged (fun v => .ksymbol v.1 v.2.1 v.2.2.1 v.2.2.2.1 v.2.2.2.2) ((u64 hs).bind fun addr => (u32 hs).bind fun len => (u16 hs).bind fun ksymType => (u16 hs).bind fun flags => (name (cfg := cfg)).map fun c => (⟨addr, len, ksymType, flags, c⟩ : KSymbol Cow))
      (fun v tl c => ⟨BitVec.eq_of_toNat_eq h.symm, by exact c.2.2.2.2.2, fun _ => c.2.2.2.2.1⟩) (fun v => rfl) (fun v => by simp [KBody.encTaken, KBody.enc]) ?_
    intro b tl hb hT he
    cases b with
    | ksymbol addr len ksymType flags n => exact ⟨(addr, len, ksymType, flags, n), rfl, trivial, trivial, trivial, trivial, he rfl, hT⟩
    | other ty' d => exact absurd hb (KBody.other_ne hT (by omega))
    | _ => exact absurd hb (by rw [h]; simp [KBody.type])
  · next h => -- BPF_EVENT
    refine tagged (fun v => .bpfEvent ⟨v.1, v.2.1, v.2.2.1, v.2.2.2⟩) ((u16 hs).bind fun ty => (u16 hs).bind fun flags => (u32 hs).bind fun id => (array (cfg := cfg) 8).map fun tag => (⟨ty, flags, id, tag⟩ : BpfEvent))
      (fun v tl c => ⟨BitVec.eq_of_toNat_eq h.symm, by exact c.2.2.2.1, nofun⟩) (fun v => rfl) (fun v => by simp [KBody.encTaken, KBody.enc]) ?_
    intro b tl hb hT he
    cases b with
    | bpfEvent r => exact ⟨(r.ty, r.flags, r.id, r.tag), rfl, trivial, trivial, trivial, hT, fun h0 => by have h0 : r.tag = [] := h0; have hT : r.tag.length = 8 := hT; rw [h0] at hT; cases hT⟩
    | other ty' d => exact absurd hb (KBody.other_ne hT (by omega))
    | _ => exact absurd hb (by rw [h]; simp [KBody.type])
  · next h => -- CGROUP
    refine tagged (fun v => .cgroup v.1 v.2) ((u64 hs).bind fun id => (name (cfg := cfg)).map fun c => (⟨id, c⟩ : CGroup Cow))
      (fun v tl c => ⟨BitVec.eq_of_toNat_eq h.symm, by exact c.2.2, fun _ => c.2.1⟩) (fun v => rfl) (fun v => by simp [KBody.encTaken, KBody.enc]) ?_
    intro b tl hb hT he
    cases b with
    | cgroup id n => exact ⟨(id, n), rfl, trivial, he rfl, hT⟩
    | other ty' d => exact absurd hb (KBody.other_ne hT (by omega))
    | _ => exact absurd hb (by rw [h]; simp [KBody.type])
  · next h => -- TEXT_POKE
    refine tagged (fun v => .textPoke v.1 v.2.1 v.2.2.1 v.2.2.2) (textPoke hs) (fun v tl c => ⟨BitVec.eq_of_toNat_eq h.symm, by exact c, nofun⟩) (fun v => rfl)
      (fun v => by simp [KBody.encTaken, KBody.enc]) ?_
    intro b tl hb hT he
    cases b with
    | textPoke addr old new pad => exact ⟨(addr, old, new, pad), rfl, hT⟩
    | other ty' d => exact absurd hb (KBody.other_ne hT (by omega))
    | _ => exact absurd hb (by rw [h]; simp [KBody.type])
  · next h => -- AUX_OUTPUT_HW_ID
    refine tagged (fun v => .auxOutputHwId ⟨v⟩) ((u64 hs).map fun hwId => (⟨hwId⟩ : AuxOutputHwId))
      (fun v tl c => ⟨BitVec.eq_of_toNat_eq h.symm, trivial, nofun⟩) (fun v => rfl) (fun v => by simp [KBody.encTaken, KBody.enc]) ?_
    intro b tl hb hT he
    cases b with
    | auxOutputHwId r => exact ⟨r.hwId, rfl, trivial⟩
    | other ty' d => exact absurd hb (KBody.other_ne hT (by omega))
    | _ => exact absurd hb (by rw [h]; simp [KBody.type])
  · rename_i m1 m2 m3 m4 m5 m6 m7 m8 m9 m10 m11 m12 m13 m15 m16 m17 m18 m19 m20 m21
    refine ((rest (cfg := cfg)).map _).re ?_ ?_
    · rintro data tl _ ⟨rfl, h0⟩
      refine ⟨.other ty data, rfl, rfl, rfl, ⟨h0, ?_⟩, fun _ => rfl⟩
      have hty : ∀ n : Nat, n < 2 ^ 32 → (ty = BitVec.ofNat 32 n ↔ ty.toNat = n) := by
        intro n hn
        constructor
        · rintro rfl; exact toNat_ofNat_lt hn
        · intro h; apply BitVec.eq_of_toNat_eq; rw [h, toNat_ofNat_lt hn]
      rw [hty 0 (by omega), hty 14 (by omega)]
      clear hty
      generalize ty.toNat = n at *
      by_cases h22 : 22 ≤ n
      · exact .inr (.inr h22)
      · match n, h22 with
        | 0, _ => exact .inl rfl
        | 14, _ => exact .inr (.inl rfl)
        | 1, _ => exact (m1 rfl).elim
        | 2, _ => exact (m2 rfl).elim
        | 3, _ => exact (m3 rfl).elim
        | 4, _ => exact (m4 rfl).elim
        | 5, _ => exact (m5 rfl).elim
        | 6, _ => exact (m6 rfl).elim
        | 7, _ => exact (m7 rfl).elim
        | 8, _ => exact (m8 rfl).elim
        | 9, _ => exact (m9 rfl).elim
        | 10, _ => exact (m10 rfl).elim
        | 11, _ => exact (m11 rfl).elim
        | 12, _ => exact (m12 rfl).elim
        | 13, _ => exact (m13 rfl).elim
        | 15, _ => exact (m15 rfl).elim
        | 16, _ => exact (m16 rfl).elim
        | 17, _ => exact (m17 rfl).elim
        | 18, _ => exact (m18 rfl).elim
        | 19, _ => exact (m19 rfl).elim
        | 20, _ => exact (m20 rfl).elim
        | 21, _ => exact (m21 rfl).elim
        | n + 22, h => exact (h (by omega)).elim
    · rintro b tl _ ⟨hb, hT, he⟩
      cases b with
      | other ty' d =>
        have hb : ty' = ty := hb
        subst hb
        exact ⟨d, rfl, rfl, he rfl, hT.1⟩
      | switch => exact hT.elim
      | _ =>
        subst hb
        exfalso
        first
          | exact m1 rfl
          | exact m2 rfl
          | exact m3 rfl
          | exact m4 rfl
          | exact m5 rfl
          | exact m6 rfl
          | exact m7 rfl
          | exact m8 rfl
          | exact m9 rfl
          | exact m10 rfl
          | exact m11 rfl
          | exact m12 rfl
          | exact m13 rfl
          | exact m15 rfl
          | exact m16 rfl
          | exact m17 rfl
          | exact m18 rfl
          | exact m19 rfl
          | exact m20 rfl
          | exact m21 rfl

end PEnc
end Perf
