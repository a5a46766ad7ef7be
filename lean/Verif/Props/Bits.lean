import Verif.Props.Config
/-!
# Bit fields: C51, C52, C53, C59
-/
namespace Perf
variable {β : Type} [ParseBuf β] [Lawful β] {p : Parser β} {f : Flat} {o : Order} {tl : List Byte}

/-- What a bit field getter computes, as arithmetic. -/
theorem bitfield_toNat (host : Order) (raw : U64) (off w : Nat) (_h : off + w ≤ 64) (hw : w < 64) :
    (bitfield host raw off w).toNat =
      raw.toNat / 2 ^ (match host with | .little => off | .big => 64 - off - w) % 2 ^ w := by
  have key : ∀ i, ((raw >>> i) &&& ((1#64 <<< w) - 1#64)).toNat = raw.toNat / 2 ^ i % 2 ^ w := by
    intro i
    have h1 : ((1#64 <<< w) - 1#64 : U64).toNat = 2 ^ w - 1 := by
      have : (2 : Nat) ^ w < 2 ^ 64 := Nat.pow_lt_pow_right (by omega) hw
      have h0 : 0 < 2 ^ w := Nat.two_pow_pos w
      rw [BitVec.toNat_sub, BitVec.toNat_shiftLeft, Nat.shiftLeft_eq]
      simp only [BitVec.toNat_ofNat, Nat.reducePow, Nat.reduceMod, Nat.one_mul]
      omega
    rw [BitVec.toNat_and, h1, Nat.and_two_pow_sub_one_eq_mod, BitVec.toNat_ushiftRight, Nat.shiftRight_eq_div_pow]
  cases host with
  | little => exact key off
  | big => exact key (64 - off - w)

theorem ne_zero_iff (x : U64) : (x != 0#64) = decide (x.toNat ≠ 0) := by
  by_cases h : x = 0#64
  · subst h; rfl
  · have : x.toNat ≠ 0 := fun h' => h (BitVec.eq_of_toNat_eq h')
    simp [h, this]

/-! ## C51 -/

/-- What the kernel has for one branch: `rest` are the remaining 40 bits of the bit field. -/
structure KBranch where
  from_ : U64
  to : U64
  mispred : Bool
  predicted : Bool
  inTx : Bool
  abort : Bool
  cycles : U16
  ty : BitVec 4
  rest : BitVec 40

/-- The bit field as a number: a C compiler for a little endian machine puts the first field lowest, one for a big endian
machine highest. -/
def KBranch.word (o : Order) (b : KBranch) : U64 :=
  BitVec.ofNat 64 <| match o with
  | .little => b.mispred.toNat + 2 ^ 1 * b.predicted.toNat + 2 ^ 2 * b.inTx.toNat + 2 ^ 3 * b.abort.toNat
      + 2 ^ 4 * b.cycles.toNat + 2 ^ 20 * b.ty.toNat + 2 ^ 24 * b.rest.toNat
  | .big => 2 ^ 63 * b.mispred.toNat + 2 ^ 62 * b.predicted.toNat + 2 ^ 61 * b.inTx.toNat + 2 ^ 60 * b.abort.toNat
      + 2 ^ 44 * b.cycles.toNat + 2 ^ 40 * b.ty.toNat + b.rest.toNat

/-- The kernel's `struct perf_branch_entry`. -/
def KBranch.enc (o : Order) (b : KBranch) : List Byte := e64 o b.from_ ++ e64 o b.to ++ e64 o (b.word o)

/-- `e`'s accessors on a host of byte order `host` give what the kernel had. -/
structure KBranch.Shows (host : Order) (b : KBranch) (e : BranchEntry) : Prop where
  from_ : e.from_ = b.from_
  to : e.to = b.to
  mispred : e.mispred host = b.mispred
  predicted : e.predicted host = b.predicted
  inTx : e.inTx host = b.inTx
  abort : e.abort host = b.abort
  cycles : e.cycles host = b.cycles
  ty : (e.ty host).toNat = b.ty.toNat

theorem KBranch.word_toNat (o : Order) (b : KBranch) : (b.word o).toNat =
    (match o with
    | .little => b.mispred.toNat + 2 ^ 1 * b.predicted.toNat + 2 ^ 2 * b.inTx.toNat + 2 ^ 3 * b.abort.toNat
        + 2 ^ 4 * b.cycles.toNat + 2 ^ 20 * b.ty.toNat + 2 ^ 24 * b.rest.toNat
    | .big => 2 ^ 63 * b.mispred.toNat + 2 ^ 62 * b.predicted.toNat + 2 ^ 61 * b.inTx.toNat + 2 ^ 60 * b.abort.toNat
        + 2 ^ 44 * b.cycles.toNat + 2 ^ 40 * b.ty.toNat + b.rest.toNat) := by
  have h1 := b.cycles.isLt
  have h2 := b.ty.isLt
  have h3 := b.rest.isLt
  have h4 := b.mispred.toNat_le
  have h5 := b.predicted.toNat_le
  have h6 := b.inTx.toNat_le
  have h7 := b.abort.toNat_le
  unfold KBranch.word
  rw [BitVec.toNat_ofNat]
  apply Nat.mod_eq_of_lt
  cases o <;> simp only <;> omega

theorem bool_of_toNat {b : Bool} {n : Nat} (h : n = b.toNat) : decide (n ≠ 0) = b := by
  subst h; cases b <;> rfl

theorem KBranch.shows (o : Order) (b : KBranch) : b.Shows o ⟨b.from_, b.to, b.word o⟩ := by
  have hw := b.word_toNat o
  have h1 := b.cycles.isLt
  have h2 := b.ty.isLt
  have h3 := b.rest.isLt
  have h4 := b.mispred.toNat_le
  have h5 := b.predicted.toNat_le
  have h6 := b.inTx.toNat_le
  have h7 := b.abort.toNat_le
  constructor
  · rfl
  · rfl
  · unfold BranchEntry.mispred
    rw [ne_zero_iff, bitfield_toNat _ _ _ _ (by omega) (by omega), hw]
    apply bool_of_toNat
    cases o <;> simp only <;> omega
  · unfold BranchEntry.predicted
    rw [ne_zero_iff, bitfield_toNat _ _ _ _ (by omega) (by omega), hw]
    apply bool_of_toNat
    cases o <;> simp only <;> omega
  · unfold BranchEntry.inTx
    rw [ne_zero_iff, bitfield_toNat _ _ _ _ (by omega) (by omega), hw]
    apply bool_of_toNat
    cases o <;> simp only <;> omega
  · unfold BranchEntry.abort
    rw [ne_zero_iff, bitfield_toNat _ _ _ _ (by omega) (by omega), hw]
    apply bool_of_toNat
    cases o <;> simp only <;> omega
  · unfold BranchEntry.cycles
    apply BitVec.eq_of_toNat_eq
    rw [BitVec.toNat_setWidth, bitfield_toNat _ _ _ _ (by omega) (by omega), hw]
    cases o <;> simp only <;> omega
  · unfold BranchEntry.ty
    rw [BitVec.toNat_setWidth, bitfield_toNat _ _ _ _ (by omega) (by omega), hw]
    cases o <;> simp only <;> omega

/-- **C51** One branch entry written by a kernel of the host's byte order. -/
theorem c51_entry (hp : RepP p f) (hs : Src f.cfg o) (b : KBranch) (hb : f.s.bytes = b.enc o ++ tl) :
    ∃ e, ((parseBranchEntry : P β BranchEntry) p).res = .ok e ∧ b.Shows o e ∧
      RepP ((parseBranchEntry : P β BranchEntry) p).st (f.adv 24) := by
  obtain ⟨e, h1, rfl, h2⟩ := Refines.reads Refines.branchEntry hp
    (Reads.branchEntry (nd := ⟨false, false⟩) hs ⟨b.from_, b.to, b.word o⟩ 0 tl) nofun nofun hb
  rw [encBranch_length] at h2
  exact ⟨_, h1, b.shows o, h2⟩

/-- **C51** The branch stack of a sample (non-empty lists and the other conditions of `KSample.Ok`). -/
theorem c51_sample (hp : RepP p f) (hs : Src f.cfg o) (misc : U16) (t : KTrailer) (s : KSample) (bs : List KBranch)
    (hbs : s.lbr = bs.map fun b => ⟨b.from_, b.to, b.word o⟩)
    (hok : s.Ok f.cfg.endian.isNative o f.cfg.sampleType f.cfg.readFormat f.cfg.regsUser f.cfg.regsIntr f.cfg.branchHwIndex)
    (hal : f.cfg.endian.isNative = true → AlMod f.s.al 0) (hf : f.cfg.sampleType.getLsbD 11 = true)
    (hsize : (KRecord.mk misc (.sample s) t).size o f.cfg < 65536)
    (hb : f.s.bytes = (KRecord.mk misc (.sample s) t).enc o f.cfg ++ tl) :
    ∃ (a : Sample Cow) (l : Cow BranchEntry), (P.parseRecord p).res = .ok (.sample a) ∧ a.lbr = some l ∧
      l.data.length = bs.length ∧ ∀ i (h : i < bs.length) (h' : i < l.data.length), bs[i].Shows o l.data[i] := by
  obtain ⟨⟨a, h1, h2⟩, _⟩ := c17_sample_partial hp hs misc t s hok hal hsize hb
  simp only [Sample.view, KSample.value, Sample.mk.injEq, hf, optv] at h2
  have hl : a.lbr.map Cow.data = some s.lbr := by simp_all
  cases hal : a.lbr with
  | none => rw [hal] at hl; simp at hl
  | some l =>
    rw [hal] at hl
    have hl' : l.data = s.lbr := by simpa using hl
    refine ⟨a, l, h1, hal, by rw [hl', hbs, List.length_map], fun i h h' => ?_⟩
    have : l.data[i] = ⟨bs[i].from_, bs[i].to, bs[i].word o⟩ := by
      simp only [hl', hbs, List.getElem_map]
    rw [this]
    exact bs[i].shows o

/-- Mispredicted, aborted, 0x1234 cycles, type 5, on a big endian machine. -/
example : (match ((parseBranchEntry : P Slice BranchEntry)
      (Parser.new ⟨1, (KBranch.mk 1 2 true false false true 0x1234 5 0).enc .big⟩ { demoBigCfg with host := .big })).res with
    | .ok e => e.mispred .big && !e.predicted .big && !e.inTx .big && e.abort .big && e.cycles .big == 0x1234 && e.ty .big == 5
    | _ => false) = true := by decide +kernel

/-! ## C52 -/

/-- The kernel's `union perf_mem_data_src`; the header reverses the declaration order on big endian targets so that the
number is the same on all. -/
structure KDataSrc where
  op : BitVec 5
  lvl : BitVec 14
  snoop : BitVec 5
  lock : BitVec 2
  dtlb : BitVec 7
  lvlNum : BitVec 4
  remote : Bool
  snoopx : BitVec 2
  blk : BitVec 3
  hops : BitVec 3
  rsvd : BitVec 18

def KDataSrc.val (d : KDataSrc) : U64 :=
  BitVec.ofNat 64 (d.op.toNat + 2 ^ 5 * d.lvl.toNat + 2 ^ 19 * d.snoop.toNat + 2 ^ 24 * d.lock.toNat + 2 ^ 26 * d.dtlb.toNat
    + 2 ^ 33 * d.lvlNum.toNat + 2 ^ 37 * d.remote.toNat + 2 ^ 38 * d.snoopx.toNat + 2 ^ 40 * d.blk.toNat
    + 2 ^ 43 * d.hops.toNat + 2 ^ 46 * d.rsvd.toNat)

structure KDataSrc.Shows (host decl : Order) (d : KDataSrc) (val : U64) : Prop where
  op : (DataSource.memOp host decl val).toNat = d.op.toNat
  lvl : (DataSource.memLvl host decl val).toNat = d.lvl.toNat
  snoop : (DataSource.memSnoop host decl val).toNat = 2 ^ 19 * d.snoop.toNat + 2 ^ 38 * d.snoopx.toNat
  lock : (DataSource.memLock host decl val).toNat = d.lock.toNat
  dtlb : (DataSource.memDtlb host decl val).toNat = d.dtlb.toNat
  lvlNum : (DataSource.memLvlNum host decl val).toNat = d.lvlNum.toNat
  remote : DataSource.memRemote host decl val = d.remote
  blk : (DataSource.memBlk host decl val).toNat = d.blk.toNat
  hops : (DataSource.memHops host decl val).toNat = d.hops.toNat

theorem DataSource.field_toNat (host : Order) (val : U64) (off w : Nat) (h : off + w ≤ 64) (hw : w < 64) :
    (DataSource.field host host val off w).toNat = val.toNat / 2 ^ off % 2 ^ w := by
  cases host with
  | little => exact bitfield_toNat .little val off w h hw
  | big =>
    refine (bitfield_toNat .big val _ w (by simp only [DataSource.declared]; omega) hw).trans ?_
    simp only [DataSource.declared, show 64 - (64 - off - w) - w = off by omega]

theorem DataSource.snoopNew_toNat (a b : U64) (ha : a.toNat < 2 ^ 5) (hb : b.toNat < 2 ^ 2) :
    (DataSource.snoopNew a b).toNat = 2 ^ 19 * a.toNat + 2 ^ 38 * b.toNat := by
  have hfin : ∀ x : Fin 32, ∀ y : Fin 4, (DataSource.snoopNew (BitVec.ofNat 64 x) (BitVec.ofNat 64 y)).toNat =
      2 ^ 19 * x.val + 2 ^ 38 * y.val := by decide +kernel
  have := hfin ⟨a.toNat, ha⟩ ⟨b.toNat, hb⟩
  rwa [BitVec.ofNat_toNat, BitVec.ofNat_toNat, BitVec.setWidth_eq, BitVec.setWidth_eq] at this

/-- **C52** The accessors of a data source, with bindings generated for the host. All 2^64 words are of this form
(`c52_all`). -/
theorem c52_fields (host : Order) (d : KDataSrc) : d.Shows host host d.val := by
  have h1 := d.op.isLt
  have h2 := d.lvl.isLt
  have h3 := d.snoop.isLt
  have h4 := d.lock.isLt
  have h5 := d.dtlb.isLt
  have h6 := d.lvlNum.isLt
  have h7 := d.remote.toNat_le
  have h8 := d.snoopx.isLt
  have h9 := d.blk.isLt
  have h10 := d.hops.isLt
  have h11 := d.rsvd.isLt
  have hv : d.val.toNat = d.op.toNat + 2 ^ 5 * d.lvl.toNat + 2 ^ 19 * d.snoop.toNat + 2 ^ 24 * d.lock.toNat
      + 2 ^ 26 * d.dtlb.toNat + 2 ^ 33 * d.lvlNum.toNat + 2 ^ 37 * d.remote.toNat + 2 ^ 38 * d.snoopx.toNat
      + 2 ^ 40 * d.blk.toNat + 2 ^ 43 * d.hops.toNat + 2 ^ 46 * d.rsvd.toNat := by
    unfold KDataSrc.val
    rw [BitVec.toNat_ofNat]
    apply Nat.mod_eq_of_lt
    omega
  have fld := fun off w h hw => DataSource.field_toNat host d.val off w h hw
  constructor
  · unfold DataSource.memOp; rw [fld _ _ (by omega) (by omega), hv]; omega
  · unfold DataSource.memLvl; rw [fld _ _ (by omega) (by omega), hv]; omega
  · unfold DataSource.memSnoop
    have ha := fld 19 5 (by omega) (by omega)
    have hb := fld 38 2 (by omega) (by omega)
    rw [DataSource.snoopNew_toNat _ _ (by rw [ha]; omega) (by rw [hb]; omega), ha, hb, hv]
    omega
  · unfold DataSource.memLock; rw [fld _ _ (by omega) (by omega), hv]; omega
  · unfold DataSource.memDtlb; rw [fld _ _ (by omega) (by omega), hv]; omega
  · unfold DataSource.memLvlNum; rw [BitVec.toNat_setWidth, fld _ _ (by omega) (by omega), hv]; omega
  · unfold DataSource.memRemote
    rw [ne_zero_iff, fld _ _ (by omega) (by omega), hv]
    apply bool_of_toNat
    omega
  · unfold DataSource.memBlk; rw [fld _ _ (by omega) (by omega), hv]; omega
  · unfold DataSource.memHops; rw [BitVec.toNat_setWidth, fld _ _ (by omega) (by omega), hv]; omega

/-- Every word is the encoding of some fields. -/
theorem c52_all (x : U64) : ∃ d : KDataSrc, d.val = x := by
  let n := x.toNat
  refine ⟨⟨.ofNat _ n, .ofNat _ (n / 2 ^ 5), .ofNat _ (n / 2 ^ 19), .ofNat _ (n / 2 ^ 24), .ofNat _ (n / 2 ^ 26),
    .ofNat _ (n / 2 ^ 33), (n / 2 ^ 37 % 2 == 1), .ofNat _ (n / 2 ^ 38), .ofNat _ (n / 2 ^ 40), .ofNat _ (n / 2 ^ 43),
    .ofNat _ (n / 2 ^ 46)⟩, ?_⟩
  apply BitVec.eq_of_toNat_eq
  unfold KDataSrc.val
  have hx := x.isLt
  have hb : (n / 2 ^ 37 % 2 == 1).toNat = n / 2 ^ 37 % 2 := by
    rcases Nat.mod_two_eq_zero_or_one (n / 2 ^ 37) with h | h <;> rw [h] <;> rfl
  simp only [BitVec.toNat_ofNat, hb]
  show _ = n
  have hn : n < 2 ^ 64 := hx
  clear_value n
  omega

/-- **C52** in a sample, whatever the byte order of the source. -/
theorem c52_sample (hp : RepP p f) (hs : Src f.cfg o) (misc : U16) (t : KTrailer) (s : KSample) (d : KDataSrc)
    (hd : s.dataSrc = d.val) (host : Order)
    (hok : s.Ok f.cfg.endian.isNative o f.cfg.sampleType f.cfg.readFormat f.cfg.regsUser f.cfg.regsIntr f.cfg.branchHwIndex)
    (hal : f.cfg.endian.isNative = true → AlMod f.s.al 0) (hf : f.cfg.sampleType.getLsbD 15 = true)
    (hsize : (KRecord.mk misc (.sample s) t).size o f.cfg < 65536)
    (hb : f.s.bytes = (KRecord.mk misc (.sample s) t).enc o f.cfg ++ tl) :
    ∃ (a : Sample Cow) (v : U64), (P.parseRecord p).res = .ok (.sample a) ∧ a.dataSrc = some v ∧ d.Shows host host v := by
  obtain ⟨a, h1, _, h3, _⟩ := c50_consumed_partial hp hs misc t s hok hal hsize hb
  refine ⟨a, d.val, h1, ?_, c52_fields host d⟩
  rw [h3, hf, ← hd]
  rfl

example : (KDataSrc.mk 2 0x2001 0x11 2 0x41 9 true 1 4 3 0).Shows .big .big
    (KDataSrc.mk 2 0x2001 0x11 2 0x41 9 true 1 4 3 0).val := c52_fields .big _
example : DataSource.memSnoop .little .little (KDataSrc.mk 2 0x2001 0x11 2 0x41 9 true 1 4 3 0).val =
    (0x11#64 <<< 19) ||| (1#64 <<< 38) := by decide +kernel

/-! ## C53 -/

/-- **C53** The abort code and the format type, as arithmetic. -/
theorem c53_subfields (x : U64) :
    (txnAbort x).toNat = x.toNat / 2 ^ 32 ∧ (auxPmuFormatType x).toNat = x.toNat / 2 ^ 8 % 2 ^ 8 := by
  have hx := x.isLt
  constructor
  · unfold txnAbort
    rw [BitVec.toNat_setWidth, BitVec.toNat_ushiftRight, Nat.shiftRight_eq_div_pow]
    omega
  · unfold auxPmuFormatType
    have : (x &&& 0xff00#64) >>> 8 = (x >>> 8) &&& ((1#64 <<< 8) - 1#64) := by
      apply BitVec.eq_of_getLsbD_eq
      intro i hi
      have h : ∀ i : Fin 64, (0xff00#64).getLsbD (8 + i) = ((1#64 <<< 8) - 1#64 : U64).getLsbD i := by decide +kernel
      have := h ⟨i, hi⟩
      simp only [BitVec.getLsbD_ushiftRight, BitVec.getLsbD_and] at this ⊢
      rw [this]
    have h2 := bitfield_toNat .little x 8 8 (by omega) (by omega)
    simp only [bitfield] at h2
    rw [this, BitVec.toNat_setWidth, h2]
    omega

/-- **C53** AUX flags: every bit of the word is kept. -/
theorem c53_aux (hp : RepP p f) (hs : Src f.cfg o) (misc : U16) (t : KTrailer) (a : Aux)
    (hb : f.s.bytes = (KRecord.mk misc (.aux a) t).enc o f.cfg ++ tl) :
    ∃ r : Aux, (P.parseRecord p).res = .ok (.aux r) ∧ r.flags = a.flags ∧
      (auxPmuFormatType r.flags).toNat = a.flags.toNat / 2 ^ 8 % 2 ^ 8 :=
  ⟨a, (c11_fixed hp hs _ rfl (fun _ h => by cases h) hb).1, rfl, (c53_subfields a.flags).2⟩

/-- **C53** KSYMBOL flags. -/
theorem c53_ksymbol (hp : RepP p f) (hs : Src f.cfg o) (misc : U16) (t : KTrailer) (addr : U64) (len : U32)
    (ksymType flags : U16) (name : KName) (hn : name.Ok)
    (hsize : (KRecord.mk misc (.ksymbol addr len ksymType flags name) t).size o f.cfg < 65536)
    (hb : f.s.bytes = (KRecord.mk misc (.ksymbol addr len ksymType flags name) t).enc o f.cfg ++ tl) :
    ∃ r : KSymbol Cow, (P.parseRecord p).res = .ok (.ksymbol r) ∧ r.flags = flags ∧ r.ksymType = ksymType := by
  obtain ⟨c, h1, _⟩ := c12_ksymbol hp hs misc t addr len ksymType flags name hn hsize hb
  exact ⟨_, h1, rfl, rfl⟩

/-- **C53** The transaction word of a sample. -/
theorem c53_txn (hp : RepP p f) (hs : Src f.cfg o) (misc : U16) (t : KTrailer) (s : KSample)
    (hok : s.Ok f.cfg.endian.isNative o f.cfg.sampleType f.cfg.readFormat f.cfg.regsUser f.cfg.regsIntr f.cfg.branchHwIndex)
    (hal : f.cfg.endian.isNative = true → AlMod f.s.al 0) (hf : f.cfg.sampleType.getLsbD 17 = true)
    (hsize : (KRecord.mk misc (.sample s) t).size o f.cfg < 65536)
    (hb : f.s.bytes = (KRecord.mk misc (.sample s) t).enc o f.cfg ++ tl) :
    ∃ (a : Sample Cow) (v : U64), (P.parseRecord p).res = .ok (.sample a) ∧ a.transaction = some v ∧ v = s.transaction ∧
      (txnAbort v).toNat = s.transaction.toNat / 2 ^ 32 := by
  obtain ⟨a, h1, _, _, h4, _⟩ := c50_consumed_partial hp hs misc t s hok hal hsize hb
  refine ⟨a, _, h1, ?_, rfl, (c53_subfields _).1⟩
  rw [h4, hf]
  rfl

example : txnAbort 0x123456789abcdef0 = 0x12345678 ∧ auxPmuFormatType 0xffffffffffff01ff = 1 := by decide
example : (match (P.parseRecord (Parser.new (⟨1, (KRecord.mk 0 (.aux ⟨1, 2, 0xdeadbeefcafe0100⟩)
      ⟨1, 2, 3, 4, 5, 6, 7, 8⟩).enc .little demoCfg⟩ : Slice) demoCfg)).res with
    | .ok (.aux r) => r.flags == 0xdeadbeefcafe0100
    | _ => false) = true := by decide +kernel

/-! ## C59 -/

/-- **C59** is true of the data source word (`c52_sample` has no condition on byte orders) and false of the two bit fields the
crate decodes with native getters. A branch with only `mispred` set, written by a big endian kernel and parsed with the big
endian decoder on a little endian host, is not reported mispredicted. -/
theorem c59_branch_false :
    (match ((parseBranchEntry : P Slice BranchEntry)
      (Parser.new ⟨1, (KBranch.mk 1 2 true false false false 0 0 0).enc .big⟩ demoBigCfg)).res with
    | .ok e => e.mispred .little == false
    | _ => false) = true := by decide +kernel

/-- An attr of a big endian machine whose compiler put `sample_id_all` (bit 18 of the field) at bit 45 of the number: the
configuration made from it on a little endian host does not have it, and trailers will be left in the records. -/
theorem c59_sample_id_all_false :
    let a : Attr := { flags := 1#64 <<< 45 }
    cBit .big a.flags 18 = true ∧ (ParseConfig.ofAttr (.big .little) .little a).sampleIdAll = false := by decide +kernel

/-- What holds: source and host of the same byte order. -/
theorem c59_partial (hp : RepP p f) (o : Order) (hs : Src f.cfg o) (b : KBranch) (hb : f.s.bytes = b.enc o ++ tl)
    (e : Endian) (a : Attr) :
    (∃ x, ((parseBranchEntry : P β BranchEntry) p).res = .ok x ∧ b.Shows o x) ∧
    (ParseConfig.ofAttr e o a).sampleIdAll = cBit o a.flags 18 := by
  obtain ⟨x, h1, h2, _⟩ := c51_entry hp hs b hb
  exact ⟨⟨x, h1, h2⟩, (c27_attr e o a).2.2.2.2.1⟩

/-- The bits of a branch entry that the kernel reserves (the first 40 are in use by now) are zero. -/
def KBranch.Plain (b : KBranch) : Order → Prop
  | .little => b.rest.toNat < 2 ^ 16
  | .big => b.rest.toNat % 2 ^ 24 = 0

def Order.other : Order → Order
  | .little => .big
  | .big => .little

/-- **C59**, the excluded case, for all inputs. On a host of the other byte order every branch entry is reported as neither
predicted nor mispredicted, outside of transactions, with 0 cycles and type 0, whatever the kernel wrote: the getters look at
the reserved bits. The addresses are right. -/
theorem c59_foreign_branch_false (hp : RepP p f) (o : Order) (hs : Src f.cfg o) (b : KBranch) (hz : b.Plain o)
    (hb : f.s.bytes = b.enc o ++ tl) :
    ∃ x, ((parseBranchEntry : P β BranchEntry) p).res = .ok x ∧ x.from_ = b.from_ ∧ x.to = b.to ∧
      x.mispred o.other = false ∧ x.predicted o.other = false ∧ x.inTx o.other = false ∧ x.abort o.other = false ∧
      x.cycles o.other = 0#16 ∧ x.ty o.other = 0#8 := by
  obtain ⟨x, h1, rfl, _⟩ := Refines.reads Refines.branchEntry hp
    (Reads.branchEntry (nd := ⟨false, false⟩) hs ⟨b.from_, b.to, b.word o⟩ 0 tl) nofun nofun hb
  refine ⟨_, h1, rfl, rfl, ?_⟩
  have hw := b.word_toNat o
  have h1 := b.cycles.isLt
  have h2 := b.ty.isLt
  have h3 := b.rest.isLt
  have h4 := b.mispred.toNat_le
  have h5 := b.predicted.toNat_le
  have h6 := b.inTx.toNat_le
  have h7 := b.abort.toNat_le
  have hbit (off w : Nat) (hw0 : off + w ≤ 24) : bitfield o.other (b.word o) off w = 0#64 := by
    apply BitVec.eq_of_toNat_eq
    rw [bitfield_toNat _ _ _ _ (by omega) (by omega), show (0#64).toNat = 0 from rfl]
    cases o with
    | little =>
      have hz' : b.rest.toNat < 2 ^ 16 := hz
      have hlt : (b.word .little).toNat < 2 ^ 40 := by rw [hw]; simp only; omega
      show (b.word .little).toNat / 2 ^ (64 - off - w) % 2 ^ w = 0
      rw [Nat.div_eq_of_lt (Nat.lt_of_lt_of_le hlt (Nat.pow_le_pow_right (by omega) (by omega))), Nat.zero_mod]
    | big =>
      have hz' : b.rest.toNat % 2 ^ 24 = 0 := hz
      obtain ⟨m, hm⟩ : ∃ m, (b.word .big).toNat = 2 ^ 24 * m := by
        refine ⟨(b.word .big).toNat / 2 ^ 24, ?_⟩
        rw [hw]; simp only; omega
      show (b.word .big).toNat / 2 ^ off % 2 ^ w = 0
      rw [hm, show (2 : Nat) ^ 24 = 2 ^ off * (2 ^ w * 2 ^ (24 - off - w)) by
        rw [← Nat.pow_add, ← Nat.pow_add]; congr 1; omega, Nat.mul_assoc, Nat.mul_div_cancel_left _ (Nat.two_pow_pos off),
        Nat.mul_assoc, Nat.mul_mod_right]
  refine ⟨?_, ?_, ?_, ?_, ?_, ?_⟩
  · unfold BranchEntry.mispred; rw [hbit 0 1 (by omega)]; rfl
  · unfold BranchEntry.predicted; rw [hbit 1 1 (by omega)]; rfl
  · unfold BranchEntry.inTx; rw [hbit 2 1 (by omega)]; rfl
  · unfold BranchEntry.abort; rw [hbit 3 1 (by omega)]; rfl
  · unfold BranchEntry.cycles; rw [hbit 4 16 (by omega)]; rfl
  · unfold BranchEntry.ty; rw [hbit 20 4 (by omega)]; rfl

/-- **C59**, the excluded case of the attr: the configuration made on a host of the other byte order has the kernel's bit field
number 45 for `sample_id_all` (number 18). -/
theorem c59_foreign_attr_false (e : Endian) (o : Order) (a : Attr) :
    (ParseConfig.ofAttr e o.other a).sampleIdAll = cBit o a.flags 45 := by
  rw [(c27_attr e o.other a).2.2.2.2.1]
  cases o <;> rfl

end Perf
