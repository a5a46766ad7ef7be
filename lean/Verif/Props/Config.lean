import Verif.Props.Group
/-!
# Configuration and byte order: C27, C28, C29
-/
namespace Perf
variable {β : Type} [ParseBuf β] {p : Parser β}

/-! ## C27 -/

/-- Where a C compiler puts the one-bit field number `i` of a 64-bit unit: counted from the least significant bit for a
little endian target, from the most significant for a big endian one. -/
def cBit (o : Order) (w : U64) (i : Nat) : Bool :=
  match o with
  | .little => w.getLsbD i
  | .big => w.getLsbD (63 - i)

theorem one_bit (x : U64) (i : Nat) : (((x >>> i) &&& ((1#64 <<< 1) - 1#64)) != 0#64) = x.getLsbD i := by
  have h : ((x >>> i) &&& ((1#64 <<< 1) - 1#64)) = if x.getLsbD i then 1#64 else 0#64 := by
    apply BitVec.eq_of_getLsbD_eq
    intro j hj
    have h1 : (((1#64 <<< 1) - 1#64 : U64)).getLsbD j = decide (j = 0) := by
      have : ∀ j : Fin 64, (((1#64 <<< 1) - 1#64 : U64)).getLsbD j = decide (j.val = 0) := by decide
      exact this ⟨j, hj⟩
    have h2 : (1#64).getLsbD j = decide (j = 0) := by
      have : ∀ j : Fin 64, (1#64).getLsbD j = decide (j.val = 0) := by decide
      exact this ⟨j, hj⟩
    rw [BitVec.getLsbD_and, BitVec.getLsbD_ushiftRight, h1]
    by_cases hj0 : j = 0
    · subst hj0; cases x.getLsbD i <;> simp
    · cases x.getLsbD i <;> simp [hj0, h2]
  rw [h]
  cases x.getLsbD i <;> rfl

theorem bitfield_one (host : Order) (w : U64) (i : Nat) : (bitfield host w i 1 != 0#64) = cBit host w i := by
  cases host with
  | little => exact one_bit w i
  | big => exact (one_bit w (64 - i - 1)).trans (by show _ = w.getLsbD (63 - i); congr 1; omega)

theorem eq_of_low_bits {x y : U64} (n : Nat) (hx : x.toNat < 2 ^ n) (h : ∀ i, i < n → y.getLsbD i = x.getLsbD i)
    (hy : ∀ i, n ≤ i → y.getLsbD i = false) : y = x := by
  apply BitVec.eq_of_getLsbD_eq
  intro i _
  by_cases hi : i < n
  · exact h i hi
  · rw [hy i (by omega)]
    symm
    have : x.toNat < 2 ^ i := Nat.lt_of_lt_of_le hx (Nat.pow_le_pow_right (by omega) (by omega))
    rw [BitVec.getLsbD]
    exact Nat.testBit_lt_two_pow this

/-- **C27** The configuration made from an attr. `sample_type` is kept up to bit 39 (the kernel defines 25 bits) and
`read_format` for the five flags the crate knows; all 2^64 values of every field are covered by the general form
`c27_packed`. -/
theorem c27_attr (e : Endian) (host : Order) (a : Attr) :
    let c := ParseConfig.ofAttr e host a
    (a.sampleType.toNat < 2 ^ 40 → c.sampleType = a.sampleType) ∧
    (a.readFormat.toNat < 2 ^ 5 → c.readFormat = a.readFormat) ∧
    c.regsUser = a.sampleRegsUser ∧ c.regsIntr = a.sampleRegsIntr ∧
    c.sampleIdAll = cBit host a.flags 18 ∧ c.branchHwIndex = a.branchSampleType.getLsbD 17 ∧ c.misc = 0#16 ∧
    c.endian = e := by
  intro c
  refine ⟨fun h => ?_, fun h => ?_, rfl, rfl, ?_, ?_, ?_, rfl⟩
  · refine eq_of_low_bits 40 h (fun i hi => ?_) fun i hi => ?_ <;>
      rw [show c.sampleType = ConfigFlags.sampleType (ConfigFlags.new _ _ _ _ _) from rfl, ConfigFlags.bit_sampleType]
    · rw [ConfigFlags.bit_new, if_neg (by omega), if_pos (by omega)]
      simp [hi]
    · simp; omega
  · refine eq_of_low_bits 5 h (fun i hi => ?_) fun i hi => ?_ <;>
      rw [show c.readFormat = ConfigFlags.readFormat (ConfigFlags.new _ _ _ _ _) from rfl, ConfigFlags.bit_readFormat]
    · rw [ConfigFlags.bit_new, if_pos (by omega)]
      have h1 : i < 6 := by omega
      have h2 : ¬ i = 5 := by omega
      simp [h1, h2]
    · by_cases h6 : i < 6
      · have h5 : i = 5 := by omega
        subst h5
        rw [ConfigFlags.bit_new, if_pos (by omega)]
        have h1 : a.readFormat >>> 6 = 0#64 := by
          apply BitVec.eq_of_toNat_eq
          rw [BitVec.toNat_ushiftRight, Nat.shiftRight_eq_div_pow]
          exact Nat.div_eq_of_lt (by omega)
        have h2 : a.readFormat.getLsbD 5 = false := Nat.testBit_lt_two_pow h
        rw [h1, h2]
        rfl
      · simp [h6]
  · show ConfigFlags.sampleIdAll (ConfigFlags.new _ _ _ _ _) = _
    rw [ConfigFlags.bit_sampleIdAll, ConfigFlags.bit_new]
    simp only [show ¬ (46 < 6) by omega, show ¬ (46 < 46) by omega, if_true, if_false]
    exact bitfield_one host a.flags 18
  · show ConfigFlags.branchHwIndex (ConfigFlags.new _ _ _ _ _) = _
    rw [ConfigFlags.bit_branchHwIndex, ConfigFlags.bit_new]
    simp only [show ¬ (47 < 6) by omega, show ¬ (47 < 46) by omega, show ¬ (47 = 46) by omega, if_true, if_false]
    rw [show PERF_SAMPLE_BRANCH_HW_INDEX = BitVec.twoPow 64 17 from rfl, BitVec.and_twoPow]
    cases a.branchSampleType.getLsbD 17 <;> rfl
  · show ConfigFlags.misc (ConfigFlags.new _ _ _ _ _) = _
    apply BitVec.eq_of_getLsbD_eq
    intro i hi
    rw [ConfigFlags.bit_misc, ConfigFlags.bit_new]
    have h1 : ¬ 48 + i < 6 := by omega
    have h2 : ¬ 48 + i < 46 := by omega
    have h3 : ¬ 48 + i = 46 := by omega
    have h4 : ¬ 48 + i = 47 := by omega
    simp [h1, h2, h3, h4]

/-- **C27** for all 64-bit values: bit `i` of `sample_type` is the attr's for `i < 40` and dropped above; bit `i < 5` of
`read_format` is the attr's, bit 5 is set iff any higher bit of the attr's is, and nothing else is set. -/
theorem c27_packed (e : Endian) (host : Order) (a : Attr) (i : Nat) :
    (ParseConfig.ofAttr e host a).sampleType.getLsbD i = (decide (i < 40) && a.sampleType.getLsbD i) ∧
    ((ParseConfig.ofAttr e host a).readFormat.getLsbD i = true ↔
      (i < 5 ∧ a.readFormat.getLsbD i = true) ∨ (i = 5 ∧ ∃ j, 5 ≤ j ∧ a.readFormat.getLsbD j = true)) := by
  constructor
  · show (ConfigFlags.sampleType (ConfigFlags.new _ _ _ _ _)).getLsbD i = _
    rw [ConfigFlags.bit_sampleType, ConfigFlags.bit_new, if_neg (by omega)]
    by_cases h : i < 40
    · rw [if_pos (by omega)]; simp [h]
    · simp [h]
  · by_cases h5 : i = 5
    · subst h5
      constructor
      · intro h
        refine .inr ⟨rfl, ?_⟩
        replace h : (ConfigFlags.readFormat (ConfigFlags.new _ _ _ _ _)).getLsbD 5 = true := h
        rw [ConfigFlags.bit_readFormat, ConfigFlags.bit_new] at h
        simp only [show (5 : Nat) < 6 by omega, if_true, decide_true, Bool.and_true, Bool.true_and, Bool.or_eq_true,
          decide_eq_true_eq] at h
        rcases h with h | h
        · exact ⟨5, by omega, h⟩
        · refine Classical.byContradiction fun hn => h ?_
          apply BitVec.eq_of_getLsbD_eq
          intro j _
          rw [BitVec.getLsbD_ushiftRight, BitVec.getLsbD_zero]
          cases hj : a.readFormat.getLsbD (6 + j) with
          | false => rfl
          | true => exact absurd ⟨6 + j, by omega, hj⟩ hn
      · rintro (⟨h, _⟩ | ⟨_, j, hj, h⟩)
        · omega
        · exact readFormat_ofAttr e host a j hj h
    · have hb : (ParseConfig.ofAttr e host a).readFormat.getLsbD i = (decide (i < 6) && a.readFormat.getLsbD i) := by
        show (ConfigFlags.readFormat (ConfigFlags.new _ _ _ _ _)).getLsbD i = _
        rw [ConfigFlags.bit_readFormat, ConfigFlags.bit_new]
        by_cases h : i < 6 <;> simp [h, h5]
      rw [hb]
      constructor
      · intro h
        simp only [Bool.and_eq_true, decide_eq_true_eq] at h
        exact .inl ⟨by omega, h.2⟩
      · rintro (⟨h, h'⟩ | ⟨h, _⟩)
        · simp [h']; omega
        · exact absurd h h5

/-- `with_endian` (how `Dynamic` gets in) keeps everything else. -/
theorem c27_with_endian (c : ParseConfig) (e : Endian) :
    (c.withEndian e).sampleType = c.sampleType ∧ (c.withEndian e).readFormat = c.readFormat ∧
    (c.withEndian e).regsUser = c.regsUser ∧ (c.withEndian e).regsIntr = c.regsIntr ∧
    (c.withEndian e).sampleIdAll = c.sampleIdAll ∧ (c.withEndian e).branchHwIndex = c.branchHwIndex ∧
    (c.withEndian e).misc = c.misc ∧ (c.withEndian e).endian = e := ⟨rfl, rfl, rfl, rfl, rfl, rfl, rfl, rfl⟩

/-- **C27** `ParseConfig::default()` has nothing set, like the configuration made from an all-zero attr. -/
theorem c27_default (e : Endian) (host : Order) :
    (ParseConfig.default e host).sampleType = 0#64 ∧ (ParseConfig.default e host).readFormat = 0#64 ∧
    (ParseConfig.default e host).regsUser = 0#64 ∧ (ParseConfig.default e host).regsIntr = 0#64 ∧
    (ParseConfig.default e host).sampleIdAll = false ∧ (ParseConfig.default e host).branchHwIndex = false ∧
    (ParseConfig.default e host).misc = 0#16 ∧ (ParseConfig.default e host).endian = e ∧
    ParseConfig.default e host = ParseConfig.ofAttr e host {} := by
  refine ⟨?_, ?_, rfl, rfl, ?_, ?_, ?_, rfl, by cases host <;> rfl⟩
  · show ConfigFlags.sampleType 0#64 = _; decide
  · show ConfigFlags.readFormat 0#64 = _; decide
  · show ConfigFlags.sampleIdAll 0#64 = _; decide
  · show ConfigFlags.branchHwIndex 0#64 = _; decide
  · show ConfigFlags.misc 0#64 = _; decide

/-- **C27** The assertion of the test in src/config.rs:265-268, and what it is for: every `sample_type` of flags known to the
bindings, and of 8 more to come, is kept. -/
theorem c27_spare_bits : ConfigFlags.SAMPLE_TYPE_WIDTH = 25 ∧ popcount ConfigFlags.SAMPLE_TYPE ≥ ConfigFlags.SAMPLE_TYPE_WIDTH + 8 ∧
    ∀ (e : Endian) (host : Order) (a : Attr), a.sampleType.toNat < 2 ^ (25 + 8) →
      (ParseConfig.ofAttr e host a).sampleType = a.sampleType :=
  ⟨by decide +kernel, by decide +kernel, fun e host a h => (c27_attr e host a).1 (Nat.lt_trans h (by decide))⟩

/-- All settings at once, all distinct. -/
example :
    let a : Attr := { sampleType := 0x1ffffff, readFormat := 0x15, flags := 1#64 <<< 18, branchSampleType := 1#64 <<< 17
                      sampleRegsUser := 3, sampleRegsIntr := 5 }
    let c := ParseConfig.ofAttr (.little .little) .little a
    c.sampleType = 0x1ffffff ∧ c.readFormat = 0x15 ∧ c.sampleIdAll = true ∧ c.branchHwIndex = true ∧ c.regsUser = 3 ∧
      c.regsIntr = 5 ∧ c.misc = 0 := by decide +kernel

/-! ## C28 -/

/-- **C28** Setting the misc bits changes nothing else and reads back. -/
theorem c28_with_misc (c : ParseConfig) (m : U16) :
    (c.withMisc m).misc = m ∧ (c.withMisc m).sampleType = c.sampleType ∧ (c.withMisc m).readFormat = c.readFormat ∧
    (c.withMisc m).sampleIdAll = c.sampleIdAll ∧ (c.withMisc m).branchHwIndex = c.branchHwIndex ∧
    (c.withMisc m).regsUser = c.regsUser ∧ (c.withMisc m).regsIntr = c.regsIntr ∧
    (c.withMisc m).endian = c.endian :=
  ⟨c.withMisc_misc m, c.withMisc_sampleType m, c.withMisc_readFormat m, c.withMisc_sampleIdAll m,
    c.withMisc_branchHwIndex m, rfl, rfl, rfl⟩

section
variable {I : Parser β → Prop} {γ O : Type}

omit [ParseBuf β] in
theorem Inv.onChild {δ α : Type} (child : Parser δ) (m : P δ α) : Inv I (fun _ => True) (P.onChild child m : P β (α × Parser δ)) := by
  intro q hq
  refine ⟨?_, fun _ _ => trivial⟩
  show I (match (m child).res with
    | .ok a => ({ res := .ok (a, (m child).st), st := q, log := (m child).log } : Out β (α × Parser δ))
    | .error e => { res := .error e, st := q, log := (m child).log }).st
  cases (m child).res <;> exact hq

theorem Inv.metadataWithHeader (s : Stable I) (h : Header) :
    Inv I (fun _ => True) (P.metadataWithHeader h : P β (Parser Cursor × Metadata)) :=
  Inv.ite (fun _ => Inv.fail _) fun _ => Inv.skip (Inv.splitAt s _) fun _ =>
    Inv.ite (fun _ => Inv.pure trivial) fun _ => Inv.ite (fun _ => Inv.fail _) fun _ =>
      Inv.skip (Inv.onChild _ _) fun _ => Inv.skip (Inv.onChild _ _) fun _ => Inv.pure trivial

theorem Inv.recordImpl [ParseBuf γ] (q : Parser γ) (v : Visitor Cow O) (md : Metadata) :
    Inv I (fun _ => True) (P.recordImpl q v md : P β O) :=
  Inv.skip (Inv.onChild _ _) fun _ => Inv.pure trivial

theorem Inv.recordWithHeader (s : Stable I) (v : Visitor Cow O) (h : Header) :
    Inv I (fun _ => True) (P.recordWithHeader v h : P β O) := by
  refine Inv.skip (Inv.metadataWithHeader s h) fun r => ?_
  obtain ⟨q, md⟩ := r
  show Inv I _ (match q.data.buf.asSlice with
    | some data => P.recordImpl (Parser.new data q.config) v md
    | none => P.recordImpl q v md)
  split
  · exact Inv.recordImpl _ v md
  · exact Inv.recordImpl _ v md

theorem Inv.record (s : Stable I) (v : Visitor Cow O) : Inv I (fun _ => True) (P.record v : P β O) :=
  Inv.skip (Inv.skip (Inv.u32 s) fun _ => Inv.skip (Inv.u16 s) fun _ => Inv.skip (Inv.u16 s) fun _ => Inv.pure trivial) fun h =>
    Inv.recordWithHeader s v h
end

/-- **C28** Whatever a record's misc is, and whether or not it parses, the parser keeps its configuration for the next
record. For any buffer and visitor. -/
theorem c28_parser_config {O : Type} (p : Parser β) (v : Visitor Cow O) : (P.record v p).st.config = p.config :=
  (Inv.record (Stable.config p.config) v p rfl).1

/-- **C28** The record itself is parsed under the configuration with the header's misc. -/
theorem c28_record [Lawful β] {f : Flat} (hp : RepP p f) {a : Record Cow} (ha : (P.parseRecord p).res = .ok a) :
    ∃ (γ : Type) (_ : ParseBuf γ) (q : Parser γ), q.config = p.config.withMisc (headerAt f).misc ∧
      ((parseBody (headerAt f).type_ : P γ (Record Cow)) q).res = .ok a := by
  have := (P.parseRecord_produced hp ha).2
  rw [← hp.cfg] at this
  exact this

/-- A configuration with every other bit set, and misc 0xffff. -/
example :
    let c : ParseConfig := { demoCfg with config := ⟨BitVec.allOnes 64, 1, 2⟩ }
    (c.withMisc 0).misc = 0 ∧ (c.withMisc 0).sampleType = 0xffffffffff ∧ (c.withMisc 0x1234).misc = 0x1234 ∧
      (c.withMisc 0).sampleIdAll = true := by decide +kernel

/-! ## C29 -/

theorem digits_leNat (bs : List Byte) : digits bs.length (leNat bs) = bs := by
  induction bs with
  | nil => rfl
  | cons b bs ih =>
    show BitVec.ofNat 8 (b.toNat + 256 * leNat bs) :: digits bs.length ((b.toNat + 256 * leNat bs) / 256) = b :: bs
    have hb := b.isLt
    have h1 : (b.toNat + 256 * leNat bs) / 256 = leNat bs := by omega
    have h2 : BitVec.ofNat 8 (b.toNat + 256 * leNat bs) = b := by
      apply BitVec.eq_of_toNat_eq
      rw [BitVec.toNat_ofNat]
      omega
    rw [h1, h2, ih]

theorem leNat_lt (bs : List Byte) : leNat bs < 256 ^ bs.length := by
  induction bs with
  | nil => decide
  | cons b bs ih =>
    have hb := b.isLt
    show b.toNat + 256 * leNat bs < 256 ^ (bs.length + 1)
    rw [Nat.pow_succ]
    omega

/-- Encoding what was decoded. -/
theorem enc_fromOrder (o : Order) (bs : List Byte) (n : Nat) (hn : bs.length = n) :
    enc o n (fromOrder o (8 * n) bs).toNat = bs := by
  subst hn
  have key : ∀ bs : List Byte, (fromLE (8 * bs.length) bs).toNat = leNat bs := by
    intro bs
    unfold fromLE
    rw [BitVec.toNat_ofNat]
    apply Nat.mod_eq_of_lt
    have := leNat_lt bs
    rwa [Nat.pow_mul]
  cases o with
  | little => show digits _ (fromLE _ bs).toNat = bs; rw [key, digits_leNat]
  | big =>
    show (digits _ (fromLE _ bs.reverse).toNat).reverse = bs
    have h := key bs.reverse
    rw [List.length_reverse] at h
    have h2 := digits_leNat bs.reverse
    rw [List.length_reverse] at h2
    rw [h, h2, List.reverse_reverse]

/-- `e` decodes byte order `o`: 2, 4 and 8 byte integers are the value whose encoding (`enc`: base 256 digits, least
significant first for `little`, last for `big`) is those bytes, and every value's encoding decodes to it. -/
structure DecodesOrder (e : Endian) (o : Order) : Prop where
  u16 : ∀ bs : List Byte, bs.length = 2 → e16 o (e.conv16 bs) = bs
  u32 : ∀ bs : List Byte, bs.length = 4 → e32 o (e.conv32 bs) = bs
  u64 : ∀ bs : List Byte, bs.length = 8 → e64 o (e.conv64 bs) = bs
  u16' : ∀ x, e.conv16 (e16 o x) = x
  u32' : ∀ x, e.conv32 (e32 o x) = x
  u64' : ∀ x, e.conv64 (e64 o x) = x

theorem DecodesOrder.of (e : Endian) (o : Order) (h16 : e.conv16 = fromOrder o 16) (h32 : e.conv32 = fromOrder o 32)
    (h64 : e.conv64 = fromOrder o 64) : DecodesOrder e o where
  u16 bs h := by rw [h16]; exact enc_fromOrder o bs 2 h
  u32 bs h := by rw [h32]; exact enc_fromOrder o bs 4 h
  u64 bs h := by rw [h64]; exact enc_fromOrder o bs 8 h
  u16' x := by rw [h16]; exact fromOrder_enc o 2 x
  u32' x := by rw [h32]; exact fromOrder_enc o 4 x
  u64' x := by rw [h64]; exact fromOrder_enc o 8 x

/-- **C29** The four `Endian`s decode their byte order, on both kinds of hosts. -/
theorem c29_decodes (o host : Order) :
    DecodesOrder (.native host) host ∧ DecodesOrder (.little host) .little ∧ DecodesOrder (.big host) .big ∧
    DecodesOrder (.dynamic o host) o :=
  ⟨.of _ _ rfl rfl rfl, .of _ _ rfl rfl rfl, .of _ _ rfl rfl rfl, by cases o <;> exact .of _ _ rfl rfl rfl⟩

/-- **C29** `is_native()` is true exactly if the source's order is the host's. -/
theorem c29_is_native (o host : Order) :
    (Endian.native host).isNative = true ∧ ((Endian.little host).isNative = true ↔ host = .little) ∧
    ((Endian.big host).isNative = true ↔ host = .big) ∧ ((Endian.dynamic o host).isNative = true ↔ o = host) := by
  cases o <;> cases host <;> decide

example : (Endian.big .little).conv32 [1, 2, 3, 4] = 0x01020304 ∧ (Endian.little .big).conv32 [1, 2, 3, 4] = 0x04030201 ∧
    (Endian.native .big).conv16 [1, 2] = 0x0102 := by decide

end Perf
