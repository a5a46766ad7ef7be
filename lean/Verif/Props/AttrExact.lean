import Verif.Props.Attr
import Verif.Props.MendedAll
import Verif.Props.PieceExact
/-!
# C98: exactly which attrs are accepted, and exactly what a recording read with its own attr gives

The parser of `perf_event_attr` as it is, with the defect B5: in every case what it returns, over every buffer. Together with C95 and C97 this
is an exact description of reading a recording from the attr to the last record: which values come out, and for which bytes alone.
-/
namespace Perf
variable {β : Type} [ParseBuf β] [Lawful β] {p : Parser β} {f : Flat} {o : Order} {tl : List Byte}

theorem Spec.parseAttr_short (h : f.s.bytes.length < 8) : Spec.parseAttr f = .error (.err f.s.fin) := by
  unfold Spec.parseAttr
  rcases Nat.lt_or_ge f.s.bytes.length 4 with h4 | h4
  · rw [Spec.bind_err ((Fixed.u32 (cfg := f.cfg) f rfl).2 h4)]
  · obtain ⟨t, ht⟩ := (Fixed.u32 (cfg := f.cfg) f rfl).1 h4
    rw [Spec.bind_ok ht, Spec.bind_err ((Fixed.u32 (cfg := f.cfg) (f.adv 4) rfl).2 (by rw [Flat.adv_bytes, List.length_drop]; omega))]
    rfl

/-- **C98** Everything `parse::<perf_event_attr>()` does, for every input and every buffer: the first error that applies, or the attr these
bytes are. Four bytes more than the structure has must be there, and are consumed with it; behind a larger structure they must be zero too. -/
theorem c98_attr (hp : RepP p f) (hs : Src f.cfg o) :
    (f.s.bytes.length < 8 ∧ ((P.parseAttr : P β Attr) p).res = .error (.err f.s.fin)) ∨
    ∃ (t s : U32) (rest : List Byte), f.s.bytes = e32 o t ++ (e32 o s ++ rest) ∧
      ((¬ (s.toNat ∈ kattrSizes ∨ 136 < s.toNat) ∧ ((P.parseAttr : P β Attr) p).res =
        .error (.err (.custom .invalidRecord s!"{s.toNat} is not a valid size for a perf_event_attr struct"))) ∨
      ((s.toNat ∈ kattrSizes ∨ 136 < s.toNat) ∧ (
        (rest.length < s.toNat - 4 ∧ ((P.parseAttr : P β Attr) p).res = .error (.err f.s.fin)) ∨
        (s.toNat - 4 ≤ rest.length ∧ 136 < s.toNat ∧ (∃ b ∈ (rest.take (s.toNat - 4)).drop 128, b ≠ 0#8) ∧
          ((P.parseAttr : P β Attr) p).res = .error (.err (.custom .unsupportedData
            "serialized perf_event_attr contains fields not supported by this version of perf-event-data"))) ∨
        ∃ (a : Attr) (r2 : U16) (r3 : U32) (tl : List Byte), f.s.bytes = kattr o a s.toNat r2 r3 ++ tl ∧ 4 ≤ tl.length ∧
          (136 < s.toNat → tl.take 4 = List.replicate 4 0#8) ∧
          ((P.parseAttr : P β Attr) p).res = .ok (a.upTo s.toNat) ∧ RepP ((P.parseAttr : P β Attr) p).st (f.adv (s.toNat + 4))))) := by
  rcases Nat.lt_or_ge f.s.bytes.length 8 with h8 | h8
  · exact .inl ⟨h8, Refines.attr_err hp (Spec.parseAttr_short h8)⟩
  refine .inr ?_
  obtain ⟨b1, bs, hb, l1, l2⟩ := cutBytes 4 (bs := f.s.bytes) (m := f.s.bytes.length - 4) (by omega)
  obtain ⟨b2, rest, rfl, l3, l4⟩ := cutBytes 4 (bs := bs) (m := f.s.bytes.length - 8) (by omega)
  obtain ⟨t, rfl⟩ := e32_surj o l1
  obtain ⟨s, rfl⟩ := e32_surj o l3
  refine ⟨t, s, rest, hb, ?_⟩
  have hb' : f.s.bytes = e32 o t ++ e32 o s ++ rest := by rw [hb, List.append_assoc]
  by_cases hsz : s.toNat ∈ kattrSizes ∨ 136 < s.toNat
  case neg => exact .inl ⟨hsz, c40_size hp hs t s hb' (fun h => hsz (.inl h)) (by omega)⟩
  refine .inr ⟨hsz, ?_⟩
  have h8' := kattrSizes_ge hsz
  have hs32 : BitVec.ofNat 32 s.toNat = s := by simp
  have hdrop : (f.adv 8).s.bytes = rest := by rw [Flat.adv_bytes, hb, drop_head]
  rcases Nat.lt_or_ge rest.length (s.toNat - 4) with hlt | hge
  · refine .inl ⟨hlt, Refines.attr_err hp ?_⟩
    rw [Spec.parseAttr_head hs t s hb', Spec.attrRest_short ((Attr.sizeOk_iff _).2 hsz) (by rw [hdrop]; omega)]
    rfl
  refine .inr ?_
  have htl : (rest.take (s.toNat - 8)).length = s.toNat - 8 := by rw [List.length_take]; omega
  obtain ⟨a, r2, r3, ht, hrest⟩ := kattr_surj o t hsz s.isLt htl
  have hcut : (rest.take (s.toNat - 4)).drop 128 = (rest.take (s.toNat - 8)).drop 128 ++ ((rest.drop (s.toNat - 8)).take (4 - (128 - (s.toNat - 8)))).drop 0 ∨
      s.toNat ≤ 136 := by
    rcases Nat.lt_or_ge 136 s.toNat with h | h
    · left
      rw [List.drop_zero, show 4 - (128 - (s.toNat - 8)) = 4 by omega, show s.toNat - 4 = (s.toNat - 8) + 4 by omega, List.take_add,
        List.drop_append_of_le_length (by rw [htl]; omega)]
    · exact .inr h
  by_cases hz : 136 < s.toNat ∧ ∃ b ∈ (rest.take (s.toNat - 4)).drop 128, b ≠ 0#8
  · refine .inl ⟨hge, hz.1, hz.2, attr_unsupported (tl := rest.drop (s.toNat - 4)) hp hs t s ((rest.take (s.toNat - 4)).take 128)
      ((rest.take (s.toNat - 4)).drop 128) hz.1 ?_ ?_ hz.2 ?_⟩
    · have := hz.1; rw [List.length_take, List.length_take]; omega
    · rw [List.length_drop, List.length_take]; omega
    · rw [List.take_append_drop, List.take_append_drop, hb']
  · refine .inr ⟨a, r2, r3, rest.drop (s.toNat - 8), ?_⟩
    have hzero : 136 < s.toNat → (rest.take (s.toNat - 8)).drop 128 = List.replicate (s.toNat - 136) 0#8 ∧
        (rest.drop (s.toNat - 8)).take 4 = List.replicate 4 0#8 := by
      intro h
      have hall : ∀ b ∈ (rest.take (s.toNat - 4)).drop 128, b = 0#8 := fun b hb => Classical.not_not.1 fun hne => hz ⟨h, b, hb, hne⟩
      rcases hcut with hcut | hcut
      · rw [hcut, List.drop_zero, show 4 - (128 - (s.toNat - 8)) = 4 by omega] at hall
        refine ⟨List.eq_replicate_iff.2 ⟨by rw [List.length_drop, htl]; omega, fun b hb => hall b (List.mem_append_left _ hb)⟩,
          List.eq_replicate_iff.2 ⟨by rw [List.length_take, List.length_drop]; omega, fun b hb => hall b (List.mem_append_right _ hb)⟩⟩
      · omega
    have hbytes : f.s.bytes = kattr o a s.toNat r2 r3 ++ rest.drop (s.toNat - 8) := by
      have hz' : (rest.take (s.toNat - 8)).drop 128 = List.replicate (s.toNat - 136) 0#8 := by
        rcases Nat.lt_or_ge 136 s.toNat with h | h
        · exact (hzero h).1
        · rw [List.drop_eq_nil_of_le (by rw [htl]; omega), show s.toNat - 136 = 0 by omega]; rfl
      rw [kattr_eq _ _ _ _ _ hsz, hs32, ht, ← hz', List.append_assoc (e32 o t ++ e32 o s), ← hrest, List.append_assoc, List.take_append_drop, hb']
    have hlen : 4 ≤ (rest.drop (s.toNat - 8)).length := by rw [List.length_drop]; omega
    refine ⟨hbytes, hlen, fun h => (hzero h).2, ?_⟩
    rcases hsz with hsz | hsz
    · exact c39_published_partial hp hs a s.toNat r2 r3 hsz hbytes hlen
    · refine c39_larger_partial (tl := (rest.drop (s.toNat - 8)).drop 4) hp hs a s.toNat r2 r3 hsz s.isLt ?_
      rw [← (hzero hsz).2, List.take_append_drop]
      exact hbytes

/-- The bytes start with the attr `x`, as the code expects it. -/
def AttrFrom (o : Order) (x : Attr) (bs : List Byte) : Prop := ∃ (a : Attr) (n : Nat) (r2 : U16) (r3 : U32) (tl : List Byte),
  (n ∈ kattrSizes ∨ 136 < n) ∧ n < 2 ^ 32 ∧ bs = kattr o a n r2 r3 ++ tl ∧ 4 ≤ tl.length ∧ (136 < n → tl.take 4 = List.replicate 4 0#8) ∧ x = a.upTo n

/-- **C98** An attr is returned if and only if the bytes start with it. -/
theorem c98_exact (hp : RepP p f) (hs : Src f.cfg o) (x : Attr) : ((P.parseAttr : P β Attr) p).res = .ok x ↔ AttrFrom o x f.s.bytes := by
  constructor
  · intro h
    rcases c98_attr hp hs with ⟨_, h1⟩ | ⟨t, s, rest, _, ⟨_, h1⟩ | ⟨hsz, ⟨_, h1⟩ | ⟨_, _, _, h1⟩ | ⟨a, r2, r3, tl, hb, h4, hz, h1, _⟩⟩⟩ <;>
      rw [h1] at h <;> cases h
    exact ⟨a, s.toNat, r2, r3, tl, hsz, s.isLt, hb, h4, hz, rfl⟩
  · rintro ⟨a, n, r2, r3, tl, hsz, hl, hb, h4, hz, rfl⟩
    rcases hsz with hsz | hsz
    · exact (c39_published_partial hp hs a n r2 r3 hsz hb h4).1
    · refine (c39_larger_partial (tl := tl.drop 4) hp hs a n r2 r3 hsz hl ?_).1
      rw [← hz hsz, List.take_append_drop]
      exact hb

/-- **C98** The bytes start with one attr at most. -/
theorem c98_unambiguous {x y : Attr} {bs : List Byte} (h : AttrFrom o x bs) (h' : AttrFrom o y bs) : x = y := by
  have hs : Src (ParseConfig.default (.dynamic o o) o) o := Src.dynamic _ o o
  have hp := RepP.slice 0 bs (ParseConfig.wf_dynamic (ParseConfig.default (.dynamic o o) o).config o o)
  have e1 := (c98_exact hp hs x).2 h
  rw [(c98_exact hp hs y).2 h'] at e1
  exact (Except.ok.inj e1).symm

/-! ## From the attr to the last record -/

/-- The configuration the attr stands for, setting by setting. Of `sample_type` 40 bits are kept; a bit of `read_format` from 5 on counts as bit 5. -/
structure MadeFrom (e : Endian) (host : Order) (a : Attr) (c : ParseConfig) : Prop where
  sampleType : ∀ i, c.sampleType.getLsbD i = (decide (i < 40) && a.sampleType.getLsbD i)
  readFormat : ∀ i, c.readFormat.getLsbD i = true ↔ (i < 5 ∧ a.readFormat.getLsbD i = true) ∨ (i = 5 ∧ ∃ j, 5 ≤ j ∧ a.readFormat.getLsbD j = true)
  sampleIdAll : c.sampleIdAll = cBit host a.flags 18
  branchHwIndex : c.branchHwIndex = a.branchSampleType.getLsbD 17
  misc : c.misc = 0#16
  regsUser : c.regsUser = a.sampleRegsUser
  regsIntr : c.regsIntr = a.sampleRegsIntr
  endian : c.endian = e
  host : c.host = host

/-- Settings that read the same are the same. -/
theorem ConfigFlags.ext {x y : U64} (h1 : ConfigFlags.sampleType x = ConfigFlags.sampleType y) (h2 : ConfigFlags.readFormat x = ConfigFlags.readFormat y)
    (h3 : ConfigFlags.sampleIdAll x = ConfigFlags.sampleIdAll y) (h4 : ConfigFlags.branchHwIndex x = ConfigFlags.branchHwIndex y)
    (h5 : ConfigFlags.misc x = ConfigFlags.misc y) : x = y := by
  apply BitVec.eq_of_getLsbD_eq
  intro i hi
  rw [ConfigFlags.bit_sampleIdAll, ConfigFlags.bit_sampleIdAll] at h3
  rw [ConfigFlags.bit_branchHwIndex, ConfigFlags.bit_branchHwIndex] at h4
  by_cases c1 : i < 6
  · have := congrArg (·.getLsbD i) h2
    simpa only [ConfigFlags.bit_readFormat, c1, decide_true, Bool.and_true] using this
  by_cases c2 : i < 46
  · have := congrArg (·.getLsbD (i - 6)) h1
    simpa only [ConfigFlags.bit_sampleType, show i - 6 < 40 by omega, show 6 + (i - 6) = i by omega, decide_true, Bool.and_true] using this
  by_cases c3 : i = 46
  · rw [c3]; exact h3
  by_cases c4 : i = 47
  · rw [c4]; exact h4
  have := congrArg (·.getLsbD (i - 48)) h5
  simpa only [ConfigFlags.bit_misc, show i - 48 < 16 by omega, show 48 + (i - 48) = i by omega, decide_true, Bool.and_true] using this

/-- **C98** `ParseConfig::from` makes this configuration and no other. -/
theorem c98_config (e : Endian) (host : Order) (a : Attr) (c : ParseConfig) : MadeFrom e host a c ↔ c = .ofAttr e host a := by
  have made : MadeFrom e host a (.ofAttr e host a) := by
    obtain ⟨-, -, h3, h4, h5, h6, h7, h8⟩ := c27_attr e host a
    exact ⟨fun i => (c27_packed e host a i).1, fun i => (c27_packed e host a i).2, h5, h6, h7, h3, h4, h8, rfl⟩
  constructor
  · intro h
    have e1 : c.sampleType = (ParseConfig.ofAttr e host a).sampleType := BitVec.eq_of_getLsbD_eq fun i _ => by rw [h.sampleType, made.sampleType]
    have e2 : c.readFormat = (ParseConfig.ofAttr e host a).readFormat :=
      BitVec.eq_of_getLsbD_eq fun i _ => Bool.eq_iff_iff.2 ((h.readFormat i).trans (made.readFormat i).symm)
    have e3 := h.sampleIdAll.trans made.sampleIdAll.symm
    have e4 := h.branchHwIndex.trans made.branchHwIndex.symm
    have e5 := h.misc.trans made.misc.symm
    have e6 := h.regsUser.trans made.regsUser.symm
    have e7 := h.regsIntr.trans made.regsIntr.symm
    have e8 := h.endian.trans made.endian.symm
    have e9 := h.host.trans made.host.symm
    obtain ⟨⟨fl, ru, ri⟩, en, ho⟩ := c
    have e0 : fl = (ParseConfig.ofAttr e host a).config.configFlags := ConfigFlags.ext e1 e2 e3 e4 e5
    cases e0
    cases e6
    cases e7
    cases e8
    cases e9
    rfl
  · rintro rfl
    exact made

/-- **C98** A recording whose records are in any pieces of memory, read with the configuration made from its attr: exactly these attrs and
records come out of exactly these bytes. -/
theorem c98_recording (hp : RepP p f) (hs : Src f.cfg o) {e : Endian} {host o' : Order} (hw : ∀ c, (ParseConfig.mk c e host).Wf)
    (hs' : ∀ c, Src ⟨c, e, host⟩ o') (ps : List Slice) (h : ∀ s ∈ ps, s.data ≠ []) (x : Attr) (xs : List (Record List × Metadata)) :
    (((P.parseAttr : P β Attr) p).res = .ok x ∧
      (visitMany pairVisitor xs.length (Parser.new (⟨ps⟩ : ChunkBuf) (.ofAttr e host x))).1.map seenAs = xs.map .ok) ↔
    AttrFrom o x f.s.bytes ∧ ∃ cfg, MadeFrom e host x cfg ∧ ∃ rs, StrewnAll o' cfg (ps.map fun s => ⟨.external s.addr, s.data⟩) rs xs := by
  simp only [c98_config, exists_eq_left]
  rw [c98_exact hp hs, c97_pieces (cfg := .ofAttr e host x) ps h (hw _) (hs' _)]

/-- **C98** And one whose records come from a reader. -/
theorem c98_reader (hp : RepP p f) (hs : Src f.cfg o) {e : Endian} {host o' : Order} (hw : ∀ c, (ParseConfig.mk c e host).Wf)
    (hs' : ∀ c, Src ⟨c, e, host⟩ o') (es : List ReadEvent) (x : Attr) (xs : List (Record List × Metadata)) :
    (((P.parseAttr : P β Attr) p).res = .ok x ∧
      (visitMany pairVisitor xs.length (Parser.new (⟨[], es⟩ : BufReader) (.ofAttr e host x))).1.map seenAs = xs.map .ok) ↔
    AttrFrom o x f.s.bytes ∧ ∃ cfg, MadeFrom e host x cfg ∧ ∃ rs, TakenAll o' cfg rs (scriptBytes es) ∧
      xs = rs.map fun y => (y.1.body.valueTaken cfg y.1.misc, y.1.metadata cfg) := by
  simp only [c98_config, exists_eq_left]
  rw [c98_exact hp hs, c95_reader (cfg := .ofAttr e host x) es (hw _) (hs' _)]

/-! ## Concrete cases -/

/-- What a recording of a little endian machine starts with, and the attr as it is read from it. -/
def demoExactAttr : Attr := { fullAttr with sampleType := 1#64 ||| 2#64, flags := 1#64 <<< 18 }

/-- An attr of a version in between and one of a version to come, both with what has to come behind them. -/
example : AttrFrom .little (demoExactAttr.upTo 112) (kattr .little demoExactAttr 112 3 4 ++ [9, 9, 9, 9]) ∧
    AttrFrom .big (demoExactAttr.upTo 140) (kattr .big demoExactAttr 140 0 0 ++ [0, 0, 0, 0, 7]) :=
  ⟨⟨_, 112, 3, 4, _, by decide, by decide, rfl, by decide, by decide, rfl⟩, ⟨_, 140, 0, 0, _, by decide, by decide, rfl, by decide, by decide, rfl⟩⟩

/-- `c98_exact` on the first of them, read from a slice. -/
example : ((P.parseAttr : P Slice Attr) (Parser.new ⟨1, kattr .big demoExactAttr 112 3 4 ++ [9, 9, 9, 9]⟩ demoAttrCfg)).res =
    .ok (demoExactAttr.upTo 112) :=
  (c98_exact (RepP.slice 1 _ demoAttrWf) demoAttrSrc _).2 ⟨_, 112, 3, 4, _, by decide, by decide, rfl, by decide, by decide, rfl⟩

/-- As it comes out of the model: every case of `c98_attr`, and two records read with the attr. The first is a LOST of the thread 7, the second
is of a kind that has no name. -/
theorem c98_example :
    (match demoAttrRun [0, 0, 0, 0, 0, 0, 0] with | .error (.err .eof) => true | _ => false) = true ∧
    (match demoAttrRun (e32 .big 0 ++ e32 .big 65 ++ List.replicate 100 0) with | .error (.err (.custom .invalidRecord _)) => true | _ => false) = true ∧
    (match demoAttrRun (kattr .big demoExactAttr 112 3 4 ++ [9, 9, 9]) with | .error (.err .eof) => true | _ => false) = true ∧
    (match demoAttrRun (kattr .big demoExactAttr 140 3 4 ++ [0, 0, 0, 9]) with | .error (.err (.custom .unsupportedData _)) => true | _ => false) = true ∧
    (match demoAttrRun (kattr .big demoExactAttr 112 3 4 ++ [9, 9, 9, 9]) with
    | .ok a => ((visitMany pairVisitor 2 (Parser.new (⟨[⟨0, [0, 0, 0, 2, 0, 0, 0, 32, 0, 0, 0, 0, 0, 0]⟩,
        ⟨5, [0, 1, 0, 0, 0, 0, 0, 0, 0, 2, 0, 0, 0, 6, 0, 0, 0, 7, 0, 0, 0, 99, 0, 0, 0, 17, 1, 0, 0, 0, 6, 0, 0, 0, 8]⟩]⟩ : ChunkBuf)
          (.ofAttr (.big .little) .little a))).1.map fun x => match seenAs x with
        | .ok (.lost r, m) => (r.id.toNat, r.lost.toNat, m.sampleId.tid.map BitVec.toNat)
        | .ok (.unknown ty data, _) => (ty.toNat, data.length, none)
        | _ => (0, 0, none)) == [(1, 2, some 7), (99, 1, none)]
    | _ => false) = true := by decide +kernel

end Perf
