import Verif.Proof.Plain
import Verif.Props.Relevant
/-!
# C75: `Endian::is_native` affects copying only

`c.plain` is the configuration `c` with an `Endian` that converts in the same way but leaves `is_native` at its default, false.
-/
namespace Perf
variable {β : Type} [ParseBuf β] {O : Type}

/-! ## Which `Endian` names a byte order does not matter -/

/-- **C75** On a host of either kind, `Native`, the type of the host's order and `Dynamic` with that order are the same thing;
`Dynamic` is always the type it stands for. -/
theorem c75_endians (h : Order) :
    (Endian.native .little = Endian.little .little) ∧ (Endian.native .big = Endian.big .big) ∧
    Endian.dynamic .little h = Endian.little h ∧ Endian.dynamic .big h = Endian.big h := by
  refine ⟨?_, ?_, rfl, rfl⟩
  · unfold Endian.native Endian.little
    rw [show (fromLE 16 [0x61, 0x62] == fromOrder .little 16 [0x61, 0x62]) = true by decide]
    rfl
  · unfold Endian.native Endian.big
    rw [show (fromBE 16 [0x61, 0x62] == fromOrder .big 16 [0x61, 0x62]) = true by decide]
    rfl

/-! ## Records without lists -/

/-- **C75** Records without lists, over every buffer: the same value (with the same borrowed parts), error, memory requests and state. -/
theorem c75_no_lists (v : Visitor Cow O) (h : Header) (p : Parser β) (hl : ¬ HasLists h.type_.toNat p.config) :
    TwinRun (P.recordWithHeader v h p) (P.recordWithHeader v h (p.reconfigured p.config.plain)) := c66_native v h p false hl

/-! ## Records with lists -/

section
variable [Lawful β] {p : Parser β} {f : Flat}

theorem RepP.plain (h : RepP p f) : RepP (p.reconfigured p.config.plain) f.plain :=
  ⟨h.rep, h.off, by show p.config.plain = f.cfg.plain; rw [h.cfg], ParseConfig.Wf.plain⟩

theorem metadata_plain (hd : Header) (f : Flat) : match Spec.metadataWithHeader hd f with
    | .error e => Spec.metadataWithHeader hd f.plain = .error e
    | .ok ((r, md), i) => Spec.metadataWithHeader hd f.plain = .ok ((r.plain, md), i.plain) ∧ md.ty = hd.type_ ∧ r.s.fin = .eof ∧
        r.s.bytes.length < usizeLimit := by
  have hsz := hd.size_lt
  have hs : Exact (parseSampleId : Spec SampleId) parseSampleId := by
    unfold parseSampleId
    refine .config fun c => ?_
    refine .ite (.pure _) ?_
    exact .bind (.parseIf _ .u32) fun _ => .bind (.parseIf _ .u32) fun _ => .bind (.parseIf _ .u64) fun _ => .bind (.parseIf _ .u64) fun _ =>
      .bind (.parseIf _ .u64) fun _ => .bind (.parseIf _ .cpu) fun _ => .bind (.parseIf _ .u64) fun _ => .pure _
  have he : SampleId.estimateLen f.plain.cfg = SampleId.estimateLen f.cfg := rfl
  unfold Spec.metadataWithHeader
  rw [he, show f.plain.s = f.s from rfl]
  by_cases h1 : hd.size.toNat < 8
  · simp only [if_pos h1]
  simp only [if_neg h1]
  by_cases h2 : hd.size.toNat - 8 ≤ f.s.bytes.length
  · simp only [if_pos h2]
    by_cases h3 : hd.type_.toNat = 1 ∨ hd.type_.toNat = 9
    · simp only [if_pos h3]
      exact ⟨rfl, rfl, rfl, by simp [Flat.region]; unfold usizeLimit; omega⟩
    · simp only [if_neg h3]
      by_cases h4 : hd.size.toNat - 8 < SampleId.estimateLen f.cfg
      · simp only [if_pos h4]
      · simp only [if_neg h4]
        have h5 := hs ((f.region (hd.size.toNat - 8)).adv (hd.size.toNat - 8 - SampleId.estimateLen f.cfg))
        have h6 : ((f.region (hd.size.toNat - 8)).adv (hd.size.toNat - 8 - SampleId.estimateLen f.cfg)).plain =
          (f.plain.region (hd.size.toNat - 8)).adv (hd.size.toNat - 8 - SampleId.estimateLen f.cfg) := rfl
        rw [h6] at h5
        rcases hr : (parseSampleId : Spec SampleId) ((f.region (hd.size.toNat - 8)).adv (hd.size.toNat - 8 - SampleId.estimateLen f.cfg)) with e | ⟨sid, i⟩ <;>
          rw [hr] at h5
        · simp only [h5]
        · simp only [h5.1]
          exact ⟨rfl, rfl, rfl, by simp [Flat.region]; unfold usizeLimit; omega⟩
  · simp only [if_neg h2]

/-- The outcomes with `is_native` (`x`) and without (`y`). They are the same; or a list claims more than 2^64 bytes and the error is
worded differently; or `x` is `Eof` and `y` is accepted, which happens when an empty list is the last thing in the record (B9). -/
inductive NativeOutcome (v : Visitor Cow O) (x y : Except Fault O) : Prop
  | same : SameOutcome v x y → NativeOutcome v x y
  | overlong : x = .error (.err Perf.overlong) → y = .error (.err .eof) → NativeOutcome v x y
  | empty (a : Record Cow) (md : Metadata) : x = .error (.err .eof) → y = v.apply a md → NativeOutcome v x y

/-- **C75** Records with lists whose header has been read. Full statement: the first alternative of `NativeOutcome`, without `hs`. `hs` is
violated only by lists at a misaligned address, see below. -/
theorem c75_with_header_partial (hp : RepP p f) (v : Visitor Cow O) (h : Header) (hty : h.type_.toNat = 9 ∨ h.type_.toNat = 16)
    (hs : Spec.recordWithHeader h f ≠ .error .stuck) :
    NativeOutcome v (P.recordWithHeader v h p).res (P.recordWithHeader v h (p.reconfigured p.config.plain)).res := by
  obtain ⟨_, _, x⟩ := P.recordWithHeader_run hp v h
  obtain ⟨_, _, y⟩ := P.recordWithHeader_run hp.plain v h
  have hm := metadata_plain h f
  unfold Spec.recordWithHeader at hs
  rcases e1 : Spec.metadataWithHeader h f with e | ⟨⟨r, md⟩, i⟩ <;> rw [e1] at hm x hs
  · rw [hm] at y
    cases e with
    | stuck => exact x.elim
    | err e => exact .same (.inl ⟨e, x, y⟩)
  · obtain ⟨e2, e3, e4, e5⟩ := hm
    rw [e2] at y
    have x := x.1
    have y := y.1
    have hb := Follows.body (ty := md.ty) (by rw [e3]; exact hty) (r.withMisc md.misc) e5
    rw [show (r.withMisc md.misc).plain = r.plain.withMisc md.misc from rfl, show (r.withMisc md.misc).s = r.s from rfl, e4] at hb
    dsimp only at hs
    rcases e6 : (parseBody md.ty : Spec (Record List)) (r.withMisc md.misc) with e | ⟨c, j⟩ <;> rw [e6] at hb x hs
    · cases e with
      | stuck => exact absurd rfl hs
      | err e =>
        rcases hb with hb | ⟨rfl, hb⟩ | ⟨rfl, b, g, hb, -⟩ <;> rw [hb] at y
        · exact .same (.inl ⟨e, x, y⟩)
        · exact .overlong x y
        · obtain ⟨a, -, y⟩ := y
          exact .empty a md x y
    · rw [hb.1] at y
      obtain ⟨a, ha, x⟩ := x
      obtain ⟨b, hb, y⟩ := y
      exact .same (.inr ⟨a, b, md, ha.trans hb.symm, x, y⟩)

/-- Records of any type. -/
theorem SameOutcome.of_eq (hp : RepP p f) (v : Visitor Cow O) (h : Header) {y : Except Fault O} (he : (P.recordWithHeader v h p).res = y) :
    SameOutcome v (P.recordWithHeader v h p).res y := by
  subst he
  obtain ⟨_, _, x⟩ := P.recordWithHeader_run hp v h
  rcases e1 : Spec.metadataWithHeader h f with e | ⟨⟨r, md⟩, i⟩ <;> rw [e1] at x
  · cases e with
    | stuck => exact x.elim
    | err e => exact .inl ⟨e, x, x⟩
  · rcases x.2 with ⟨a, -, h1⟩ | ⟨e, h1, -⟩
    · exact .inr ⟨a, a, md, rfl, h1, h1⟩
    · exact .inl ⟨e, h1, h1⟩

/-- **C75** `parse_record`, every type. Full statement: `SameOutcome` as the conclusion, without `hs`. -/
theorem c75_record_partial (hp : RepP p f) (v : Visitor Cow O)
    (hs : (headerAt f).type_.toNat = 9 ∨ (headerAt f).type_.toNat = 16 → Settled f) :
    NativeOutcome v (P.record v p).res (P.record v (p.reconfigured p.config.plain)).res := by
  rcases Nat.lt_or_ge f.s.bytes.length 8 with hl | hl
  · unfold P.record
    rw [P.bind_err (P.header_short hp hl), P.bind_err (P.header_short hp.plain hl)]
    exact .same (.inl ⟨_, rfl, rfl⟩)
  · obtain ⟨q, h1, h2, h3⟩ := P.header_run hp hl
    have := (SameInts.mk rfl rfl rfl : SameInts p.config p.config.plain).just
    have ht := Twin.header (A := Just p.config p.config.plain) (R := Eq) BufTwin.refl p (p.reconfigured p.config.plain)
      ⟨rfl, rfl, ⟨rfl, rfl⟩, nofun⟩
    have h4 : (parseHeader : P β Header) (p.reconfigured p.config.plain) = ⟨.ok (headerAt f), q.reconfigured q.config.plain, []⟩ := by
      rcases e : (parseHeader : P β Header) (p.reconfigured p.config.plain) with ⟨r, s, l⟩
      rw [h1, e] at ht
      obtain ⟨g1, g2, g3, g4, g5, -⟩ := ht
      have g1 := ExLike.eq g1
      have hq : s = q.reconfigured q.config.plain := by
        have g3 : q.data.buf = s.data.buf := g3
        have g4 : q.data.offset = s.data.offset := g4
        obtain ⟨g5, g6⟩ : q.config = p.config ∧ s.config = p.config.plain := g5
        rcases s with ⟨sc, sb, so⟩
        rcases q with ⟨qc, qb, qo⟩
        dsimp only at g3 g4 g5 g6
        subst g3 g4 g5 g6
        rfl
      rw [hq, ← show Except.ok (headerAt f) = r from g1, ← show ([] : List Nat) = l from g2]
    unfold P.record
    rw [P.bind_nil h1, P.bind_nil h4]
    by_cases hty : (headerAt f).type_.toNat = 9 ∨ (headerAt f).type_.toNat = 16
    · exact c75_with_header_partial h2 v _ hty (hs hty)
    · refine .same (.of_eq h2 v _ (c75_no_lists v _ q ?_).res)
      rintro (h | h)
      · exact hty (.inr h)
      · exact hty (.inl h.1)

/-- **C75** What is accepted with `is_native` is accepted without, and it is the same record. -/
theorem c75_accepted_partial (hp : RepP p f) (hs : (headerAt f).type_.toNat = 9 ∨ (headerAt f).type_.toNat = 16 → Settled f)
    {a : Record Cow} (ha : (P.parseRecord p).res = .ok a) :
    ∃ b, (P.parseRecord (p.reconfigured p.config.plain)).res = .ok b ∧ Record.view a = Record.view b := by
  rcases c75_record_partial hp (recordVisitor Cow) hs with h | h | ⟨_, _, h⟩
  · rcases h.record with ⟨e, h1, -⟩ | ⟨a', b, h1, h2, h3⟩
    · cases h1.symm.trans ha
    · cases h1.symm.trans ha
      exact ⟨b, h2, h3⟩
  · cases h.symm.trans ha
  · cases h.symm.trans ha

/-! ## Where lists are never misaligned -/

/-- The data is in temporary chunks. -/
def InTemp (f : Flat) : Prop := f.s.al = .temp

theorem InTemp.family : AlFamily fun _ => InTemp where
  adv _ f m h := by
    show (f.s.al.add m) = .temp
    rw [h]; rfl
  slice f h _ := by rw [h]; rfl

theorem Settled.temp (h20 : (headerAt f).type_.toNat ≠ 20) (h : InTemp f) : Settled f :=
  .family InTemp.family h20 (fun _ _ => InTemp.family.adv 0 f 8 h) fun _ _ _ _ _ h => h
end

/-- **C75** Data from a reader, however its `read` calls return it: no condition on addresses. -/
theorem c75_reader_partial (es : List ReadEvent) {cfg : ParseConfig} (hw : cfg.Wf) (v : Visitor Cow O) :
    NativeOutcome v (P.record v (Parser.new (⟨[], es⟩ : BufReader) cfg)).res (P.record v (Parser.new (⟨[], es⟩ : BufReader) cfg.plain)).res :=
  c75_record_partial (RepP.reader es hw) v fun h => .temp (by omega) rfl

/-- **C75** A slice at an address that is a multiple of 8, if a sample does not have both a user stack and interrupt registers. -/
theorem c75_slice_partial (a : Nat) (ha : a % 8 = 0) (d : List Byte) {cfg : ParseConfig} (hw : cfg.Wf)
    (hst : ¬ (contains cfg.sampleType SampleFlags.STACK_USER = true ∧ contains cfg.sampleType SampleFlags.REGS_INTR = true)) (v : Visitor Cow O) :
    NativeOutcome v (P.record v (Parser.new (⟨a, d⟩ : Slice) cfg)).res (P.record v (Parser.new (⟨a, d⟩ : Slice) cfg.plain)).res :=
  c75_record_partial (RepP.slice a d hw) v fun h => .aligned (by omega) ha fun _ => hst

/-! ## The exceptions are needed -/

/-- **C75** is false: an empty call chain at the end of a sample (B9), and a call chain at an address that is not a multiple of 8 (B2). -/
theorem c75_false :
    acceptedAt 8 (bodyOf 9 [] 8) (partsCfg 0 (1#64 <<< 5) false false 0 0) = (false, true) ∧
    acceptedAt 4 (bodyOf 9 [1] 15) (partsCfg 0 (1#64 <<< 5) false false 0 0) = (false, true) := by decide +kernel

/-- The error `parse_record` gives. -/
def errorOf (a : Nat) (d : List Byte) (cfg : ParseConfig) : Option ParseError :=
  match (P.parseRecord (Parser.new (⟨a, d⟩ : Slice) cfg)).res with
  | .error (.err e) => some e
  | _ => none

/-- **C75** A call chain that claims 2^61 entries: two different errors. -/
theorem c75_overlong_false :
    errorOf 8 (bodyOf 9 [0, 0, 0, 0, 0, 0, 0, 0x20] 8) (partsCfg 0 (1#64 <<< 5) false false 0 0) = some overlong ∧
    errorOf 8 (bodyOf 9 [0, 0, 0, 0, 0, 0, 0, 0x20] 8) (partsCfg 0 (1#64 <<< 5) false false 0 0).plain = some .eof := by decide +kernel

/-- The call chain of the sample in this slice. -/
def chainOf (a : Nat) (d : List Byte) (cfg : ParseConfig) : Option (Cow U64) :=
  match (P.parseRecord (Parser.new (⟨a, d⟩ : Slice) cfg)).res with
  | .ok (.sample s) => s.callchain
  | _ => none

/-- A call chain of two entries: borrowed with `is_native`, copied without, the same entries. -/
example :
    chainOf 16 (bodyOf 9 [2, 0, 0, 0, 0, 0, 0, 0, 7, 0, 0, 0, 0, 0, 0, 0, 9] 7) (partsCfg 0 (1#64 <<< 5) false false 0 0) = some (.borrowed [7, 9]) ∧
    chainOf 16 (bodyOf 9 [2, 0, 0, 0, 0, 0, 0, 0, 7, 0, 0, 0, 0, 0, 0, 0, 9] 7) (partsCfg 0 (1#64 <<< 5) false false 0 0).plain =
      some (.owned [7, 9]) := by decide +kernel

end Perf
