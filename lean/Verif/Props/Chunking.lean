import Verif.Proof.Align
import Verif.Props.Locality
/-!
# C02: the result does not depend on how the input is chunked

False in general (`c02_align_false`, `c02_poke_false`); here is how far it holds.
-/
namespace Perf
variable {β γ : Type} [ParseBuf β] [Lawful β] [ParseBuf γ] [Lawful γ] {O : Type} {p : Parser β} {q : Parser γ} {f g : Flat}

/-- Both the same error, or the visitor is given records with the same contents (borrowed or not) and the same metadata. -/
def SameOutcome (v : Visitor Cow O) (x y : Except Fault O) : Prop :=
  (∃ e, x = .error (.err e) ∧ y = .error (.err e)) ∨
  ∃ a b md, Record.view a = Record.view b ∧ x = v.apply a md ∧ y = v.apply b md

/-- Both parsers stand at the same bytes, with the same end and the same configuration. -/
structure SameBytes (f g : Flat) : Prop where
  bytes : f.s.bytes = g.s.bytes
  fin : f.s.fin = g.s.fin
  cfg : f.cfg = g.cfg

/-- The record at this place is a function of its bytes alone: its flat parse is not stuck. -/
def Settled (f : Flat) : Prop := Spec.recordWithHeader (headerAt f) (f.adv 8) ≠ .error .stuck

theorem headerAt_same (h : SameBytes f g) : headerAt f = headerAt g := by
  unfold headerAt; rw [h.bytes, h.cfg]

/-- The metadata of a record does not depend on where its bytes live. -/
theorem metadata_same (h : SameBytes f g) (hw : f.cfg.Wf) (hd : Header) :
    (∃ e, Spec.metadataWithHeader hd f = .error (.err e) ∧ Spec.metadataWithHeader hd g = .error (.err e)) ∨
    ∃ r r' md i j len, Spec.metadataWithHeader hd f = .ok ((r, md), i) ∧ Spec.metadataWithHeader hd g = .ok ((r', md), j) ∧
      SameInput r r' ∧ r = f.region len ∧ r' = g.region len ∧ len < usizeLimit ∧ md.ty = hd.type_ ∧ md.misc = hd.misc := by
  have hsz := hd.size_lt
  have hl := congrArg List.length h.bytes
  rcases Spec.metadata_cases hd f with ⟨a1, a2⟩ | ⟨a1, a2, a3⟩ | ⟨a1, a2, a3, a4⟩ | ⟨a1, a2, a3, a4, a5⟩ | ⟨a1, a2, a3, a4, sid, i, a5, a6⟩
  · rcases Spec.metadata_cases hd g with ⟨b1, b2⟩ | ⟨b1, b2⟩ | ⟨b1, b2⟩ | ⟨b1, b2⟩ | ⟨b1, b2⟩
    · exact .inl ⟨_, a2, b2⟩
    all_goals omega
  · rcases Spec.metadata_cases hd g with ⟨b1, b2⟩ | ⟨b1, b2, b3⟩ | ⟨b1, b2, b3⟩ | ⟨b1, b2, b3⟩ | ⟨b1, b2, b3⟩
    · omega
    · exact .inl ⟨_, a3, by rw [b3, h.fin]⟩
    all_goals omega
  · rcases Spec.metadata_cases hd g with ⟨b1, b2⟩ | ⟨b1, b2, b3⟩ | ⟨b1, b2, b3, b4⟩ | ⟨b1, b2, b3, b4⟩ | ⟨b1, b2, b3, b4⟩
    · omega
    · omega
    · exact .inr ⟨_, _, _, _, _, _, a4, b4, ⟨by simp [Flat.region, h.bytes], rfl, rfl, h.cfg⟩, rfl, rfl, by unfold usizeLimit; omega, rfl, rfl⟩
    · exact absurd a3 b3
    · exact absurd a3 b3
  · rcases Spec.metadata_cases hd g with ⟨b1, b2⟩ | ⟨b1, b2, b3⟩ | ⟨b1, b2, b3, b4⟩ | ⟨b1, b2, b3, b4, b5⟩ | ⟨b1, b2, b3, b4, b5⟩
    · omega
    · omega
    · exact absurd b3 a3
    · exact .inl ⟨_, a5, b5⟩
    · rw [h.cfg] at a4; omega
  · rcases Spec.metadata_cases hd g with ⟨b1, b2⟩ | ⟨b1, b2, b3⟩ | ⟨b1, b2, b3, b4⟩ | ⟨b1, b2, b3, b4, b5⟩ | ⟨b1, b2, b3, b4, sid', j, b5, b6⟩
    · omega
    · omega
    · exact absurd b3 a3
    · rw [h.cfg] at a4; omega
    · have hin : SameInput ((f.region (hd.size.toNat - 8)).adv (hd.size.toNat - 8 - SampleId.estimateLen f.cfg))
          ((g.region (hd.size.toNat - 8)).adv (hd.size.toNat - 8 - SampleId.estimateLen f.cfg)) :=
        ⟨by simp [Flat.region, h.bytes], rfl, rfl, h.cfg⟩
      rw [← h.cfg] at b5
      have hsid := Refines.al_indep (fun a c c' h1 h2 => h1.symm.trans h2) (Refines.sampleId (β := Cursor)) hin rfl
        (by simp [Flat.region]; unfold usizeLimit; omega) hw (NoStuck.sampleId _) (NoStuck.sampleId _)
      rw [a5, b5] at hsid
      have hs : sid = sid' := by
        have : (.ok sid : Except SFault SampleId) = .ok sid' := hsid
        cases this; rfl
      subst hs
      rw [← h.cfg] at b6
      exact .inr ⟨_, _, _, _, _, _, a6, b6, ⟨by simp [Flat.region, h.bytes], rfl, rfl, h.cfg⟩, rfl, rfl,
        by unfold usizeLimit; omega, rfl, rfl⟩

/-- The heart of C02. -/
theorem BodyOk.same {v : Visitor Cow O} {md : Metadata} {r r' : Flat} {x y : Except Fault O} (hx : BodyOk v md r x) (hy : BodyOk v md r' y)
    (h : SameInput r r') (hfin : r.s.fin = .eof) (hlen : r.s.bytes.length < usizeLimit) (hw : r.cfg.Wf)
    (h1 : (parseBody md.ty : Spec (Record List)) (r.withMisc md.misc) ≠ .error .stuck)
    (h2 : (parseBody md.ty : Spec (Record List)) (r'.withMisc md.misc) ≠ .error .stuck) : SameOutcome v x y := by
  have ho := Refines.al_indep (fun a c c' h1 h2 => h1.symm.trans h2) (Refines.body (β := Cursor) md.ty)
    (f := r.withMisc md.misc) (f' := r'.withMisc md.misc) ⟨h.bytes, h.fin, h.off, by simp only [Flat.withMisc, h.cfg]⟩ hfin hlen
    (hw.withMisc _) h1 h2
  have hx := hx.1
  have hy := hy.1
  rcases hr : (parseBody md.ty : Spec (Record List)) (r.withMisc md.misc) with e | ⟨c, i⟩ <;>
    rcases hr' : (parseBody md.ty : Spec (Record List)) (r'.withMisc md.misc) with e' | ⟨c', j⟩ <;>
    rw [hr, hr'] at ho
  · have : (.error e : Except SFault (Record List)) = .error e' := ho
    cases this
    rw [hr] at hx h1
    rw [hr'] at hy
    cases e with
    | stuck => exact absurd rfl h1
    | err e => exact .inl ⟨e, hx, hy⟩
  · have : (.error e : Except SFault (Record List)) = .ok c' := ho
    cases this
  · have : (.ok c : Except SFault (Record List)) = .error e' := ho
    cases this
  · have : (.ok c : Except SFault (Record List)) = .ok c' := ho
    cases this
    rw [hr] at hx
    rw [hr'] at hy
    obtain ⟨a, ha, hx⟩ := hx
    obtain ⟨b, hb, hy⟩ := hy
    exact .inr ⟨a, b, md, ha.trans hb.symm, hx, hy⟩

/-- C02 as far as it holds: for every two buffers with the same contents, wherever their data lives and however it is
cut, `parse_record` does the same, unless the outcome depends on the alignment of the data or on the variant of a `Cow`
(`Settled` excludes this; see below when it holds, and `c02_align_false`, `c02_poke_false`). -/
theorem c02_chunking_partial (hp : RepP p f) (hq : RepP q g) (h : SameBytes f g) (hf : Settled f) (hg : Settled g)
    (v : Visitor Cow O) : SameOutcome v (P.record v p).res (P.record v q).res := by
  have hl := congrArg List.length h.bytes
  rcases P.record_run hp v with ⟨a1, a2, _⟩ | ⟨a1, p', a2, _, a3⟩
  · rcases P.record_run hq v with ⟨b1, b2, _⟩ | ⟨b1, q', b2, _, b3⟩
    · exact .inl ⟨_, a2, by rw [b2, h.fin]⟩
    · omega
  · rcases P.record_run hq v with ⟨b1, b2, _⟩ | ⟨b1, q', b2, _, b3⟩
    · omega
    · rw [a3, b3, ← headerAt_same h]
      have h' : SameBytes (f.adv 8) (g.adv 8) := ⟨by simp [h.bytes], h.fin, h.cfg⟩
      obtain ⟨_, _, x⟩ := P.recordWithHeader_run a2 v (headerAt f)
      obtain ⟨_, _, y⟩ := P.recordWithHeader_run b2 v (headerAt f)
      unfold Settled Spec.recordWithHeader at hf hg
      rw [← headerAt_same h] at hg
      rcases metadata_same h' a2.wf (headerAt f) with ⟨e, e1, e2⟩ | ⟨r, r', md, i, j, len, e1, e2, e3, e4, e5, e6, _⟩
      · rw [e1] at x
        rw [e2] at y
        exact .inl ⟨e, x, y⟩
      · rw [e1] at x hf
        rw [e2] at y hg
        refine BodyOk.same x y e3 (by rw [e4]; rfl) ?_ (by rw [e4]; exact a2.wf) ?_ ?_
        · rw [e4]; simp [Flat.region]; omega
        · intro hs; exact hf (by simp only [hs])
        · intro hs; exact hg (by simp only [hs])

/-! ## When records are settled -/

/-- The body of the record at `f`, whatever its length, is not stuck. -/
theorem Settled.of_body (h : ∀ len, (parseBody (headerAt f).type_ : Spec (Record List))
    (((f.adv 8).region len).withMisc (headerAt f).misc) ≠ .error .stuck) : Settled f := by
  unfold Settled Spec.recordWithHeader
  rcases Spec.metadata_cases (headerAt f) (f.adv 8) with ⟨a1, a2⟩ | ⟨a1, a2, a3⟩ | ⟨a1, a2, a3, a4⟩ | ⟨a1, a2, a3, a4, a5⟩ |
    ⟨a1, a2, a3, a4, sid, i, a5, a6⟩
  · rw [a2]; nofun
  · rw [a3]; nofun
  · rw [a4]
    have := h ((headerAt f).size.toNat - 8)
    simp only [Metadata.new]
    rcases hr : (parseBody (headerAt f).type_ : Spec (Record List))
      (((f.adv 8).region ((headerAt f).size.toNat - 8)).withMisc (headerAt f).misc) with e | ⟨c, i⟩
    · rw [hr] at this; simp only; intro he; cases he; exact this rfl
    · simp only; nofun
  · rw [a5]; nofun
  · rw [a6]
    have := h ((headerAt f).size.toNat - 8 - SampleId.estimateLen (f.adv 8).cfg)
    simp only [Metadata.new]
    rcases hr : (parseBody (headerAt f).type_ : Spec (Record List))
      (((f.adv 8).region ((headerAt f).size.toNat - 8 - SampleId.estimateLen (f.adv 8).cfg)).withMisc (headerAt f).misc) with e | ⟨c, i⟩
    · rw [hr] at this; simp only; intro he; cases he; exact this rfl
    · simp only; nofun

/-- Tagging the record of a parse that is not stuck. -/
theorem Spec.tag_run {α ρ : Type} {m : Spec α} {i : Flat} (k : α → ρ) (h : m i ≠ .error .stuck) :
    (m >>= fun a => Pure.pure (k a)) i ≠ .error .stuck := by
  intro he
  rcases hr : m i with e | ⟨c, j⟩
  · rw [hr] at h
    rw [Spec.bind_err hr] at he
    cases he
    exact h rfl
  · rw [Spec.bind_ok hr] at he
    cases he

/-- All types but SAMPLE (9), NAMESPACES (16) and TEXT_POKE (20). -/
theorem Settled.plain (h9 : (headerAt f).type_.toNat ≠ 9) (h16 : (headerAt f).type_.toNat ≠ 16) (h20 : (headerAt f).type_.toNat ≠ 20) :
    Settled f := Settled.of_body fun _ => NoStuck.body h9 h16 h20 _

theorem Settled.family {G : Nat → Flat → Prop} (F : AlFamily G) (h20 : (headerAt f).type_.toNat ≠ 20)
    (hG : ∀ len m, G 0 (((f.adv 8).region len).withMisc m))
    (hst : (headerAt f).type_.toNat = 9 → contains f.cfg.sampleType SampleFlags.STACK_USER = true →
      contains f.cfg.sampleType SampleFlags.REGS_INTR = true → ∀ k i, G k i → G 0 i) : Settled f := by
  by_cases h9 : (headerAt f).type_.toNat = 9
  · refine Settled.of_body fun len => ?_
    have hs := F.sample (hG len (headerAt f).misc) (by
      show contains (f.cfg.withMisc _).sampleType _ = true → contains (f.cfg.withMisc _).sampleType _ = true → _
      rw [ParseConfig.withMisc_sampleType]
      exact hst h9)
    unfold parseBody
    rw [h9]
    exact Spec.tag_run (fun r => (Record.sample r : Record List)) hs
  · by_cases h16 : (headerAt f).type_.toNat = 16
    · refine Settled.of_body fun len => ?_
      have hs := (F.namespaces _ (hG len (headerAt f).misc)).1
      unfold parseBody
      rw [h16]
      exact Spec.tag_run (fun r => (Record.namespaces r : Record List)) hs
    · exact Settled.plain h9 h16 h20

/-- Any type but TEXT_POKE, in a byte order that is not the host's. -/
theorem Settled.foreign (h20 : (headerAt f).type_.toNat ≠ 20) (hn : f.cfg.endian.isNative = false) : Settled f :=
  Settled.family Foreign.family h20 (fun _ _ => hn) fun _ _ _ _ _ h => h

/-- Any type but TEXT_POKE, if borrowed data lies where a record that starts at a multiple of 8 would; for a SAMPLE not both
a user stack and interrupt registers. -/
theorem Settled.aligned (h20 : (headerAt f).type_.toNat ≠ 20) (hal : AlAt 0 f)
    (hst : (headerAt f).type_.toNat = 9 → ¬ (contains f.cfg.sampleType SampleFlags.STACK_USER = true ∧
      contains f.cfg.sampleType SampleFlags.REGS_INTR = true)) : Settled f :=
  Settled.family AlAt.family h20 (fun len m => by have := AlAt.family.adv 0 f 8 hal; exact this)
    fun h9 h1 h2 => absurd ⟨h1, h2⟩ (hst h9)

/-- TEXT_POKE, if `old_len` is neither 0 nor the length of the padded code. -/
theorem Settled.textPoke (h20 : (headerAt f).type_.toNat = 20)
    (hlen : ∀ o n, f.cfg.endian.conv16 ((f.s.bytes.drop 16).take 2) = o → f.cfg.endian.conv16 ((f.s.bytes.drop 18).take 2) = n →
      o.toNat ≠ 0 ∧ (n.toNat ≠ 0 ∨ o.toNat % 8 ≠ 4)) : Settled f := by
  refine Settled.of_body fun len => ?_
  unfold parseBody
  rw [h20]
  have hs : (parseTextPoke : Spec (TextPoke List)) (((f.adv 8).region len).withMisc (headerAt f).misc) ≠ .error .stuck := by
    unfold parseTextPoke
    have hread : ∀ (i : Flat) (k : Nat), ((ParserM.bytes k : Spec (List Byte)) i = .ok (i.s.bytes.take k, i.adv k) ∧ k ≤ i.s.bytes.length) ∨
        ∃ e, (ParserM.bytes k : Spec (List Byte)) i = .error (.err e) := by
      intro i k
      show (Spec.bytes k i = _ ∧ _) ∨ ∃ e, Spec.bytes k i = _
      unfold Spec.bytes Spec.take
      split
      · exact .inr ⟨_, rfl⟩
      · split
        · exact .inl ⟨rfl, by assumption⟩
        · exact .inr ⟨_, rfl⟩
    have h64 : ∀ (i : Flat), (∃ a, (parseU64 : Spec U64) i = .ok (a, i.adv 8) ∧ 8 ≤ i.s.bytes.length) ∨
        ∃ e, (parseU64 : Spec U64) i = .error (.err e) := by
      intro i
      rcases hread i 8 with ⟨h, hl⟩ | ⟨e, h⟩
      · exact .inl ⟨_, Spec.bind_ok (k := _) h, hl⟩
      · exact .inr ⟨e, Spec.bind_err (k := _) h⟩
    have h16 : ∀ (i : Flat), ((parseU16 : Spec U16) i = .ok (i.cfg.endian.conv16 (i.s.bytes.take 2), i.adv 2) ∧ 2 ≤ i.s.bytes.length) ∨
        ∃ e, (parseU16 : Spec U16) i = .error (.err e) := by
      intro i
      rcases hread i 2 with ⟨h, hl⟩ | ⟨e, h⟩
      · exact .inl ⟨Spec.bind_ok (k := _) h, hl⟩
      · exact .inr ⟨e, Spec.bind_err (k := _) h⟩
    generalize hr : ((f.adv 8).region len).withMisc (headerAt f).misc = r
    have hrb : r.s.bytes = (f.s.bytes.drop 8).take len := by rw [← hr]; rfl
    have hrc : r.cfg.endian = f.cfg.endian := by rw [← hr]; rfl
    rcases h64 r with ⟨addr, a1, l1⟩ | ⟨e, a1⟩
    · rw [Spec.bind_ok a1]
      rcases h16 (r.adv 8) with ⟨a2, l2⟩ | ⟨e, a2⟩
      · rw [Spec.bind_ok a2]
        rcases h16 ((r.adv 8).adv 2) with ⟨a3, l3⟩ | ⟨e, a3⟩
        · rw [Spec.bind_ok a3]
          simp only [Flat.adv_bytes, List.length_drop] at l2 l3
          rw [hrb] at l1 l2 l3
          simp only [List.length_take, List.length_drop] at l1 l2 l3
          have eo : (r.adv 8).s.bytes.take 2 = (f.s.bytes.drop 16).take 2 := by
            rw [Flat.adv_bytes, hrb, List.drop_take, List.take_take, List.drop_drop, Nat.min_eq_left (by omega)]
          have en : ((r.adv 8).adv 2).s.bytes.take 2 = (f.s.bytes.drop 18).take 2 := by
            rw [Flat.adv_adv, Flat.adv_bytes, hrb, List.drop_take, List.take_take, List.drop_drop, Nat.min_eq_left (by omega)]
          obtain ⟨ho, hn⟩ := hlen _ _ rfl rfl
          rw [eo, en]
          rw [show (r.adv 8).cfg.endian = f.cfg.endian from hrc, show ((r.adv 8).adv 2).cfg.endian = f.cfg.endian from hrc]
          generalize f.cfg.endian.conv16 ((f.s.bytes.drop 16).take 2) = o at *
          generalize f.cfg.endian.conv16 ((f.s.bytes.drop 18).take 2) = n at *
          rcases hread (((r.adv 8).adv 2).adv 2) (roundUpMod (o.toNat + n.toNat) 4 8) with ⟨a4, l4⟩ | ⟨e, a4⟩
          · rw [Spec.bind_ok a4]
            generalize hd : ((r.adv 8).adv 2).adv 2 = i at *
            have hdl : (i.s.bytes.take (roundUpMod (o.toNat + n.toNat) 4 8)).length = roundUpMod (o.toNat + n.toNat) 4 8 := by
              rw [List.length_take]; omega
            generalize i.s.bytes.take (roundUpMod (o.toNat + n.toNat) 4 8) = data at *
            have hsplit : (ParserM.cowSplitAt data o.toNat : Spec (List Byte × List Byte)) = Pure.pure (data.take o.toNat, data.drop o.toNat) := by
              show Spec.splitAt data o.toNat = _
              unfold Spec.splitAt
              rw [if_neg]
              rintro (⟨_, h0 | h0⟩ | h0)
              · exact ho h0
              · rw [hdl] at h0
                unfold roundUpMod at h0
                split at h0 <;> rcases hn with hn | hn <;> omega
              · rw [hdl] at h0
                have := roundUpMod_ge (o.toNat + n.toNat) 4 8
                omega
            rw [hsplit]
            exact (NoStuck.bind (NoStuck.pure _) fun _ => NoStuck.pure _) _
          · rw [Spec.bind_err a4]; nofun
        · rw [Spec.bind_err a3]; nofun
      · rw [Spec.bind_err a2]; nofun
    · rw [Spec.bind_err a1]; nofun
  exact Spec.tag_run (fun r => (Record.textPoke r : Record List)) hs

/-! ## C02, instances -/

/-- **C02** for all types but SAMPLE, NAMESPACES and TEXT_POKE: no further condition. -/
theorem c02_plain_partial (hp : RepP p f) (hq : RepP q g) (h : SameBytes f g) (h9 : (headerAt f).type_.toNat ≠ 9)
    (h16 : (headerAt f).type_.toNat ≠ 16) (h20 : (headerAt f).type_.toNat ≠ 20) (v : Visitor Cow O) :
    SameOutcome v (P.record v p).res (P.record v q).res := by
  have e := headerAt_same h
  exact c02_chunking_partial hp hq h (.plain h9 h16 h20) (.plain (by rwa [← e]) (by rwa [← e]) (by rwa [← e])) v

/-- **C02** for all types but TEXT_POKE when the data is of the other byte order. -/
theorem c02_foreign_partial (hp : RepP p f) (hq : RepP q g) (h : SameBytes f g) (h20 : (headerAt f).type_.toNat ≠ 20)
    (hn : f.cfg.endian.isNative = false) (v : Visitor Cow O) : SameOutcome v (P.record v p).res (P.record v q).res := by
  have e := headerAt_same h
  exact c02_chunking_partial hp hq h (.foreign h20 hn) (.foreign (by rwa [← e]) (by rwa [← h.cfg])) v

/-- **C02** for all types but TEXT_POKE when whatever is borrowed lies at addresses congruent, modulo 8, to its position in
the record (or is temporary), unless a sample has both a user stack (whose length need not be a multiple of 8) and
interrupt registers behind it. -/
theorem c02_aligned_partial (hp : RepP p f) (hq : RepP q g) (h : SameBytes f g) (h20 : (headerAt f).type_.toNat ≠ 20)
    (hf : AlAt 0 f) (hg : AlAt 0 g)
    (hst : (headerAt f).type_.toNat = 9 → ¬ (contains f.cfg.sampleType SampleFlags.STACK_USER = true ∧
      contains f.cfg.sampleType SampleFlags.REGS_INTR = true)) (v : Visitor Cow O) :
    SameOutcome v (P.record v p).res (P.record v q).res := by
  have e := headerAt_same h
  exact c02_chunking_partial hp hq h (.aligned h20 hf hst) (.aligned (by rwa [← e]) hg (by rwa [← e, ← h.cfg])) v

/-- **C02** for TEXT_POKE when some old code is recorded and it is not all of the padded code. -/
theorem c02_text_poke_partial (hp : RepP p f) (hq : RepP q g) (h : SameBytes f g) (h20 : (headerAt f).type_.toNat = 20)
    (hlen : ∀ o n, f.cfg.endian.conv16 ((f.s.bytes.drop 16).take 2) = o → f.cfg.endian.conv16 ((f.s.bytes.drop 18).take 2) = n →
      o.toNat ≠ 0 ∧ (n.toNat ≠ 0 ∨ o.toNat % 8 ≠ 4)) (v : Visitor Cow O) :
    SameOutcome v (P.record v p).res (P.record v q).res := by
  have e := headerAt_same h
  exact c02_chunking_partial hp hq h (.textPoke h20 hlen) (.textPoke (by rwa [← e]) (by rwa [← h.cfg, ← h.bytes])) v

theorem recordVisitor_view (a : Record Cow) (md : Metadata) : ∃ a', (recordVisitor Cow).apply a md = .ok a' ∧
    Record.view a' = match Record.view a with
      | .unknown _ d => .unknown md.ty d
      | r => r := by
  cases a <;> exact ⟨_, rfl, rfl⟩

/-- The same for `Parse for Record`: the same error, or records that differ at most in what is borrowed. -/
theorem SameOutcome.record {x y : Except Fault (Record Cow)} (h : SameOutcome (recordVisitor Cow) x y) :
    (∃ e, x = .error (.err e) ∧ y = .error (.err e)) ∨ ∃ a b, x = .ok a ∧ y = .ok b ∧ Record.view a = Record.view b := by
  rcases h with h | ⟨a, b, md, hv, rfl, rfl⟩
  · exact .inl h
  · obtain ⟨a', h1, h2⟩ := recordVisitor_view a md
    obtain ⟨b', h3, h4⟩ := recordVisitor_view b md
    exact .inr ⟨a', b', h1, h3, by rw [h2, h4, hv]⟩

/-- **C02** spelled out for a slice at any address, a reader that returns its contents in any portions, and any nonempty
pieces at any addresses. -/
theorem c02_buffers_partial (data : List Byte) (addr : Nat) (es : List ReadEvent) (he : scriptBytes es = data) (hfin : scriptFin es = .eof)
    (ps : List Slice) (hps : ∀ s ∈ ps, s.data ≠ []) (hpd : piecesData ps = data) {cfg : ParseConfig} (hw : cfg.Wf)
    (hty : (cfg.endian.conv32 (data.take 4)).toNat ∉ [9, 16, 20]) :
    let x := (P.parseRecord (Parser.new (⟨addr, data⟩ : Slice) cfg)).res
    let y := (P.parseRecord (Parser.new (⟨[], es⟩ : BufReader) cfg)).res
    let z := (P.parseRecord (Parser.new (⟨ps⟩ : ChunkBuf) cfg)).res
    (∃ e, x = .error (.err e) ∧ y = .error (.err e) ∧ z = .error (.err e)) ∨
    ∃ a b c, x = .ok a ∧ y = .ok b ∧ z = .ok c ∧ Record.view a = Record.view b ∧ Record.view a = Record.view c := by
  intro x y z
  have h9 : cfg.endian.conv32 (data.take 4) = (headerAt ⟨⟨data, .at addr, .eof⟩, 0, cfg⟩).type_ := rfl
  rw [h9] at hty
  simp only [List.mem_cons, List.not_mem_nil, or_false, not_or] at hty
  obtain ⟨t1, t2, t3⟩ := hty
  have hy := (c02_plain_partial (RepP.slice addr data hw) (RepP.reader es hw) ⟨he.symm, hfin.symm, rfl⟩ t1 t2 t3 (recordVisitor Cow)).record
  have hz := (c02_plain_partial (RepP.slice addr data hw) (RepP.pieces ps hps hw) ⟨hpd.symm, rfl, rfl⟩ t1 t2 t3 (recordVisitor Cow)).record
  rcases hy with ⟨e, h1, h2⟩ | ⟨a, b, h1, h2, h3⟩
  · rcases hz with ⟨e', h4, h5⟩ | ⟨a, b, h4, h5, h6⟩
    · have : (.error (.err e) : Except Fault (Record Cow)) = .error (.err e') := h1.symm.trans h4
      cases this
      exact .inl ⟨e, h1, h2, h5⟩
    · have : (.error (.err e) : Except Fault (Record Cow)) = .ok a := h1.symm.trans h4
      cases this
  · rcases hz with ⟨e', h4, h5⟩ | ⟨a', c, h4, h5, h6⟩
    · have : (.ok a : Except Fault (Record Cow)) = .error (.err e') := h1.symm.trans h4
      cases this
    · have : (.ok a : Except Fault (Record Cow)) = .ok a' := h1.symm.trans h4
      cases this
      exact .inr ⟨a, b, c, h1, h2, h5, h3, h6⟩

/-- A COMM record in one slice, through a reader in three portions, and in two pieces: borrowed in the first case, owned in
the others. -/
example :
    let bs : List Byte := [3, 0, 0, 0, 0, 0, 24, 0, 1, 0, 0, 0, 2, 0, 0, 0, 0x61, 0x62, 0x63, 0, 0, 0, 0, 0]
    (match (P.parseRecord (Parser.new (⟨8, bs⟩ : Slice) demoCfg)).res,
      (P.parseRecord (Parser.new (⟨[], [.data (bs.take 3), .data ((bs.drop 3).take 15), .data (bs.drop 18)]⟩ : BufReader) demoCfg)).res,
      (P.parseRecord (Parser.new (⟨[⟨8, bs.take 18⟩, ⟨77, bs.drop 18⟩]⟩ : ChunkBuf) demoCfg)).res with
    | .ok (.comm a), .ok (.comm b), .ok (.comm c) => a.comm == .borrowed [0x61, 0x62, 0x63] && b.comm == .owned [0x61, 0x62, 0x63] &&
        c.comm == .owned [0x61, 0x62, 0x63] && a.pid == 1 && c.tid == 2
    | _, _, _ => false) = true := by decide +kernel

/-! ## C02 is false -/

/-- A native sample with a call chain of one entry, in a slice at an address that is not a multiple of 8: the entry is lost. -/
theorem c02_align_false :
    let bs : List Byte := [9, 0, 0, 0, 0, 0, 24, 0, 1, 0, 0, 0, 0, 0, 0, 0, 7, 0, 0, 0, 0, 0, 0, 0]
    (match (P.parseRecord (Parser.new (⟨8, bs⟩ : Slice) (demoEmptyCfg SampleFlags.CALLCHAIN))).res,
      (P.parseRecord (Parser.new (⟨9, bs⟩ : Slice) (demoEmptyCfg SampleFlags.CALLCHAIN))).res with
    | .ok (.sample s), .error (.err e) => s.callchain.map Cow.data == some [7] && e.kind == .eof
    | _, _ => false) = true := by decide +kernel

/-- A TEXT_POKE record of 4 new bytes and no old ones, in one slice and through a reader. -/
theorem c02_poke_false :
    let bs : List Byte := [20, 0, 0, 0, 0, 0, 24, 0, 1, 0, 0, 0, 0, 0, 0, 0, 0, 0, 4, 0, 0xa, 0xb, 0xc, 0xd]
    (match (P.parseRecord (Parser.new (⟨8, bs⟩ : Slice) demoCfg)).res,
      (P.parseRecord (Parser.new (⟨[], [.data bs]⟩ : BufReader) demoCfg)).res with
    | .ok (.textPoke a), .ok (.textPoke b) => a.oldBytes.data == [] && a.newBytes.data == [0xa, 0xb, 0xc, 0xd] &&
        b.oldBytes.data == [0xa, 0xb, 0xc, 0xd] && b.newBytes.data == []
    | _, _ => false) = true := by decide +kernel

end Perf
