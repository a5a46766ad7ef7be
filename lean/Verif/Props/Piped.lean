import Verif.Proof.Piped
import Verif.Props.Loop
import Verif.Props.Locality
/-!
# C86: through a reader only the bytes count

What comes through a reader is a function of the bytes alone, in every case: the portions they arrive in decide nothing, not even
where C02 leaves something open.
-/
namespace Perf

namespace Pours
variable {β : Type} [ParseBuf β] [Lawful β] {O : Type}

theorem recordWithHeader (v : Visitor Cow O) (hd : Header) :
    Pours (P.recordWithHeader v hd : P β O) (Piped.recordWithHeader v hd) := by
  intro p f hp
  obtain ⟨h1, -, h3⟩ := P.metadataWithHeader_run hp.rep hd
  have hfast := c03_fast_path v hd p
  unfold Piped.recordWithHeader
  rcases hs : Spec.metadataWithHeader hd f with e | ⟨⟨r, md⟩, f'⟩
  · rw [hs] at h3
    cases e with
    | stuck => exact h3.elim
    | err e =>
      show (P.recordWithHeader v hd p).res = _
      unfold P.recordWithHeader
      rw [P.bind_err (P.run_eq _ h3)]
  · rw [hs] at h3
    obtain ⟨c, hc, hreg⟩ := h3
    dsimp only
    obtain ⟨a1, a2, rfl, n, rfl⟩ := Meets.metadata_region hs
    have hst : Fed (P.recordWithHeader v hd p).st (f.adv (hd.size.toNat - 8)) := by
      rw [hfast.2]
      unfold P.recordWithHeaderGeneral
      rw [P.bind_ok (P.run_eq _ hc)]
      show Fed (P.recordImpl c v md _).st _
      rw [P.recordImpl_st]
      exact hp.adv (h1 a1 a2).1
    have hat : Fed (β := Tracking Cursor) (Parser.new c.data (c.config.withMisc md.misc)) ((f.region n).withMisc md.misc) :=
      ⟨hreg.rep.withMisc rfl md.misc, hp.al⟩
    have hbody := body md.ty _ _ hat
    have hres : (P.recordWithHeader v hd p).res =
        (P.dispatch v md (Parser.new c.data (c.config.withMisc md.misc))).res := by
      rw [hfast.1]
      unfold P.recordWithHeaderGeneral
      rw [P.bind_ok (P.run_eq _ hc)]
      show (P.recordImpl c v md _).res = _
      unfold P.recordImpl
      rcases hdd : P.dispatch v md (Parser.new c.data (c.config.withMisc md.misc)) with ⟨res, q', l⟩
      cases res with
      | error e => rw [P.bind_err (P.onChild_err hdd _)]
      | ok a => rw [P.bind_ok (P.onChild_ok hdd _)]; rfl
    rw [P.dispatch_eq] at hres
    rcases hb : (parseBody md.ty : Piped (Record Cow)) ((f.region n).withMisc md.misc) with e | ⟨a, g⟩ <;> rw [hb] at hbody
    · rw [P.bind_err (P.run_eq _ hbody)] at hres
      exact hres
    · rw [P.bind_ok (P.run_eq _ hbody.1)] at hres
      have hres' : (P.recordWithHeader v hd p).res = v.apply a md := hres
      dsimp only
      rcases ha : v.apply a md with e | o
      · exact hres'.trans ha
      · exact ⟨hres'.trans ha, hst⟩

theorem record (v : Visitor Cow O) : Pours (P.record v : P β O) (Piped.record v) :=
  bind header fun hd => recordWithHeader v hd

theorem result {α : Type} {m : P β α} {s : Piped α} (h : Pours m s) {p : Parser β} {f : Flat} (hp : Fed p f) :
    (m p).res = s.result f := by
  have h1 := h p f hp
  unfold Piped.result
  rcases hs : s f with e | ⟨a, f'⟩ <;> rw [hs] at h1
  · exact h1
  · exact h1.1

end Pours

/-! ## Readers that end for good -/

/-- The reader delivers data and then, for good, nothing; or it fails with an error that is not `UnexpectedEof`. -/
def Settles : List ReadEvent → Prop
  | [] => True
  | .data [] :: es => ∀ e ∈ es, e = .data []
  | .data (_ :: _) :: es => Settles es
  | .error e :: _ => e.unexpectedEof = false

/-- What the reader stands for, and that it settles. -/
def BufReader.RepSettled (b : BufReader) (s : Stream) : Prop := BufReader.Rep b s ∧ Settles b.script

/-- Such a reader keeps reporting its end. Not an instance, since not all readers are like this. -/
@[reducible] def BufReader.settled : LawfulEof BufReader where
  Rep := BufReader.RepSettled
  chunk_law := by
    rintro ⟨buf, script⟩ s ⟨⟨rest, hs, hb⟩, hset⟩
    dsimp only at hs hb hset
    cases buf with
    | cons b bs =>
      simp only [ParseBuf.chunk, BufReader.fillBuf, ChunkLaw]
      refine ⟨by simp, ⟨rest, hb.symm⟩, Al.allows_temporary _, ⟨⟨rest, hs, hb⟩, hset⟩, Nat.le_refl _, trivial, fun k hk => ?_⟩
      obtain ⟨b'', h1, h2, h3⟩ := BufReader.advance_law hs hb hk
      exact ⟨b'', h1, ⟨h2, by cases h1; exact hset⟩, h3⟩
    | nil =>
      obtain ⟨bytes, al, fin⟩ := s
      dsimp only at hs hb
      cases hs with
      | done =>
        simp only [ParseBuf.chunk, BufReader.fillBuf, ChunkLaw]
        exact ⟨hb, trivial⟩
      | eof es =>
        simp only [ParseBuf.chunk, BufReader.fillBuf, ChunkLaw]
        exact ⟨hb, trivial⟩
      | error e es =>
        simp only [ParseBuf.chunk, BufReader.fillBuf, ChunkLaw]
        exact ⟨hb, trivial⟩
      | data bs es rest fin hne h =>
        cases bs with
        | nil => exact absurd rfl hne
        | cons b bs =>
          simp only [ParseBuf.chunk, BufReader.fillBuf, ChunkLaw]
          refine ⟨by simp, ⟨rest, by simpa using hb.symm⟩, Al.allows_temporary _, ⟨⟨rest, h, by simpa using hb⟩, hset⟩, ?_, rfl,
            fun k hk => ?_⟩
          · simp [ParseBuf.steps, ReadEvent.bytes]
          · obtain ⟨b'', h1, h2, h3⟩ := BufReader.advance_law (s := ⟨bytes, al, fin⟩) h (by simpa using hb) hk
            exact ⟨b'', h1, ⟨h2, by cases h1; exact hset⟩, h3⟩
  eof_law := by
    rintro ⟨buf, script⟩ ⟨bytes, al, fin⟩ ⟨⟨rest, hs, hb⟩, hset⟩ he hk
    dsimp only at hs hb hset he hk
    subst he
    obtain ⟨rfl, hr⟩ : buf = [] ∧ rest = [] := by simpa using hb
    refine ⟨?_, rfl⟩
    cases hs with
    | data bs es rest fin hne h => exact absurd (List.append_eq_nil_iff.mp hr).1 hne
    | done => exact ⟨⟨[], .done, rfl⟩, trivial⟩
    | eof es =>
      cases es with
      | nil => exact ⟨⟨[], .done, rfl⟩, trivial⟩
      | cons e es =>
        obtain rfl := hset e (List.mem_cons_self ..)
        exact ⟨⟨[], .eof es, rfl⟩, fun e he => hset e (List.mem_cons_of_mem _ he)⟩
    | error e es =>
      have : e.unexpectedEof = false := hset
      unfold ParseError.ofIo at hk
      rw [this] at hk
      cases hk

section
variable {cfg : ParseConfig} {O : Type}

theorem Fed.reader (es : List ReadEvent) (hw : cfg.Wf) :
    Fed (Parser.new (⟨[], es⟩ : BufReader) cfg) (.through (scriptBytes es) (scriptFin es) cfg) := ⟨RepP.reader es hw, rfl⟩

theorem RepP.settled {es : List ReadEvent} (h : Settles es) (hw : cfg.Wf) :
    @RepP BufReader _ BufReader.settled.toLawful (Parser.new (⟨[], es⟩ : BufReader) cfg) (.through (scriptBytes es) (scriptFin es) cfg) :=
  @RepP.mk BufReader _ BufReader.settled.toLawful _ _ ⟨⟨scriptBytes es, BufReader.script_spec es, rfl⟩, h⟩ rfl rfl hw

/-! ## The theorems -/

/-- **C86** Over every lawful buffer that hands out temporary chunks only: `parse_record` returns what the parser over the mere bytes
returns, whatever the visitor, copies included, and stands behind the record after a success. -/
theorem c86_temporary {β : Type} [ParseBuf β] [Lawful β] {p : Parser β} {f : Flat} (hp : RepP p f) (ht : f.s.al = .temp) (v : Visitor Cow O) :
    (P.record v p).res = (Piped.record v).result f ∧
    ∀ o f', Piped.record v f = .ok (o, f') → RepP (P.record v p).st f' := by
  refine ⟨(Pours.record v).result ⟨hp, ht⟩, fun o f' h => ?_⟩
  have h1 := Pours.record v p f ⟨hp, ht⟩
  rw [h] at h1
  exact h1.2.rep

/-- **C86** What comes through a reader is a function of its bytes and of the error behind them. -/
theorem c86_reader (es : List ReadEvent) (hw : cfg.Wf) (v : Visitor Cow O) :
    (P.record v (Parser.new (⟨[], es⟩ : BufReader) cfg)).res = (Piped.record v).result (.through (scriptBytes es) (scriptFin es) cfg) :=
  (c86_temporary (RepP.reader es hw) rfl v).1

/-- **C86** The portions never matter: two readers that deliver the same bytes, in whatever portions, with the same error behind them
give equal results, for every record, well formed or not, and every visitor. -/
theorem c86_portions (es fs : List ReadEvent) (hb : scriptBytes es = scriptBytes fs) (he : scriptFin es = scriptFin fs) (hw : cfg.Wf)
    (v : Visitor Cow O) :
    (P.record v (Parser.new (⟨[], es⟩ : BufReader) cfg)).res = (P.record v (Parser.new (⟨[], fs⟩ : BufReader) cfg)).res := by
  rw [c86_reader es hw, c86_reader fs hw, hb, he]

/-! ## Loops -/

theorem Piped.array_run {n : Nat} {f : Flat} (hn : n ≤ f.s.bytes.length) (h0 : 0 < n) :
    Piped.array n f = .ok (f.s.bytes.take n, f.adv n) := by
  unfold Piped.array Piped.take
  rw [if_neg (by rintro e; rw [e] at hn; exact absurd hn (Nat.not_le_of_lt h0)), if_pos hn]

theorem Piped.array_short {n : Nat} {f : Flat} (hn : f.s.bytes.length < n) : Piped.array n f = .error (.err f.s.fin) := by
  unfold Piped.array Piped.take
  split
  · rfl
  · rw [if_neg (by omega)]

theorem Piped.bind_run {α γ : Type} {m : Piped α} {k : α → Piped γ} {f f' : Flat} {a : α} (h : m f = .ok (a, f')) :
    (m >>= k) f = k a f' := by
  show Piped.bind m k f = _
  unfold Piped.bind
  rw [h]

theorem Piped.bind_stop {α γ : Type} {m : Piped α} {k : α → Piped γ} {f : Flat} {e : Fault} (h : m f = .error e) :
    (m >>= k) f = .error e := by
  show Piped.bind m k f = _
  unfold Piped.bind
  rw [h]

theorem Piped.u32_run {f : Flat} (h : 4 ≤ f.s.bytes.length) :
    (parseU32 : Piped U32) f = .ok (f.cfg.endian.conv32 (f.s.bytes.take 4), f.adv 4) :=
  Piped.bind_run (Piped.array_run h (by decide))

theorem Piped.u16_run {f : Flat} (h : 2 ≤ f.s.bytes.length) :
    (parseU16 : Piped U16) f = .ok (f.cfg.endian.conv16 (f.s.bytes.take 2), f.adv 2) :=
  Piped.bind_run (Piped.array_run h (by decide))

theorem Piped.header_run {f : Flat} (h : 8 ≤ f.s.bytes.length) : (parseHeader : Piped Header) f = .ok (headerAt f, f.adv 8) := by
  unfold parseHeader
  rw [Piped.bind_run (Piped.u32_run (by omega)), Piped.bind_run (Piped.u16_run (by rw [Flat.adv_bytes, List.length_drop]; omega)),
    Piped.bind_run (Piped.u16_run (by rw [Flat.adv_adv, Flat.adv_bytes, List.length_drop]; omega)), Flat.adv_adv, Flat.adv_adv]
  rfl

theorem Piped.header_short {f : Flat} (h : f.s.bytes.length < 8) : (parseHeader : Piped Header) f = .error (.err f.s.fin) := by
  unfold parseHeader
  rcases Nat.lt_or_ge f.s.bytes.length 4 with h4 | h4
  · exact Piped.bind_stop (Piped.bind_stop (Piped.array_short h4))
  rw [Piped.bind_run (Piped.u32_run h4)]
  rcases Nat.lt_or_ge f.s.bytes.length 6 with h6 | h6
  · exact Piped.bind_stop (Piped.bind_stop (Piped.array_short (by rw [Flat.adv_bytes, List.length_drop]; omega)))
  rw [Piped.bind_run (Piped.u16_run (by rw [Flat.adv_bytes, List.length_drop]; omega))]
  exact Piped.bind_stop (Piped.bind_stop (Piped.array_short (by rw [Flat.adv_adv, Flat.adv_bytes, List.length_drop]; omega)))

/-- What is parsed behind the header depends on as many bytes as the header says, if they are there. -/
theorem Piped.recordWithHeader_congr (v : Visitor Cow O) (hd : Header) {f g : Flat} (hc : f.cfg = g.cfg) (ha : f.s.al = g.s.al)
    (h : (hd.size.toNat - 8 ≤ f.s.bytes.length ∧ hd.size.toNat - 8 ≤ g.s.bytes.length ∧
        f.s.bytes.take (hd.size.toNat - 8) = g.s.bytes.take (hd.size.toNat - 8)) ∨
      (f.s.bytes.length < hd.size.toNat - 8 ∧ g.s.bytes.length < hd.size.toNat - 8 ∧ f.s.fin = g.s.fin)) :
    (Piped.recordWithHeader v hd).result f = (Piped.recordWithHeader v hd).result g := by
  have hm : (match Spec.metadataWithHeader hd f with
      | .error e => .error e
      | .ok (x, _) => .ok x : Except SFault (Flat × Metadata)) = (match Spec.metadataWithHeader hd g with
      | .error e => .error e
      | .ok (x, _) => .ok x : Except SFault (Flat × Metadata)) := by
    unfold Spec.metadataWithHeader
    by_cases h8 : hd.size.toNat < 8
    · simp only [if_pos h8]
    · simp only [if_neg h8]
      rcases h with ⟨h1, h2, h3⟩ | ⟨h1, h2, h3⟩
      · have hr : ∀ n ≤ hd.size.toNat - 8, f.region n = g.region n := by
          intro n hn
          have := congrArg (List.take n) h3
          rw [List.take_take, List.take_take, Nat.min_eq_left hn] at this
          unfold Flat.region
          rw [this, ha, hc]
        simp only [if_pos h1, if_pos h2, hr _ (Nat.le_refl _), hr (hd.size.toNat - 8 - SampleId.estimateLen g.cfg) (by omega), hc]
        by_cases ht : hd.type_.toNat = 1 ∨ hd.type_.toNat = 9
        · simp only [if_pos ht]
        · simp only [if_neg ht]
          by_cases hl : hd.size.toNat - 8 < SampleId.estimateLen g.cfg
          · simp only [if_pos hl]
          · simp only [if_neg hl]
            rcases (parseSampleId : Spec SampleId) ((g.region (hd.size.toNat - 8)).adv (hd.size.toNat - 8 - SampleId.estimateLen g.cfg)) with e | ⟨a, b⟩ <;> rfl
      · rw [if_neg (by omega), if_neg (by omega), h3]
  unfold Piped.result Piped.recordWithHeader
  rcases hf : Spec.metadataWithHeader hd f with e | ⟨⟨r, md⟩, f'⟩ <;> rcases hg : Spec.metadataWithHeader hd g with e' | ⟨⟨r', md'⟩, g'⟩ <;>
    rw [hf, hg] at hm
  · cases hm; rfl
  · cases hm
  · cases hm
  · cases hm
    dsimp only
    rcases (parseBody md.ty : Piped (Record Cow)) (r.withMisc md.misc) with e | ⟨a, _⟩
    · rfl
    · dsimp only
      rcases v.apply a md with e | o <;> rfl

theorem Piped.record_run (v : Visitor Cow O) {f : Flat} (h : 8 ≤ f.s.bytes.length) :
    (Piped.record v).result f = (Piped.recordWithHeader v (headerAt f)).result (f.adv 8) := by
  unfold Piped.result Piped.record
  rw [Piped.bind_run (Piped.header_run h)]

theorem Piped.record_short (v : Visitor Cow O) {f : Flat} (h : f.s.bytes.length < 8) :
    (Piped.record v).result f = .error (.err f.s.fin) := by
  unfold Piped.result Piped.record
  rw [Piped.bind_stop (Piped.header_short h)]
  rfl

/-- Where the bytes are in the input makes no difference. -/
theorem Piped.record_congr (v : Visitor Cow O) {f g : Flat} (h : SameBytes f g) (hf : f.s.al = .temp) (hg : g.s.al = .temp) :
    (Piped.record v).result f = (Piped.record v).result g := by
  rcases Nat.lt_or_ge f.s.bytes.length 8 with h8 | h8
  · rw [Piped.record_short v h8, Piped.record_short v (by rw [← h.bytes]; exact h8), h.fin]
  · rw [Piped.record_run v h8, Piped.record_run v (by rw [← h.bytes]; exact h8),
      show headerAt f = headerAt g by unfold headerAt; rw [h.bytes, h.cfg]]
    refine Piped.recordWithHeader_congr v _ h.cfg (by rw [Flat.adv_al, Flat.adv_al, hf, hg]) ?_
    rw [Flat.adv_bytes, Flat.adv_bytes, h.bytes]
    rcases Nat.lt_or_ge (g.s.bytes.drop 8).length ((headerAt g).size.toNat - 8) with h2 | h2
    · exact .inr ⟨h2, h2, h.fin⟩
    · exact .inl ⟨h2, h2, rfl⟩

/-- **C86** Between any two lawful buffers of temporary chunks: the same bytes and the same error behind them give the same result,
wherever in its input each parser is. -/
theorem c86_chunking {β γ : Type} [ParseBuf β] [Lawful β] [ParseBuf γ] [Lawful γ] {p : Parser β} {q : Parser γ} {f g : Flat}
    (hp : RepP p f) (hq : RepP q g) (h : SameBytes f g) (hf : f.s.al = .temp) (hg : g.s.al = .temp) (v : Visitor Cow O) :
    (P.record v p).res = (P.record v q).res := by
  rw [(c86_temporary hp hf v).1, (c86_temporary hq hg v).1, Piped.record_congr v h hf hg]

/-- The first block decides the result. -/
theorem Piped.record_alone (v : Visitor Cow O) (f : Flat) (hal : f.s.al = .temp)
    (h : Complete f.cfg (f.s.bytes.take (firstLen f.cfg f.s.bytes)) ∨ f.s.fin = .eof) :
    (Piped.record v).result f = (Piped.record v).result (.through (f.s.bytes.take (firstLen f.cfg f.s.bytes)) .eof f.cfg) := by
  have hle : firstLen f.cfg f.s.bytes ≤ f.s.bytes.length := Nat.min_le_right _ _
  have hl : (f.s.bytes.take (firstLen f.cfg f.s.bytes)).length = firstLen f.cfg f.s.bytes := by
    rw [List.length_take]; exact Nat.min_eq_left hle
  by_cases h8 : f.s.bytes.length < 8
  · have hf : f.s.fin = .eof := h.resolve_left fun h => by
      have := h.1
      omega
    rw [Piped.record_short v h8, Piped.record_short v (show (f.s.bytes.take _).length < 8 by omega), hf]
    rfl
  · have h8' : 8 ≤ firstLen f.cfg f.s.bytes := by unfold firstLen; omega
    have hhd : headerAt (.through (f.s.bytes.take (firstLen f.cfg f.s.bytes)) .eof f.cfg) = headerAt f := by
      unfold headerAt Flat.through
      dsimp only
      rw [List.drop_take, List.drop_take, List.take_take, List.take_take, List.take_take, Nat.min_eq_left (by omega),
        Nat.min_eq_left (by omega), Nat.min_eq_left (by omega)]
    have hsz : (headerAt f).size.toNat = sizeField f.cfg f.s.bytes := rfl
    rw [Piped.record_run v (f := f) (by omega), Piped.record_run v (show 8 ≤ (f.s.bytes.take _).length by omega), hhd]
    have hb : (Flat.adv (.through (f.s.bytes.take (firstLen f.cfg f.s.bytes)) .eof f.cfg) 8).s.bytes =
        (f.s.bytes.take (firstLen f.cfg f.s.bytes)).drop 8 := rfl
    refine Piped.recordWithHeader_congr v _ rfl (by rw [Flat.adv_al, hal]; rfl) ?_
    rw [hb, hsz, Flat.adv_bytes, List.length_drop, List.length_drop, hl]
    by_cases hs : sizeField f.cfg f.s.bytes ≤ f.s.bytes.length
    · have e : firstLen f.cfg f.s.bytes = max 8 (sizeField f.cfg f.s.bytes) := by unfold firstLen; omega
      refine .inl ⟨by omega, by omega, ?_⟩
      rw [List.drop_take, List.take_take, Nat.min_eq_left (by omega)]
    · have e : firstLen f.cfg f.s.bytes = f.s.bytes.length := by unfold firstLen; omega
      refine .inr ⟨by omega, by omega, ?_⟩
      refine h.resolve_left fun h => ?_
      have h2 : sizeField f.cfg (f.s.bytes.take (firstLen f.cfg f.s.bytes)) ≤ _ := h.2
      rw [e, List.take_length] at h2
      omega

/-- After a complete block, parsed or not, the parser is behind it. -/
theorem Fed.after {β : Type} [ParseBuf β] [Lawful β] {p : Parser β} {f : Flat} (hp : Fed p f) (v : Visitor Cow O)
    (hc : Complete f.cfg (f.s.bytes.take (firstLen f.cfg f.s.bytes))) :
    Fed (P.record v p).st (f.adv (firstLen f.cfg f.s.bytes)) := by
  have hle : firstLen f.cfg f.s.bytes ≤ f.s.bytes.length := Nat.min_le_right _ _
  have h8 := hc.1
  rw [List.length_take] at h8
  have hs : sizeField f.cfg (f.s.bytes.take (firstLen f.cfg f.s.bytes)) ≤ _ := hc.2
  have hsz : sizeField f.cfg (f.s.bytes.take (firstLen f.cfg f.s.bytes)) = sizeField f.cfg f.s.bytes := by
    unfold sizeField
    rw [List.drop_take, List.take_take, Nat.min_eq_left (by omega)]
  rw [hsz, List.length_take] at hs
  have e : firstLen f.cfg f.s.bytes = max 8 (sizeField f.cfg f.s.bytes) := by
    have : firstLen f.cfg f.s.bytes ≤ max 8 (sizeField f.cfg f.s.bytes) := Nat.min_le_left _ _
    omega
  have hsz : (headerAt f).size.toNat = sizeField f.cfg f.s.bytes := rfl
  refine hp.adv ?_
  rcases P.record_run hp.rep v with ⟨h, -⟩ | ⟨-, q, hq, -, h1⟩
  · omega
  rw [h1]
  by_cases hlt : (headerAt f).size.toNat < 8
  · unfold P.recordWithHeader P.metadataWithHeader
    rw [if_pos hlt, P.bind_err (show P.fail _ q = ⟨.error _, q, []⟩ from rfl), show firstLen f.cfg f.s.bytes = 8 by omega]
    exact hq
  · have h2 := ((P.recordWithHeader_run hq v (headerAt f)).1 (by omega) (by rw [Flat.adv_bytes, List.length_drop]; omega)).1
    rw [Flat.adv_adv, show 8 + ((headerAt f).size.toNat - 8) = firstLen f.cfg f.s.bytes by omega] at h2
    exact h2

/-- What each block gives, on its own. -/
def piped (v : Visitor Cow O) (cfg : ParseConfig) (blocks : List (List Byte)) : List (Except Fault O) :=
  blocks.map fun b => (Piped.record v).result (.through b .eof cfg)

/-- **C86** Any number of calls on any lawful buffer of temporary chunks: as long as the blocks are complete, the calls return what each
block gives on its own. -/
theorem c86_calls {β : Type} [ParseBuf β] [Lawful β] (v : Visitor Cow O) (k : Nat) {p : Parser β} {f : Flat} (hp : RepP p f) (ht : f.s.al = .temp)
    (hk : k ≤ (cut f.cfg f.s.bytes).length) (hc : ∀ b ∈ (cut f.cfg f.s.bytes).take k, Complete f.cfg b) :
    (visitMany v k p).1 = piped v f.cfg ((cut f.cfg f.s.bytes).take k) := by
  induction k generalizing p f with
  | zero => rfl
  | succ k ih =>
    by_cases hne : f.s.bytes = []
    · rw [hne, cut_nil] at hk
      exact absurd hk (by simp)
    rw [cut_cons f.cfg hne, List.take_succ_cons] at hc ⊢
    rw [cut_cons f.cfg hne, List.length_cons] at hk
    have hb := hc _ (List.mem_cons_self ..)
    have hq := Fed.after ⟨hp, ht⟩ v hb
    have h1 := ih hq.rep hq.al (by rw [Flat.adv_bytes]; exact Nat.le_of_succ_le_succ hk)
      (fun b h => hc b (List.mem_cons_of_mem _ (by rw [Flat.adv_bytes] at h; exact h)))
    unfold visitMany
    rw [h1, (c86_temporary hp ht v).1, Piped.record_alone v f ht (.inl hb), Flat.adv_bytes]
    rfl

/-- **C86** The same for readers: what the calls return depends only on the blocks; the portions may be any, and whatever happens behind the
complete records does not matter. -/
theorem c86_reader_calls (es : List ReadEvent) (hw : cfg.Wf) (v : Visitor Cow O) (k : Nat) (hk : k ≤ (cut cfg (scriptBytes es)).length)
    (hc : ∀ b ∈ (cut cfg (scriptBytes es)).take k, Complete cfg b) :
    (visitMany v k (Parser.new (⟨[], es⟩ : BufReader) cfg)).1 = piped v cfg ((cut cfg (scriptBytes es)).take k) :=
  c86_calls v k (RepP.reader es hw) rfl hk hc

theorem settled_eof {es : List ReadEvent} (h : Settles es) (he : (scriptFin es).kind = .eof) : scriptFin es = .eof := by
  induction es with
  | nil => rfl
  | cons e es ih =>
    match e, h, he with
    | .data [], _, _ => rfl
    | .data (_ :: _), h, he => exact ih h he
    | .error e, h, he =>
      have h : e.unexpectedEof = false := h
      unfold scriptFin ParseError.ofIo at he
      rw [h] at he
      cases he

section
variable {β : Type} [ParseBuf β] [LawfulEof β]

theorem each_temporary (v : Visitor Cow O) : ∀ (n : Nat) (p : Parser β) (f : Flat), (cut f.cfg f.s.bytes).length = n → RepP p f →
    f.s.al = .temp → f.s.fin = .eof → (visitMany v n p).1 = piped v f.cfg (cut f.cfg f.s.bytes) := by
  intro n
  induction n with
  | zero =>
    intro p f hn _ _ _
    rw [List.length_eq_zero_iff.mp hn]
    rfl
  | succ n ih =>
    intro p f hn hp ht hf
    by_cases hne : f.s.bytes = []
    · rw [hne, cut_nil] at hn
      cases hn
    rw [cut_cons f.cfg hne] at hn ⊢
    have hq := c67_record hp (by rw [hf]; rfl) v
    rw [recordEnd_eq] at hq
    have h1 := ih _ _ (by rw [Flat.adv_bytes]; exact Nat.succ.inj hn) hq (by rw [Flat.adv_al, ht]; rfl) hf
    unfold visitMany
    rw [h1, (c86_temporary hp ht v).1, Piped.record_alone v f ht (.inr hf), Flat.adv_bytes]
    rfl

variable {γ : Type} [ParseBuf γ] [LawfulEof γ]

/-- **C86** Two buffers of temporary chunks that stand for the same bytes and keep reporting their end: any number of calls returns the
same. -/
theorem c86_loops_temporary (v : Visitor Cow O) (k : Nat) {p : Parser β} {q : Parser γ} {f g : Flat} (hp : RepP p f) (hq : RepP q g)
    (hf : f.s.al = .temp) (hg : g.s.al = .temp) (h : SameBytes f g) (he : f.s.fin.kind = .eof) :
    (visitMany v k p).1 = (visitMany v k q).1 := by
  induction k generalizing p q f g with
  | zero => rfl
  | succ k ih =>
    have h1 := c67_record hp he v
    have h2 := c67_record hq (by rw [← h.fin]; exact he) v
    rw [recordEnd_eq] at h1 h2
    rw [← h.cfg, ← h.bytes] at h2
    have h3 := ih h1 h2 (by rw [Flat.adv_al, hf]; rfl) (by rw [Flat.adv_al, hg]; rfl)
      ⟨by rw [Flat.adv_bytes, Flat.adv_bytes, h.bytes], h.fin, h.cfg⟩ he
    unfold visitMany
    rw [h3, c86_chunking hp hq h hf hg v]

end

/-- **C86** A whole loop over a reader that ends: the results are those of the blocks, each on its own, the last one too if it is cut off. -/
theorem c86_each {es : List ReadEvent} (hs : Settles es) (he : (scriptFin es).kind = .eof) (hw : cfg.Wf) (v : Visitor Cow O) :
    (visitMany v (cut cfg (scriptBytes es)).length (Parser.new (⟨[], es⟩ : BufReader) cfg)).1 = piped v cfg (cut cfg (scriptBytes es)) :=
  @each_temporary O BufReader _ BufReader.settled v _ _ (.through (scriptBytes es) (scriptFin es) cfg) rfl (RepP.settled hs hw) rfl
    (settled_eof hs he)

/-- **C86** Two readers that end and deliver the same bytes: any number of calls returns the same. -/
theorem c86_loops {es fs : List ReadEvent} (hs : Settles es) (hs' : Settles fs) (he : (scriptFin es).kind = .eof)
    (he' : (scriptFin fs).kind = .eof) (hb : scriptBytes es = scriptBytes fs) (hw : cfg.Wf) (v : Visitor Cow O) (k : Nat) :
    (visitMany v k (Parser.new (⟨[], es⟩ : BufReader) cfg)).1 = (visitMany v k (Parser.new (⟨[], fs⟩ : BufReader) cfg)).1 :=
  @c86_loops_temporary O BufReader _ BufReader.settled BufReader _ BufReader.settled v k _ _ _ _ (RepP.settled hs hw) (RepP.settled hs' hw)
    rfl rfl ⟨hb, by rw [show _ = scriptFin es from rfl, settled_eof hs he, ← settled_eof hs' he']; rfl, rfl⟩ he

/-- **C86** The loop over a reader that ends is over after as many calls as there are blocks, and then reports the end. -/
theorem c86_end {es : List ReadEvent} (hs : Settles es) (he : (scriptFin es).kind = .eof) (hw : cfg.Wf) (v : Visitor Cow O) (k : Nat)
    (hk : (cut cfg (scriptBytes es)).length ≤ k) :
    (P.record v (visitMany v k (Parser.new (⟨[], es⟩ : BufReader) cfg)).2).res = .error (.err .eof) := by
  have h := (@c73_end BufReader O _ BufReader.settled _ _ (RepP.settled hs hw) he v k hk).2
  rw [h]
  show Except.error (Fault.err (scriptFin es)) = _
  rw [settled_eof hs he]

end

/-- A TEXT_POKE without old bytes and with four new ones, one of the records where C02 fails, and the start of another record. -/
def demoPoked : List Byte :=
  [20, 0, 0, 0, 0, 0, 24, 0, 1, 0, 0, 0, 0, 0, 0, 0, 0, 0, 4, 0, 1, 2, 3, 4, 20, 0, 0]

/-- The hypotheses hold for four portionings of these bytes; all of them give the same, wrong, old bytes, and the slice the right ones. -/
theorem c86_example :
    let ds : List (List Nat) := [[27], [1, 26], [20, 1, 6], [5, 5, 5, 5, 5, 2]]
    let read (ns : List Nat) : List ReadEvent := (ns.foldl (fun r n => (r.1 ++ [ReadEvent.data (r.2.take n)], r.2.drop n)) ([], demoPoked)).1
    ds.all (fun ns => decide (scriptBytes (read ns) = demoPoked ∧ scriptFin (read ns) = .eof) &&
      (match (visitMany (recordVisitor Cow) 2 (Parser.new (⟨[], read ns⟩ : BufReader) demoCfg)).1 with
        | [.ok (.textPoke r), .error (.err e)] => r.oldBytes == .owned [1, 2, 3, 4] && r.newBytes == .borrowed [] && e == .eof
        | _ => false)) = true ∧
    (match (visitMany (recordVisitor Cow) 2 (Parser.new (⟨0, demoPoked⟩ : Slice) demoCfg)).1 with
      | [.ok (.textPoke r), .error (.err e)] => r.oldBytes == .borrowed [] && r.newBytes == .borrowed [1, 2, 3, 4] && e == .eof
      | _ => false) = true ∧
    cut demoCfg demoPoked = [demoPoked.take 24, [20, 0, 0]] := by decide +kernel

/-- Readers that settle and one that does not. -/
example : Settles [.data [1], .data [2, 3]] ∧ Settles [.data [1], .data [], .data []] ∧ Settles [.data [1], .error ⟨false, "no"⟩, .data [2]] ∧
    ¬ Settles [.data [1], .data [], .data [2]] :=
  ⟨trivial, by intro e he; simpa using he, rfl, fun h => by cases h _ (List.mem_singleton.mpr rfl)⟩

/-- Why the loops need readers that settle: this one goes on after an end of file, in the middle of a record, and the second call sees the rest. -/
theorem c86_unsettled : scriptBytes [.data (demoLost.take 20), .data [], .data (demoLost ++ demoLost)] = scriptBytes [.data (demoLost.take 20)] ∧
    scriptFin [.data (demoLost.take 20), .data [], .data (demoLost ++ demoLost)] = scriptFin [.data (demoLost.take 20)] ∧
    (match (visitMany (recordVisitor Cow) 2 (Parser.new
          (⟨[], [.data (demoLost.take 20), .data [], .data (demoLost ++ demoLost)]⟩ : BufReader) demoCfg)).1,
        (visitMany (recordVisitor Cow) 2 (Parser.new (⟨[], [.data (demoLost.take 20)]⟩ : BufReader) demoCfg)).1 with
      | [.error (.err e), .ok (.lost r)], [.error (.err e'), .error (.err e'')] => e == .eof && r == ⟨7, 3⟩ && e' == .eof && e'' == .eof
      | _, _ => false) = true := by decide +kernel

end Perf
